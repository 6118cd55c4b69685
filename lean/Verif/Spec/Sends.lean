import Verif.Model.Psi
import Verif.Spec.Tables

/-! # Specification: what a call that sends a table does

A table's `demux` is given a PID, a continuity counter and the bytes sent so far, and returns the next counter and all bytes. -/

namespace Spec
open Spec.Table Mpegts

/-- The number in bytes `i` to `i + n - 1`. -/
def bytesAt (sec : List UInt8) (i n : Nat) : Nat := beNat ((sec.drop i).take n)

/-- table_id. -/
def tableIdOf (sec : List UInt8) : Nat := bytesAt sec 0 1
/-- version_number: bits 1 to 5 of byte 5. -/
def versionOf (sec : List UInt8) : Nat := bytesAt sec 5 1 / 2 % 32
/-- section_number. -/
def numberOf (sec : List UInt8) : Nat := bytesAt sec 6 1
/-- last_section_number. -/
def lastOf (sec : List UInt8) : Nat := bytesAt sec 7 1
/-- segment_last_section_number of an EIT section. -/
def segmentLastOf (sec : List UInt8) : Nat := bytesAt sec 12 1
/-- last_table_id of an EIT section. -/
def lastTableOf (sec : List UInt8) : Nat := bytesAt sec 13 1
/-- The events of an EIT section: what stands between the 14 bytes of its header and the CRC. -/
def eventBytes (sec : List UInt8) : List UInt8 := (sec.take (sec.length - 4)).drop 14
/-- The segment to which an EIT section belongs: 32 for each table id from the first one on, eight section numbers each. -/
def segmentAt (firstTable : Nat) (sec : List UInt8) : Nat := (tableIdOf sec - firstTable) * 32 + numberOf sec / 8

/-- The result `r` of a call is that exactly the sections `secs` have been sent: they are well formed, their packets are appended,
and the counter has advanced by one for each packet. -/
def Sends (r : R (UInt8 × List UInt8)) (pid : UInt16) (cc : UInt8) (dst : List UInt8) (secs : List (List UInt8)) : Prop :=
  (∀ sec ∈ secs, IsSection sec) ∧
  r = .ok (UInt8.ofNat ((cc.toNat + streamCount secs) % 16), dst ++ (stream pid.toNat cc.toNat secs).flatten)

/-- The events of the `k`-th section are those of the `k`-th group. -/
def Carry {α : Type} (entry : α → List UInt8) (secs : List (List UInt8)) (groups : List (List α)) : Prop :=
  secs.length = groups.length ∧
  ∀ (k : Nat) (sec : List UInt8) (g : List α), secs[k]? = some sec → groups[k]? = some g → eventBytes sec = g.flatMap entry

example : versionOf [0x42, 0xF0, 0x00, 0x12, 0x34, 0xCB, 0x01, 0x02] = 5 ∧ numberOf [0x42, 0xF0, 0x00, 0x12, 0x34, 0xCB, 0x01, 0x02] = 1 ∧
    lastOf [0x42, 0xF0, 0x00, 0x12, 0x34, 0xCB, 0x01, 0x02] = 2 := by decide

end Spec
