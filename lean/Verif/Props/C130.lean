import Verif.Spec.OwnTable
import Verif.Props.C105
import Verif.Props.C123
import Verif.Props.C83_C86

/-! # C130: tables of the user's own types -/

namespace Mpegts
open Spec Spec.Table

namespace OwnTable

/-- C130: without a hook, the table is sent as the crate's own tables are. -/
theorem C130_default (p : Profile) (L : R (List Psi)) (pid : UInt16) (cc : UInt8) (dst : List UInt8) :
    (⟨L, .ok⟩ : OwnTable).demux p pid cc dst = (do psiDemux p (← L) pid cc dst) := by
  have key : ∀ (l : List Psi) last n cc dst, demuxLoop p ⟨L, .ok⟩ pid last n l cc dst = psiDemuxLoop p pid last n l cc dst := by
    intro l
    induction l with
    | nil => intros; rfl
    | cons x r ih =>
      intro last n cc dst
      rw [demuxLoop, psiDemuxLoop]
      simp only [ok_bind, ih]
  unfold demux psiDemux
  simp only [key]
  cases L with
  | error e => rfl
  | ok l => simp only [ok_bind]; split <;> rfl

/-- C130: a table without sections sends nothing and leaves the counter. -/
theorem C130_empty (p : Profile) (t : OwnTable) (h : t.sections = .ok []) (pid : UInt16) (cc : UInt8) (dst : List UInt8) :
    t.demux p pid cc dst = .ok (cc, dst) := by
  unfold demux
  rw [h, ok_bind]
  rfl

theorem finalize_finished (p : Profile) (s : Psi) (sec : List UInt8) (h : Finished s sec) :
    ∃ b, s.finalize p = .ok { s with buffer := b, size := sec.length } ∧ b.take sec.length = sec ∧ sec.length ≤ b.length ∧ 0 < sec.length := by
  rcases h with ⟨h0, h3, rfl⟩ | ⟨h4, hl, rfl⟩
  · refine ⟨_, ?_, List.take_length, Nat.le_refl _, ?_⟩
    · rw [Spill.finalize_eq p s h0 h3, Spill.complete_length h3]
    · rw [Spill.complete_length h3]; omega
  · have e : (s.buffer.take (s.size - 4) ++ beBytes 4 (crc32 (s.buffer.take (s.size - 4))).toNat).length = s.size := by
      simp only [List.length_append, List.length_take, beBytes_length]; omega
    refine ⟨_ ++ s.buffer.drop s.size, (C49_refinalize p s h4 hl).trans (by rw [e]), ?_, ?_, by omega⟩
    · exact List.take_left' rfl
    · simp only [List.length_append]; omega

theorem loop_sent (p : Profile) (t : OwnTable) (pid : UInt16) (hp : pid.toNat < 8192) (last : Nat) (l : List Psi) (secs : List (List UInt8)) (k : Nat)
    (hl : secs.length = l.length)
    (h : ∀ n (psi : Psi) sec, l[n]? = some psi → secs[n]? = some sec → 8 ≤ psi.buffer.length ∧
      ∃ s, t.finalize { psi with buffer := withNumbers (k + n) last psi.buffer } = .ok s ∧ Finished s sec)
    (cc : UInt8) (hc : cc.toNat < 16) (dst : List UInt8) :
    demuxLoop p t pid (UInt8.ofNat last) k l cc dst = .ok (UInt8.ofNat ((cc.toNat + streamCount secs) % 16),
      dst ++ (stream pid.toNat cc.toNat secs).flatten) := by
  induction l generalizing secs k cc dst with
  | nil =>
    obtain rfl : secs = [] := List.eq_nil_of_length_eq_zero hl
    simp [demuxLoop, stream, streamCount, Nat.mod_eq_of_lt hc]
  | cons x r ih =>
    obtain ⟨sec, secs, rfl⟩ := List.exists_cons_of_length_eq_add_one hl
    obtain ⟨h8, s, hs, hf⟩ := h 0 x sec rfl rfl
    have e : (x.buffer.set 6 (UInt8.ofNat k)).set 7 (UInt8.ofNat last) = withNumbers k last x.buffer := by
      obtain ⟨a0, a1, a2, a3, a4, a5, a6, a7, r, hr⟩ : ∃ a0 a1 a2 a3 a4 a5 a6 a7 r, x.buffer = a0 :: a1 :: a2 :: a3 :: a4 :: a5 :: a6 :: a7 :: r := by
        match hx : x.buffer, h8 with
        | a0 :: a1 :: a2 :: a3 :: a4 :: a5 :: a6 :: a7 :: r, _ => exact ⟨_, _, _, _, _, _, _, _, _, rfl⟩
      rw [hr]; rfl
    rw [demuxLoop, setIdx_ok _ (by omega), ok_bind, setIdx_ok _ (by rw [List.length_set]; omega), ok_bind, e]
    rw [Nat.add_zero] at hs
    obtain ⟨b, hb, hb1, hb2, hb3⟩ := finalize_finished p s sec hf
    rw [hs, ok_bind, hb, ok_bind]
    simp only []
    rw [C40_demux p _ dst (by exact hb3) (by exact hb2) (by exact hp) (by exact hc), ok_bind]
    simp only [hb1]
    have ec : (UInt8.ofNat ((cc.toNat + packetCount sec.length) % 16)).toNat = (cc.toNat + packetCount sec.length) % 16 := by
      rw [UInt8.toNat_ofNat']; omega
    rw [ih secs (k + 1) (by simpa using hl) ?_ _ (by rw [ec]; omega), ec, stream_mod]
    · simp only [streamCount, stream, List.map_cons, List.sum_cons, List.flatten_append, List.append_assoc, Nat.mod_add_mod, Nat.add_assoc]
    · intro n psi sec' h1 h2
      have := h (n + 1) psi sec' (by simpa using h1) (by simpa using h2)
      rwa [show k + (n + 1) = k + 1 + n by omega] at this

/-- C130: whatever sections the table has, and whatever its hook makes of each of them, these are sent, in order: with the number and the
last number (modulo 256) in bytes 6 and 7 when the hook sees it, and length and CRC added after the hook. -/
theorem C130_sent (p : Profile) (t : OwnTable) (l : List Psi) (hl : t.sections = .ok l) (secs : List (List UInt8)) (hs : secs.length = l.length)
    (h : ∀ n (psi : Psi) sec, l[n]? = some psi → secs[n]? = some sec → 8 ≤ psi.buffer.length ∧
      ∃ s, t.finalize { psi with buffer := withNumbers n (l.length - 1) psi.buffer } = .ok s ∧ Finished s sec)
    (pid : UInt16) (cc : UInt8) (dst : List UInt8) (hp : pid.toNat < 8192) (hc : cc.toNat < 16) :
    t.demux p pid cc dst = .ok (UInt8.ofNat ((cc.toNat + streamCount secs) % 16), dst ++ (stream pid.toNat cc.toNat secs).flatten) := by
  unfold demux
  rw [hl, ok_bind]
  cases l with
  | nil =>
    obtain rfl : secs = [] := List.eq_nil_of_length_eq_zero hs
    simp [stream, streamCount, Nat.mod_eq_of_lt hc, pure_eq_ok]
  | cons x r =>
    exact loop_sent p t pid hp ((x :: r).length - 1) (x :: r) secs 0 hs (by simpa only [Nat.zero_add] using h) cc hc dst

/-- C130: and they arrive: every other receiver gets exactly them, in order, provided that the length each states is the one it has and that
none starts with the byte of stuffing. -/
theorem C130_received (p : Profile) (t : OwnTable) (l : List Psi) (hl : t.sections = .ok l) (secs : List (List UInt8)) (hs : secs.length = l.length)
    (h : ∀ n (psi : Psi) sec, l[n]? = some psi → secs[n]? = some sec → 8 ≤ psi.buffer.length ∧
      ∃ s, t.finalize { psi with buffer := withNumbers n (l.length - 1) psi.buffer } = .ok s ∧ Finished s sec)
    (hv : ∀ s ∈ secs, IsSection s ∧ s.head? ≠ some 0xFF)
    (pid : UInt16) (cc : UInt8) (dst : List UInt8) (hp : pid.toNat < 8192) (hc : cc.toNat < 16) :
    Reaches (t.demux p pid cc dst) pid dst secs :=
  reaches_of_sends hp ⟨fun s hs => (hv s hs).1, C130_sent p t l hl secs hs h pid cc dst hp hc⟩ fun s hs => (hv s hs).2

theorem finished_crc {s : Psi} {sec : List UInt8} (h : Finished s sec) : crc32 sec = 0 := by
  rcases h with ⟨-, -, rfl⟩ | ⟨-, -, rfl⟩
  · exact crc32_append_self _
  · exact crc32_append_self _

/-- C130: a program that collects sections with the crate's own reassembler gets exactly them too. -/
theorem C130_collected (p : Profile) (t : OwnTable) (l : List Psi) (hl : t.sections = .ok l) (secs : List (List UInt8)) (hs : secs.length = l.length)
    (h : ∀ n (psi : Psi) sec, l[n]? = some psi → secs[n]? = some sec → 8 ≤ psi.buffer.length ∧
      ∃ s, t.finalize { psi with buffer := withNumbers n (l.length - 1) psi.buffer } = .ok s ∧ Finished s sec)
    (hv : ∀ s ∈ secs, IsSection s ∧ 7 < s.length)
    (pid : UInt16) (cc : UInt8) (dst : List UInt8) (hp : pid.toNat < 8192) (hc : cc.toNat < 16) (s : Psi) :
    ∃ cc' pks, t.demux p pid cc dst = .ok (cc', dst ++ pks.flatten) ∧ Spec.sections p s pks = .ok secs := by
  refine ⟨_, _, C130_sent p t l hl secs hs h pid cc dst hp hc, ?_⟩
  have hcrc : ∀ x ∈ secs, crc32 x = 0 := by
    intro x hx
    obtain ⟨n, hn⟩ := List.getElem?_of_mem hx
    obtain ⟨y, hy⟩ : ∃ y, l[n]? = some y := by
      have := (List.getElem?_eq_some_iff.1 hn).1
      exact ⟨l[n], List.getElem?_eq_getElem (by omega)⟩
    obtain ⟨-, s, -, hf⟩ := h n y x hy hn
    exact finished_crc hf
  have e1 : ∀ (l : List (List UInt8)) n, received (fun _ => true) n l = l := by
    intro l
    induction l with
    | nil => intro _; rfl
    | cons a r ih => intro n; simp [received, ih]
  have e2 : ∀ (l : List (List UInt8)) n, intact (fun _ => true) n l = l := by
    intro l
    induction l with
    | nil => intro _; rfl
    | cons a r ih => intro n; simp [intact, ih]
  have := C83_loss_partial p pid.toNat cc.toNat hp (fun _ => true) secs (fun x hx => ⟨(hv x hx).1, (hv x hx).2, hcrc x hx⟩) rfl
    (fun i j _ _ _ h => Bool.noConfusion h) s
  rwa [e1, e2] at this

/-- C130: nothing is sent of a table that has a section of fewer than eight bytes, whatever the hook: there is no place for the numbers. -/
theorem C130_short (p : Profile) (t : OwnTable) (l : List Psi) (hl : t.sections = .ok l) (h : ∃ psi ∈ l, psi.buffer.length < 8) (pid : UInt16)
    (cc : UInt8) (dst : List UInt8) (y : UInt8 × List UInt8) : t.demux p pid cc dst ≠ .ok y := by
  have key : ∀ (l : List Psi), (∃ psi ∈ l, psi.buffer.length < 8) → ∀ last n cc dst, demuxLoop p t pid last n l cc dst ≠ .ok y := by
    intro l
    induction l with
    | nil => rintro ⟨x, hx, -⟩; cases hx
    | cons a r ih =>
      rintro ⟨x, hx, h8⟩ last n cc dst e
      rw [demuxLoop] at e
      obtain ⟨b1, h1, e⟩ := bind_eq_ok.1 e
      obtain ⟨b2, h2, e⟩ := bind_eq_ok.1 e
      obtain ⟨s1, -, e⟩ := bind_eq_ok.1 e
      obtain ⟨s2, -, e⟩ := bind_eq_ok.1 e
      obtain ⟨⟨s3, d⟩, -, e⟩ := bind_eq_ok.1 e
      rcases List.mem_cons.1 hx with rfl | hx
      · unfold setIdx at h1 h2
        split at h1
        · injection h1 with h1
          subst h1
          split at h2
          · rename_i hlt
            rw [List.length_set] at hlt
            omega
          · cases h2
        · cases h1
      · exact ih ⟨x, hx, h8⟩ _ _ _ _ e
  unfold demux
  rw [hl, ok_bind]
  cases l with
  | nil => obtain ⟨x, hx, -⟩ := h; cases hx
  | cons a r => exact key _ h _ _ _ _

/-! ## Concrete cases -/

/-- A table of two sections (table_id 0x90), the second finished by the user; the hook writes the last section number also into byte 8. -/
def twoSections : OwnTable where
  sections := .ok [{ Psi.default with buffer := [0x90, 0xB0, 0, 0, 1, 0xC1, 0, 0, 0, 7, 7, 7] },
    ⟨[0x90, 0xB0, 10, 0, 1, 0xC1, 0, 0, 0, 0, 0, 0, 0, 5, 5, 5], 13, 0x99, 3⟩]
  finalize := fun s => .ok { s with buffer := s.buffer.set 8 (s.buffer.getD 7 0) }

def twoSent : List (List UInt8) :=
  [Spec.Spill.complete [0x90, 0xB0, 0, 0, 1, 0xC1, 0, 1, 1, 7, 7, 7],
   [0x90, 0xB0, 10, 0, 1, 0xC1, 1, 1, 1] ++ beBytes 4 (crc32 [0x90, 0xB0, 10, 0, 1, 0xC1, 1, 1, 1]).toNat]

theorem twoSections_sent : ∀ n (psi : Psi) sec,
    [{ Psi.default with buffer := [0x90, 0xB0, 0, 0, 1, 0xC1, 0, 0, 0, 7, 7, 7] },
      (⟨[0x90, 0xB0, 10, 0, 1, 0xC1, 0, 0, 0, 0, 0, 0, 0, 5, 5, 5], 13, 0x99, 3⟩ : Psi)][n]? = some psi → twoSent[n]? = some sec →
    8 ≤ psi.buffer.length ∧
      ∃ s, twoSections.finalize { psi with buffer := withNumbers n 1 psi.buffer } = .ok s ∧ Finished s sec := by
  intro n psi sec h1 h2
  match n with
  | 0 =>
    simp only [twoSent, List.getElem?_cons_zero, Option.some.injEq] at h1 h2
    subst h1 h2
    exact ⟨by decide, _, rfl, .inl ⟨rfl, by decide, rfl⟩⟩
  | 1 =>
    simp only [twoSent, List.getElem?_cons_zero, List.getElem?_cons_succ, Option.some.injEq] at h1 h2
    subst h1 h2
    exact ⟨by decide, _, rfl, .inr ⟨by decide, by decide, rfl⟩⟩
  | n + 2 => simp at h1

example (p : Profile) (pid : UInt16) (cc : UInt8) (dst : List UInt8) (hp : pid.toNat < 8192) (hc : cc.toNat < 16) (s : Psi) :
    twoSections.demux p pid cc dst = .ok (UInt8.ofNat ((cc.toNat + 2) % 16), dst ++ (stream pid.toNat cc.toNat twoSent).flatten) ∧
    Reaches (twoSections.demux p pid cc dst) pid dst twoSent ∧
    ∃ cc' pks, twoSections.demux p pid cc dst = .ok (cc', dst ++ pks.flatten) ∧ Spec.sections p s pks = .ok twoSent := by
  have h1 : ∀ s ∈ twoSent, IsSection s ∧ s.head? ≠ some 0xFF := by decide +kernel
  have h2 : ∀ s ∈ twoSent, IsSection s ∧ 7 < s.length := by decide +kernel
  have e : streamCount twoSent = 2 := by decide +kernel
  refine ⟨?_, C130_received p twoSections _ rfl twoSent rfl twoSections_sent h1 pid cc dst hp hc,
    C130_collected p twoSections _ rfl twoSent rfl twoSections_sent h2 pid cc dst hp hc s⟩
  rw [C130_sent p twoSections _ rfl twoSent rfl twoSections_sent pid cc dst hp hc, e]

example (p : Profile) (pid : UInt16) (cc : UInt8) (dst : List UInt8) (y) :
    (⟨.ok [{ Psi.default with buffer := [0x70, 0x70, 5, 0, 0, 0, 0] }], .ok⟩ : OwnTable).demux p pid cc dst ≠ .ok y :=
  C130_short p _ _ rfl ⟨_, List.mem_cons_self, by decide⟩ pid cc dst y

example (p : Profile) (pid : UInt16) (cc : UInt8) (dst : List UInt8) : (⟨.ok [], .ok⟩ : OwnTable).demux p pid cc dst = .ok (cc, dst) :=
  C130_empty p _ rfl pid cc dst

end OwnTable

end Mpegts
