import Verif.Props.C41_C48

/-! # C78, C79: several PIDs, and packets without a section start -/

namespace Mpegts
open Spec

theorem route_cons (p : Profile) (σ : Nat → Psi) (ts : List UInt8) (pks : List (List UInt8)) (hl : ts.length = 188) :
    route p σ (ts :: pks) = ((σ (pidOf ts)).mux p ts >>= fun s => route p (fun i => if i = pidOf ts then s else σ i) pks) := by
  obtain ⟨q, h1, h2⟩ := getPid_eq hl
  unfold route
  rw [List.foldlM_cons, h1, ok_bind, h2, bind_assoc]
  simp only [pure_eq_ok, ok_bind]

/-- C78: the reassemblers of different PIDs do not influence each other: if every PID's own packets are taken
without panic, the mixed stream is, and each reassembler ends up as if it had seen only its own packets. -/
theorem C78_independent (p : Profile) (σ τ : Nat → Psi) (pks : List (List UInt8)) (hl : ∀ ts ∈ pks, ts.length = 188)
    (h : ∀ pid, feed p (σ pid) (pks.filter fun ts => decide (pidOf ts = pid)) = .ok (τ pid)) :
    route p σ pks = .ok τ := by
  induction pks generalizing σ with
  | nil =>
    have : σ = τ := by
      funext pid
      have := h pid
      rw [List.filter_nil, feed_nil] at this
      injection this
    rw [this]; rfl
  | cons ts pks ih =>
    rw [route_cons p σ ts pks (hl ts (by simp))]
    have hown := h (pidOf ts)
    rw [List.filter_cons_of_pos (by simp), feed_cons, bind_eq_ok] at hown
    obtain ⟨s, h1, h2⟩ := hown
    rw [h1, ok_bind]
    apply ih _ (fun t ht => hl t (by simp [ht]))
    intro pid
    by_cases hp : pid = pidOf ts
    · subst hp; simp only [if_true]; exact h2
    · rw [if_neg hp]
      have := h pid
      rwa [List.filter_cons_of_neg (by simp; exact fun h => hp h.symm)] at this

/-- C78: sections packetised on distinct PIDs and interleaved in any order that keeps the order of each PID are all
reassembled; the reassemblers of other PIDs stay as they were. -/
theorem C78_interleaved (p : Profile) (σ : Nat → Psi) (pks : List (List UInt8)) (pids : List Nat) (cc : Nat → Nat)
    (sec : Nat → List UInt8) (hl : ∀ ts ∈ pks, ts.length = 188 ∧ pidOf ts ∈ pids)
    (h : ∀ pid ∈ pids, pid < 8192 ∧ IsSection (sec pid) ∧
      pks.filter (fun ts => decide (pidOf ts = pid)) = packets pid (cc pid) (sec pid)) :
    ∃ τ, route p σ pks = .ok τ ∧ (∀ pid ∈ pids, (τ pid).buffer = sec pid ∧ (τ pid).size = (sec pid).length) ∧
      ∀ pid, pid ∉ pids → τ pid = σ pid := by
  refine ⟨fun pid => if pid ∈ pids then { σ pid with
    buffer := sec pid, size := (sec pid).length,
    cc := UInt8.ofNat ((cc pid + packetCount (sec pid).length - 1) % 16) } else σ pid, ?_, ?_, ?_⟩
  · apply C78_independent p σ _ pks (fun ts hts => (hl ts hts).1)
    intro pid
    by_cases hp : pid ∈ pids
    · obtain ⟨h1, h2, h3⟩ := h pid hp
      rw [h3, C41_reassemble p (σ pid) pid (cc pid) (sec pid) h2 h1]
      simp only [if_pos hp]
    · have : pks.filter (fun ts => decide (pidOf ts = pid)) = [] := by
        rw [List.filter_eq_nil_iff]
        intro ts hts he
        rw [decide_eq_true_iff] at he
        exact hp (he ▸ (hl ts hts).2)
      rw [this, feed_nil]
      simp only [if_neg hp]
  · intro pid hp
    simp only [if_pos hp, and_self]
  · intro pid hp
    simp only [if_neg hp]

/-- Non-vacuity: two sections of 200 bytes (two packets each) on PIDs 17 and 18, packets alternating. -/
def twoSection (b : UInt8) : List UInt8 := [b, 0xB0, 197] ++ List.replicate 197 b

theorem C78_example : let a := packets 17 3 (twoSection 1); let b := packets 18 9 (twoSection 2)
    let pks := [a.getD 0 [], b.getD 0 [], b.getD 1 [], a.getD 1 []]
    (∀ ts ∈ pks, ts.length = 188 ∧ pidOf ts ∈ [17, 18]) ∧ IsSection (twoSection 1) ∧ IsSection (twoSection 2) ∧
    pks.filter (fun ts => decide (pidOf ts = 17)) = a ∧ pks.filter (fun ts => decide (pidOf ts = 18)) = b := by
  decide +kernel

/-- The reassemblers of the two PIDs, fed with the packets alternating. -/
example (p : Profile) : ∃ τ, route p (fun _ => Psi.default) [(packets 17 3 (twoSection 1)).getD 0 [], (packets 18 9 (twoSection 2)).getD 0 [],
    (packets 18 9 (twoSection 2)).getD 1 [], (packets 17 3 (twoSection 1)).getD 1 []] = .ok τ ∧
    (τ 17).buffer = twoSection 1 ∧ (τ 18).buffer = twoSection 2 := by
  refine ⟨fun pid => if pid = 17 then { Psi.default with buffer := twoSection 1, size := (twoSection 1).length, cc := UInt8.ofNat ((3 + packetCount (twoSection 1).length - 1) % 16) } else
    if pid = 18 then { Psi.default with buffer := twoSection 2, size := (twoSection 2).length, cc := UInt8.ofNat ((9 + packetCount (twoSection 2).length - 1) % 16) } else Psi.default,
    C78_independent p _ _ _ (fun ts hts => (C78_example.1 ts hts).1) fun pid => ?_, rfl, rfl⟩
  have he := C78_example
  dsimp only at he
  by_cases h1 : pid = 17
  · subst h1
    rw [he.2.2.2.1, C41_reassemble p _ 17 3 _ he.2.1 (by decide), if_pos rfl]
  · by_cases h2 : pid = 18
    · subst h2
      rw [he.2.2.2.2, C41_reassemble p _ 18 9 _ he.2.2.1 (by decide), if_neg (by decide), if_pos rfl]
    · rw [List.filter_eq_nil_iff.2 fun ts hts hp => ?_, feed_nil, if_neg h1, if_neg h2]
      have := (he.1 ts hts).2
      rw [of_decide_eq_true hp] at this
      simp only [List.mem_cons, List.not_mem_nil, or_false] at this
      omega

/-- C79, the part that holds: an empty reassembler ignores a packet that starts no section unless its counter happens to
be the stored one plus 1.  (Full property: it ignores every packet that starts no section; false, see
`C79_orphan_refuted`.) -/
theorem C79_orphan_partial (p : Profile) (s : Psi) (ts : List UInt8) (hb : s.buffer = []) (hz : s.size = 0)
    (hs : s.cc.toNat < 16) (h : IsPacket ts) (hp : hasPayload ts = true) (hu : pusiOf ts = false)
    (hc : ccOf ts ≠ (s.cc.toNat + 1) % 16) : s.mux p ts = .ok s := by
  rw [C44_discontinuity p s ts hs h hp hu hc]
  obtain ⟨b, z, q, c⟩ := s
  simp only at hb hz
  rw [hb, hz]

/-- C79 fails: with the counter equal to the stored one plus 1 (1 for a new reassembler) the payload of a continuation
packet is taken for the beginning of a section. -/
theorem C79_orphan_refuted (p : Profile) (s : Psi) (ts : List UInt8) (hb : s.buffer = []) (hz : s.size = 0)
    (hs : s.cc.toNat < 16) (h : IsPacket ts) (hp : hasPayload ts = true) (hu : pusiOf ts = false)
    (hc : ccOf ts = (s.cc.toNat + 1) % 16) (ho : offsetOf ts + 3 ≤ 188) :
    ∃ s', s.mux p ts = .ok s' ∧ s'.buffer = upToEnd (ts.drop (offsetOf ts)) ∧
      s'.size = declaredSize (ts.drop (offsetOf ts)) := by
  have hlen : 3 ≤ (ts.drop (offsetOf ts)).length := by rw [List.length_drop, h.1]; omega
  have hsz : (s.pushed (ts.drop (offsetOf ts))).size = declaredSize (ts.drop (offsetOf ts)) := by
    simp only [Psi.pushed, hz, hb, if_true, List.nil_append]
  refine ⟨_, Psi.mux_raw_cont s h hp (by omega) hu (by omega) hc, ?_, hsz⟩
  simp only [hsz, hb, List.nil_append]
  rw [upToEnd, if_pos hlen]

/-- C79: a continuation packet with the expected counter that carries only one or two bytes leaves nothing behind but its
counter: the bytes are dropped because no length is known yet. -/
theorem C79_orphan_short_partial (p : Profile) (s : Psi) (ts : List UInt8) (hb : s.buffer = []) (hz : s.size = 0)
    (hs : s.cc.toNat < 16) (h : IsPacket ts) (hp : hasPayload ts = true) (hu : pusiOf ts = false)
    (hc : ccOf ts = (s.cc.toNat + 1) % 16) (ho : 185 < offsetOf ts) (ho' : offsetOf ts < 188) :
    s.mux p ts = .ok { s with cc := UInt8.ofNat (ccOf ts) } := by
  have hlen : ¬ 3 ≤ (ts.drop (offsetOf ts)).length := by rw [List.length_drop, h.1]; omega
  have hsz : (s.pushed (ts.drop (offsetOf ts))).size = 0 := by
    simp only [Psi.pushed, hz, hb, if_true, List.nil_append, declaredSize, if_neg hlen]
  rw [Psi.mux_raw_cont s h hp (by omega) hu (by omega) hc]
  simp only [hsz, hb, List.nil_append, List.take_zero]
  obtain ⟨b, z, q, c⟩ := s
  simp only at hb hz
  subst hb hz
  simp only [Psi.pushed]

/-- C79: so bytes from the middle of a section can be accepted by `check`: a new reassembler, one continuation packet
with counter 1. -/
theorem C79_orphan_example (p : Profile) : ∃ s,
    Psi.default.mux p (payloadPacket 17 1 false ([0x42, 0xB0, 5, 7] ++ beBytes 4 (crc32 [0x42, 0xB0, 5, 7]).toNat)) = .ok s ∧
      s.check p = .ok true := by
  cases p <;>
  exact ⟨{ Psi.default with buffer := [0x42, 0xB0, 5, 7] ++ beBytes 4 (crc32 [0x42, 0xB0, 5, 7]).toNat, size := 8, cc := 1 },
    by decide +kernel, by decide +kernel⟩

end Mpegts
