import Verif.Spec.Elapsed
import Verif.Props.C99
import Verif.Props.C93
import Verif.Props.C12_C15
import Verif.Props.C144
import Mathlib.Tactic.Linarith

/-! # C147: measuring time along a stream -/

namespace Mpegts
open Spec

/-- One step of a running clock: the difference is short by one tick if the clock started again in between. -/
theorem step_eq (delta : UInt64 → UInt64 → R UInt64) (period : Nat) (hp0 : 0 < period) (hp : period < 2 ^ 64)
    (h1 : ∀ last current : UInt64, last ≤ current → ∃ d, delta last current = .ok d ∧ last.toNat + d.toNat = current.toNat)
    (h2 : ∀ last current : UInt64, current < last → last.toNat < period →
      ∃ d, delta last current = .ok d ∧ d.toNat + 1 = current.toNat + period - last.toNat)
    (a b : Nat) (hab : a ≤ b) (hb : b < a + period) :
    ∃ d, delta (UInt64.ofNat (a % period)) (UInt64.ofNat (b % period)) = .ok d ∧ d.toNat + restarts period a b = b - a := by
  have ea := Nat.div_add_mod a period
  have eb := Nat.div_add_mod b period
  have la := Nat.mod_lt a hp0
  have lb := Nat.mod_lt b hp0
  have ta : (UInt64.ofNat (a % period)).toNat = a % period := by simp; omega
  have tb : (UInt64.ofNat (b % period)).toNat = b % period := by simp; omega
  have hle : a / period ≤ b / period := Nat.div_le_div_right hab
  have hlt : b / period ≤ a / period + 1 := by
    have : b / period < a / period + 2 := by
      rw [Nat.div_lt_iff_lt_mul hp0, Nat.add_mul, Nat.mul_comm]; omega
    omega
  unfold restarts
  by_cases hs : b / period = a / period
  · rw [hs] at eb
    obtain ⟨d, e1, e2⟩ := h1 (UInt64.ofNat (a % period)) (UInt64.ofNat (b % period)) (by
      rw [UInt64.le_iff_toNat_le, ta, tb]; omega)
    rw [ta, tb] at e2
    exact ⟨d, e1, by omega⟩
  · have hs' : b / period = a / period + 1 := by omega
    rw [hs', Nat.mul_add, Nat.mul_one] at eb
    obtain ⟨d, e1, e2⟩ := h2 (UInt64.ofNat (a % period)) (UInt64.ofNat (b % period)) (by
      rw [UInt64.lt_iff_toNat_lt, ta, tb]; omega) (by rw [ta]; omega)
    rw [ta, tb] at e2
    exact ⟨d, e1, by omega⟩

theorem running_le (period : Nat) (a : Nat) (l : List Nat) (h : Running period (a :: l)) : a ≤ (a :: l).getLast (by simp) := by
  induction l generalizing a with
  | nil => simp
  | cons b l ih =>
    have := ih b h.2.2
    rw [List.getLast_cons (by simp)]
    exact Nat.le_trans h.1 this

theorem elapsed_eq (delta : UInt64 → UInt64 → R UInt64) (period : Nat) (hp0 : 0 < period) (hp : period < 2 ^ 64)
    (h1 : ∀ last current : UInt64, last ≤ current → ∃ d, delta last current = .ok d ∧ last.toNat + d.toNat = current.toNat)
    (h2 : ∀ last current : UInt64, current < last → last.toNat < period →
      ∃ d, delta last current = .ok d ∧ d.toNat + 1 = current.toNat + period - last.toNat)
    (a : Nat) (l : List Nat) (h : Running period (a :: l)) :
    ∃ n, elapsed delta (readings period (a :: l)) = .ok n ∧
      n + restarts period a ((a :: l).getLast (by simp)) = (a :: l).getLast (by simp) - a := by
  induction l generalizing a with
  | nil => exact ⟨0, rfl, by simp [restarts]⟩
  | cons b l ih =>
    obtain ⟨d, hd1, hd2⟩ := step_eq delta period hp0 hp h1 h2 a b h.1 h.2.1
    obtain ⟨n, hn1, hn2⟩ := ih b h.2.2
    refine ⟨d.toNat + n, ?_, ?_⟩
    · simp only [readings, List.map_cons] at hn1 ⊢
      rw [elapsed, hd1, ok_bind, hn1, ok_bind]
      rfl
    · rw [List.getLast_cons (by simp)]
      have hlast := running_le period b l h.2.2
      have hab := h.1
      have q1 : a / period ≤ b / period := Nat.div_le_div_right hab
      have q2 : b / period ≤ (b :: l).getLast (by simp) / period := Nat.div_le_div_right hlast
      unfold restarts at *
      omega

theorem pcrPeriod_lt : pcrPeriod < 2 ^ 64 := by decide
theorem ptsPeriod_lt : ptsPeriod < 2 ^ 64 := by decide

/-- C147, the part that holds: a receiver that adds up the differences of the PCRs it reads measures exactly the time that passed, as
long as the clock does not start again on the way.  (Full property: however long the stream; false, see `C147_elapsed_refuted`.) -/
theorem C147_elapsed_partial (p : Profile) (a : Nat) (times : List Nat) (h : Running pcrPeriod (a :: times))
    (hno : restarts pcrPeriod a ((a :: times).getLast (by simp)) = 0) :
    elapsed (Ts.pcrDelta p) (readings pcrPeriod (a :: times)) = .ok ((a :: times).getLast (by simp) - a) := by
  obtain ⟨n, h1, h2⟩ := elapsed_eq (Ts.pcrDelta p) pcrPeriod (by decide) pcrPeriod_lt (fun l c h => C08_pcr_delta_partial p l c h)
    (fun l c h h' => C08_pcr_delta_wrap_refuted p l c h h') a times h
  rw [h1]; congr 1; omega

/-- C147 fails for a stream of more than a day: one tick is lost every time the clock starts again, and never made good. -/
theorem C147_elapsed_refuted (p : Profile) (a : Nat) (times : List Nat) (h : Running pcrPeriod (a :: times)) :
    ∃ n, elapsed (Ts.pcrDelta p) (readings pcrPeriod (a :: times)) = .ok n ∧
      n + restarts pcrPeriod a ((a :: times).getLast (by simp)) = (a :: times).getLast (by simp) - a :=
  elapsed_eq (Ts.pcrDelta p) pcrPeriod (by decide) pcrPeriod_lt (fun l c h => C08_pcr_delta_partial p l c h)
    (fun l c h h' => C08_pcr_delta_wrap_refuted p l c h h') a times h

/-- C147, the part that holds for presentation times. -/
theorem C147_pts_partial (p : Profile) (a : Nat) (times : List Nat) (h : Running ptsPeriod (a :: times))
    (hno : restarts ptsPeriod a ((a :: times).getLast (by simp)) = 0) :
    elapsed (Pes.ptsDelta p) (readings ptsPeriod (a :: times)) = .ok ((a :: times).getLast (by simp) - a) := by
  obtain ⟨n, h1, h2⟩ := elapsed_eq (Pes.ptsDelta p) ptsPeriod (by decide) ptsPeriod_lt (fun l c h => C14_pts_delta_partial p l c h)
    (fun l c h h' => C14_pts_delta_wrap_refuted p l c h h') a times h
  rw [h1]; congr 1; omega

/-- C147 fails for presentation times in the same way. -/
theorem C147_pts_refuted (p : Profile) (a : Nat) (times : List Nat) (h : Running ptsPeriod (a :: times)) :
    ∃ n, elapsed (Pes.ptsDelta p) (readings ptsPeriod (a :: times)) = .ok n ∧
      n + restarts ptsPeriod a ((a :: times).getLast (by simp)) = (a :: times).getLast (by simp) - a :=
  elapsed_eq (Pes.ptsDelta p) ptsPeriod (by decide) ptsPeriod_lt (fun l c h => C14_pts_delta_partial p l c h)
    (fun l c h h' => C14_pts_delta_wrap_refuted p l c h h') a times h

/-- The hypotheses are met: a clock read four times in two and a half days. -/
example : Running pcrPeriod [2000000000000, 4000000000000, 6000000000000, 8000000000000] ∧
    restarts pcrPeriod 2000000000000 8000000000000 = 3 ∧
    elapsed (Ts.pcrDelta .debug) (readings pcrPeriod [2000000000000, 4000000000000, 6000000000000, 8000000000000]) = .ok 5999999999997 := by
  refine ⟨⟨by decide, by decide, by decide, by decide, by decide, by decide, trivial⟩, by decide, by decide +kernel⟩

/-! ## Off the packets -/

/-- C147: what a receiver reads off the packets of a stream are the PCRs with the PID, in order; no packet makes it fail. -/
theorem C147_read (pid : UInt16) (pks : List (List UInt8)) (hl : ∀ pk ∈ pks, 12 ≤ pk.length) :
    ∃ vs, readClock pid pks = .ok vs ∧ vs.map UInt64.toNat = clockValues pid.toNat pks := by
  induction pks with
  | nil => exact ⟨[], rfl, rfl⟩
  | cons pk pks ih =>
    obtain ⟨vs, h1, h2⟩ := ih (fun x hx => hl x (List.mem_cons_of_mem _ hx))
    obtain ⟨g1, g2⟩ := pcrOf_eq pk (hl pk (by simp))
    cases hx : pcrOf pk with
    | none =>
      refine ⟨vs, ?_, ?_⟩
      · rw [readClock, g1 hx, ok_bind]
        simp only [Bool.false_eq_true, if_false, pure_eq_ok, ok_bind, h1, List.nil_append]
      · rw [h2, clockValues, clockValues, List.filterMap_cons, hx]
    | some x =>
      obtain ⟨q, pcr⟩ := x
      obtain ⟨k1, k2, k3, v, k4, k5⟩ := g2 q pcr hx
      have hq : (UInt16.ofNat q).toNat = q := by simp; omega
      by_cases he : UInt16.ofNat q = pid
      · refine ⟨v :: vs, ?_, ?_⟩
        · rw [readClock, k2, ok_bind]
          simp only [clockOn, if_true, k3, ok_bind, he, beq_self_eq_true, k4, pure_eq_ok, h1, List.singleton_append]
        · rw [List.map_cons, h2, clockValues, clockValues, List.filterMap_cons, hx, k5]
          simp only [← he, hq, List.filter_cons, decide_true, if_true, List.map_cons]
      · have hne : q ≠ pid.toNat := by
          intro h; apply he; apply UInt16.toNat.inj; rw [hq, h]
        refine ⟨vs, ?_, ?_⟩
        · rw [readClock, k2, ok_bind]
          simp only [clockOn, if_true, k3, ok_bind, beq_iff_eq, he, if_false, pure_eq_ok, h1, List.nil_append]
        · rw [h2, clockValues, clockValues, List.filterMap_cons, hx]
          simp only [List.filter_cons, hne, decide_false, Bool.false_eq_true, if_false]

/-- C147: a sender that stamps a packet with the time (`set_pcr`) leaves a packet that carries the time modulo the period, on the same PID. -/
theorem C147_stamp (pk : List UInt8) (hl : 12 ≤ pk.length) (pid old : Nat) (hpk : pcrOf pk = some (pid, old)) (t : Nat) :
    ∃ pk', Ts.setPcr pk (UInt64.ofNat (t % pcrPeriod)) = .ok pk' ∧ pk'.length = pk.length ∧ pk'.head? = pk.head? ∧
      pcrOf pk' = some (pid, t % pcrPeriod) := by
  have hlt : t % pcrPeriod < pcrPeriod := Nat.mod_lt _ (by decide)
  have hto : (UInt64.ofNat (t % pcrPeriod)).toNat = t % pcrPeriod := by
    have := pcrPeriod_lt
    simp; omega
  refine ⟨_, C06_set_pcr pk _ hl, ?_, ?_, ?_⟩
  · simp [pcrField]; omega
  · obtain ⟨a0, a1, a2, a3, a4, a5, a, b, c, d, e, f, r, rfl⟩ := exists_cons12 hl; rfl
  · rw [hto]
    have hf : (pcrField (t % pcrPeriod / 300) 63 (t % pcrPeriod % 300)).length = 6 := by simp [pcrField]
    obtain ⟨a0, a1, a2, a3, a4, a5, a, b, c, d, e, f, r, rfl⟩ := exists_cons12 hl
    have hsix : ((pcrField (t % pcrPeriod / 300) 63 (t % pcrPeriod % 300) ++ r).take 6) =
        pcrField (t % pcrPeriod / 300) 63 (t % pcrPeriod % 300) := List.take_left' hf
    have hval : beNat (pcrField (t % pcrPeriod / 300) 63 (t % pcrPeriod % 300)) =
        t % pcrPeriod / 300 * 2 ^ 15 + 63 * 2 ^ 9 + t % pcrPeriod % 300 := by
      unfold pcrField
      rw [beNat_beBytes]
      generalize t % pcrPeriod = n at hlt
      unfold pcrPeriod at hlt
      exact Nat.mod_eq_of_lt (by omega)
    have hshape : (a0 :: a1 :: a2 :: a3 :: a4 :: a5 :: a :: b :: c :: d :: e :: f :: r).take 6 ++
        pcrField (t % pcrPeriod / 300) 63 (t % pcrPeriod % 300) ++ (a0 :: a1 :: a2 :: a3 :: a4 :: a5 :: a :: b :: c :: d :: e :: f :: r).drop 12 =
        a0 :: a1 :: a2 :: a3 :: a4 :: a5 :: (pcrField (t % pcrPeriod / 300) 63 (t % pcrPeriod % 300) ++ r) := rfl
    rw [hshape]
    simp only [pcrOf, List.getD_cons_zero, List.getD_cons_succ, List.drop, List.take] at hpk ⊢
    split at hpk
    · next hc =>
      rw [if_pos hc, hsix, hval]
      simp only [Option.some.injEq, Prod.mk.injEq] at hpk ⊢
      refine ⟨hpk.1, ?_⟩
      generalize t % pcrPeriod = n
      omega
    · simp at hpk

/-- C147, end to end: a stream whose packets carry the times of a clock, from any source that keeps delivering, in pieces of any size; the
receiver reads the packets, reads the clock off them, and adds up the differences. -/
theorem C147_stream_refuted (p : Profile) (pid : UInt16) (pks : List (List UInt8)) (hpk : ∀ pk ∈ pks, pk.length = 188 ∧ pk.head? = some 0x47)
    (a : Nat) (times : List Nat) (h : Running pcrPeriod (a :: times))
    (hc : clockValues pid.toNat pks = (a :: times).map (· % pcrPeriod))
    (s : Source) (hs : Steady s) (hd : s.data = pks.flatten) (buf : List UInt8) (hb : 188 ≤ buf.length) (fuel : Nat)
    (hf : s.data.length < fuel) :
    ∃ n, (do elapsed (Ts.pcrDelta p) (← readClock pid (← readAll fuel s buf))) = .ok n ∧
      n + restarts pcrPeriod a ((a :: times).getLast (by simp)) = (a :: times).getLast (by simp) - a := by
  rw [C70_all fuel s hs buf hb hf, ok_bind, hd, ← List.append_nil pks.flatten, Slip.packetsOf_packets pks hpk,
    show packetsOf [] = [] from Slip.packetsOf_quiet (gap := []) (by simp), List.append_nil]
  obtain ⟨vs, h1, h2⟩ := C147_read pid pks (fun pk hx => by have := (hpk pk hx).1; omega)
  rw [h1, ok_bind]
  have hvs : vs = readings pcrPeriod (a :: times) := by
    rw [hc] at h2
    refine (List.map_inj_right (f := UInt64.toNat) fun _ _ h => UInt64.toNat.inj h).1 ?_
    rw [h2, readings, List.map_map]
    apply List.map_congr_left
    intro t _
    have := pcrPeriod_lt
    have hlt : t % pcrPeriod < pcrPeriod := Nat.mod_lt _ (by decide)
    simp only [Function.comp, UInt64.toNat_ofNat']
    omega
  rw [hvs]
  exact C147_elapsed_refuted p a times h

/-- The hypotheses are met: three packets of PID 256 with PCRs around the restart of the clock, one of another PID in between. -/
example : let pk (pid : UInt8) (l : List UInt8) : List UInt8 := [0x47, 0x01, pid, 0x20, 183, 0x10] ++ l ++ List.replicate 176 0xFF
    let pks := [pk 0 [0xFF, 0xFF, 0xFF, 0xFF, 0xFF, 0x2B], pk 1 [0, 0, 0, 0, 0x7E, 0], pk 0 [0, 0, 0, 0, 0x7E, 5], pk 0 [0, 0, 0, 0, 0xFE, 0]]
    (∀ x ∈ pks, x.length = 188 ∧ x.head? = some 0x47) ∧
    clockValues 256 pks = [pcrPeriod - 1, pcrPeriod + 5, pcrPeriod + 300].map (· % pcrPeriod) ∧
    (do elapsed (Ts.pcrDelta .debug) (← readClock 256 (← readAll 753 ⟨pks.flatten, [.chunk 3, .chunk 500]⟩ (List.replicate 188 0)))) = .ok 300 := by
  decide +kernel

/-! ## Streams of constant rate -/

/-- The arithmetic of the estimate. -/
theorem estimate (ticks bytes x0 x1 x2 k q0 q1 q2 f : Int) (hb : 0 < bytes) (h0 : bytes * q0 ≤ x0 * ticks) (h0' : x0 * ticks < bytes * q0 + bytes)
    (h1 : bytes * q1 ≤ x1 * ticks) (h1' : x1 * ticks < bytes * q1 + bytes) (h2 : bytes * q2 ≤ x2 * ticks)
    (h2' : x2 * ticks < bytes * q2 + bytes) (hn : 0 < x1 - x0) (hm : 0 < x2 - x1) (hk : x2 - x1 ≤ k * (x1 - x0))
    (hf : (x1 - x0) * f ≤ (q1 - q0) * (x2 - x1)) (hf' : (q1 - q0) * (x2 - x1) < (x1 - x0) * f + (x1 - x0)) :
    -k ≤ q2 - (q1 + f) ∧ q2 - (q1 + f) ≤ k + 1 := by
  generalize hN : x1 - x0 = n at *
  generalize hM : x2 - x1 = m at *
  generalize hD : q1 - q0 = D at *
  generalize hE : q2 - q1 = e at *
  have hX : x1 = x0 + n := by omega
  have hY : x2 = x1 + m := by omega
  have a1 : bytes * D < n * ticks + bytes := by rw [← hD, ← hN]; linarith [Int.mul_sub bytes q1 q0, Int.sub_mul x1 x0 ticks]
  have a2 : n * ticks - bytes < bytes * D := by rw [← hD, ← hN]; linarith [Int.mul_sub bytes q1 q0, Int.sub_mul x1 x0 ticks]
  have b1 : bytes * e < m * ticks + bytes := by rw [← hE, ← hM]; linarith [Int.mul_sub bytes q2 q1, Int.sub_mul x2 x1 ticks]
  have b2 : m * ticks - bytes < bytes * e := by rw [← hE, ← hM]; linarith [Int.mul_sub bytes q2 q1, Int.sub_mul x2 x1 ticks]
  have c1 := mul_lt_mul_of_pos_right a1 hm
  have c2 := mul_lt_mul_of_pos_right a2 hm
  have d1 := mul_lt_mul_of_pos_right b1 hn
  have d2 := mul_lt_mul_of_pos_right b2 hn
  have g1 := mul_le_mul_of_nonneg_left hf (le_of_lt hb)
  have g2 := mul_lt_mul_of_pos_left hf' hb
  have hbn : 0 < bytes * n := mul_pos hb hn
  constructor
  · by_contra hcon
    have h' : e + k + 1 ≤ f := by omega
    have i1 := mul_le_mul_of_nonneg_left h' (le_of_lt hbn)
    have i2 := mul_le_mul_of_nonneg_left hk (le_of_lt hb)
    nlinarith
  · by_contra hcon
    have h' : f + k + 2 ≤ e := by omega
    have i1 := mul_le_mul_of_nonneg_left h' (le_of_lt hbn)
    have i2 := mul_le_mul_of_nonneg_left hk (le_of_lt hb)
    nlinarith

theorem tdiv_bounds (x a b : Int) (h1 : -a ≤ x) (h2 : x ≤ b) (ha : 0 ≤ a) (hb : 0 ≤ b) : -(a / 27) ≤ x.tdiv 27 ∧ x.tdiv 27 ≤ b / 27 := by
  by_cases hx : 0 ≤ x
  · rw [Int.tdiv_eq_ediv_of_nonneg hx]; omega
  · have : x.tdiv 27 = -((-x) / 27) := by
      rw [← Int.tdiv_eq_ediv_of_nonneg (show 0 ≤ -x by omega), Int.neg_tdiv, Int.neg_neg]
    rw [this]; omega

theorem floor_bounds (x ticks bytes : Nat) (hb : 0 < bytes) :
    (bytes : Int) * (x * ticks / bytes : Nat) ≤ x * ticks ∧ (x * ticks : Int) < bytes * (x * ticks / bytes : Nat) + bytes := by
  have h1 := Nat.div_add_mod (x * ticks) bytes
  have h2 := Nat.mod_lt (x * ticks) hb
  have h3 : (bytes : Int) * (x * ticks / bytes : Nat) + (x * ticks % bytes : Nat) = x * ticks := by exact_mod_cast h1
  have h4 : ((x * ticks % bytes : Nat) : Int) < bytes := by exact_mod_cast h2
  omega

theorem toNat_ofNat64 {n : Nat} (h : n < 2 ^ 64) : (UInt64.ofNat n).toNat = n := by simp; omega

/-- C147, the part that holds for the jitter: on a stream of constant rate whose PCRs are the exact times, rounded down to a tick, the
estimate from the last two PCRs differs from the next PCR by at most one tick more than the distances in bytes are multiples of each
other, so that the jitter is that of rounding.  (Full property: also when the clock starts again; false, see `C147_jitter_refuted`.) -/
theorem C147_jitter_partial (p : Profile) (t₀ ticks bytes x0 x1 x2 k : Nat) (hb : 0 < bytes) (h01 : x0 < x1) (h12 : x1 < x2)
    (hk : x2 - x1 ≤ k * (x1 - x0)) (hkm : k < 27000000) (hx : x2 < 2 ^ 64) (hin : passes t₀ ticks bytes x2 + k < pcrPeriod)
    (hov : (passes t₀ ticks bytes x1 - passes t₀ ticks bytes x0) * (x2 - x1) < 2 ^ 64) :
    ∃ d stc j, Ts.pcrDelta p (UInt64.ofNat (passes t₀ ticks bytes x0)) (UInt64.ofNat (passes t₀ ticks bytes x1)) = .ok d ∧
      Ts.pcrToStc p (UInt64.ofNat (passes t₀ ticks bytes x1)) (UInt64.ofNat (x2 - x1)) d (UInt64.ofNat (x1 - x0)) = .ok stc ∧
      Ts.pcrJitterNs p (UInt64.ofNat (passes t₀ ticks bytes x2)) stc = .ok j ∧ -((k : Int) * 1000 / 27) ≤ j ∧ j ≤ ((k : Int) + 1) * 1000 / 27 := by
  have hP := pcrPeriod_lt
  have e0 := floor_bounds x0 ticks bytes hb
  have e1 := floor_bounds x1 ticks bytes hb
  have e2 := floor_bounds x2 ticks bytes hb
  have m01 : x0 * ticks / bytes ≤ x1 * ticks / bytes := Nat.div_le_div_right (Nat.mul_le_mul_right _ (by omega))
  have m12 : x1 * ticks / bytes ≤ x2 * ticks / bytes := Nat.div_le_div_right (Nat.mul_le_mul_right _ (by omega))
  unfold passes at *
  generalize x0 * ticks / bytes = q0 at *
  generalize x1 * ticks / bytes = q1 at *
  generalize x2 * ticks / bytes = q2 at *
  have n0 := toNat_ofNat64 (n := t₀ + q0) (by omega)
  have n1 := toNat_ofNat64 (n := t₀ + q1) (by omega)
  have n2 := toNat_ofNat64 (n := t₀ + q2) (by omega)
  have nm := toNat_ofNat64 (n := x2 - x1) (by omega)
  have nn := toNat_ofNat64 (n := x1 - x0) (by omega)
  obtain ⟨d, hd1, hd2⟩ := C08_pcr_delta_partial p (UInt64.ofNat (t₀ + q0)) (UInt64.ofNat (t₀ + q1)) (by
    rw [UInt64.le_iff_toNat_le, n0, n1]; omega)
  rw [n0, n1] at hd2
  have hd3 : d.toNat = q1 - q0 := by omega
  have hd4 : t₀ + q1 - (t₀ + q0) = q1 - q0 := by omega
  rw [hd4] at hov
  have f1 := Nat.div_add_mod ((q1 - q0) * (x2 - x1)) (x1 - x0)
  have f2 := Nat.mod_lt ((q1 - q0) * (x2 - x1)) (show 0 < x1 - x0 by omega)
  generalize hf : (q1 - q0) * (x2 - x1) / (x1 - x0) = f at *
  have hest := estimate ticks bytes x0 x1 x2 k q0 q1 q2 f (by omega) e0.1 e0.2 e1.1 e1.2 e2.1 e2.2 (by omega) (by omega) (by
      have : ((x2 - x1 : Nat) : Int) ≤ (k * (x1 - x0) : Nat) := by exact_mod_cast hk
      push_cast [Nat.cast_sub (show x1 ≤ x2 by omega), Nat.cast_sub (show x0 ≤ x1 by omega)] at this
      exact this) (by
      have : ((x1 - x0 : Nat) * f : Int) ≤ ((q1 - q0 : Nat) : Int) * (x2 - x1 : Nat) := by
        have : (x1 - x0) * f ≤ (q1 - q0) * (x2 - x1) := by omega
        exact_mod_cast this
      push_cast [Nat.cast_sub (show x1 ≤ x2 by omega), Nat.cast_sub (show x0 ≤ x1 by omega), Nat.cast_sub m01] at this
      exact this) (by
      have : ((q1 - q0 : Nat) : Int) * (x2 - x1 : Nat) < (x1 - x0 : Nat) * f + (x1 - x0 : Nat) := by
        have : (q1 - q0) * (x2 - x1) < (x1 - x0) * f + (x1 - x0) := by omega
        exact_mod_cast this
      push_cast [Nat.cast_sub (show x1 ≤ x2 by omega), Nat.cast_sub (show x0 ≤ x1 by omega), Nat.cast_sub m01] at this
      exact this)
  obtain ⟨stc, hs1, hs2⟩ := C09_pcr_to_stc p (UInt64.ofNat (t₀ + q1)) (UInt64.ofNat (x2 - x1)) d (UInt64.ofNat (x1 - x0))
    (by intro h; rw [h] at nn; simp at nn; omega) (by rw [hd3, nm]; exact hov) (by rw [hd3, nm, nn, hf, n1]; omega)
  rw [hd3, nm, nn, hf, n1] at hs2
  have hj := C10_jitter_partial p (UInt64.ofNat (t₀ + q2)) stc (by rw [n2]; omega) (by omega) (by rw [n2]; omega) (by rw [n2]; omega)
  refine ⟨d, stc, _, hd1, hs1, hj, ?_⟩
  rw [n2, hs2]
  exact tdiv_bounds _ _ _ (by omega) (by omega) (by omega) (by omega)

/-- C147 fails for a perfect stream of constant rate when the clock starts again: the estimate is not taken modulo the period, and although
the next PCR is exactly the one expected, a program compiled with overflow checks panics, and one without reports a jitter. -/
theorem C147_jitter_refuted (t₀ ticks bytes x0 x1 x2 : Nat) (hb : 0 < bytes) (h01 : x0 < x1) (h12 : x1 < x2) (hx : x2 < 2 ^ 64)
    (d0 : bytes ∣ x0 * ticks) (d1 : bytes ∣ x1 * ticks) (d2 : bytes ∣ x2 * ticks)
    (hin : passes t₀ ticks bytes x1 < pcrPeriod) (hwrap : pcrPeriod ≤ passes t₀ ticks bytes x2) (hw : passes t₀ ticks bytes x2 < 2 * pcrPeriod)
    (hov : (passes t₀ ticks bytes x1 - passes t₀ ticks bytes x0) * (x2 - x1) < 2 ^ 64) :
    ∃ d stc, (∀ p, Ts.pcrDelta p (UInt64.ofNat (passes t₀ ticks bytes x0)) (UInt64.ofNat (passes t₀ ticks bytes x1)) = .ok d ∧
      Ts.pcrToStc p (UInt64.ofNat (passes t₀ ticks bytes x1)) (UInt64.ofNat (x2 - x1)) d (UInt64.ofNat (x1 - x0)) = .ok stc) ∧
      stc.toNat = passes t₀ ticks bytes x2 ∧
      Ts.pcrJitterNs .debug (UInt64.ofNat (passes t₀ ticks bytes x2 % pcrPeriod)) stc = panic ∧
      Ts.pcrJitterNs .release (UInt64.ofNat (passes t₀ ticks bytes x2 % pcrPeriod)) stc = .ok (-37) := by
  have hP : pcrPeriod * 2 < 2 ^ 64 := by decide
  obtain ⟨q0, e0⟩ := d0
  obtain ⟨q1, e1⟩ := d1
  obtain ⟨q2, e2⟩ := d2
  have r0 : x0 * ticks / bytes = q0 := by rw [e0, Nat.mul_div_cancel_left _ hb]
  have r1 : x1 * ticks / bytes = q1 := by rw [e1, Nat.mul_div_cancel_left _ hb]
  have r2 : x2 * ticks / bytes = q2 := by rw [e2, Nat.mul_div_cancel_left _ hb]
  have m01 : q0 ≤ q1 := by rw [← r0, ← r1]; exact Nat.div_le_div_right (Nat.mul_le_mul_right _ (by omega))
  have m12 : q1 ≤ q2 := by rw [← r1, ← r2]; exact Nat.div_le_div_right (Nat.mul_le_mul_right _ (by omega))
  unfold passes at *
  rw [r0, r1] at hov
  rw [r1] at hin
  rw [r2] at hwrap hw
  rw [r0, r1, r2]
  have n0 := toNat_ofNat64 (n := t₀ + q0) (by omega)
  have n1 := toNat_ofNat64 (n := t₀ + q1) (by omega)
  have nm := toNat_ofNat64 (n := x2 - x1) (by omega)
  have nn := toNat_ofNat64 (n := x1 - x0) (by omega)
  have hd4 : t₀ + q1 - (t₀ + q0) = q1 - q0 := by omega
  rw [hd4] at hov
  have hprod : (q1 - q0) * (x2 - x1) = (x1 - x0) * (q2 - q1) := by
    apply Nat.eq_of_mul_eq_mul_left hb
    have a1 : bytes * (q1 - q0) = (x1 - x0) * ticks := by rw [Nat.mul_sub, Nat.sub_mul, e0, e1]
    have a2 : bytes * (q2 - q1) = (x2 - x1) * ticks := by rw [Nat.mul_sub, Nat.sub_mul, e2, e1]
    rw [← Nat.mul_assoc, a1, Nat.mul_left_comm, a2, Nat.mul_assoc, Nat.mul_comm ticks]
  have hquot : (q1 - q0) * (x2 - x1) / (x1 - x0) = q2 - q1 := by rw [hprod, Nat.mul_div_cancel_left _ (by omega)]
  have hdelta : ∀ p, Ts.pcrDelta p (UInt64.ofNat (t₀ + q0)) (UInt64.ofNat (t₀ + q1)) = .ok (UInt64.ofNat (q1 - q0)) := by
    intro p
    obtain ⟨d, hd1, hd2⟩ := C08_pcr_delta_partial p (UInt64.ofNat (t₀ + q0)) (UInt64.ofNat (t₀ + q1)) (by
      rw [UInt64.le_iff_toNat_le, n0, n1]; omega)
    rw [n0, n1] at hd2
    rw [hd1]; congr 1
    apply UInt64.toNat.inj
    rw [toNat_ofNat64 (by omega)]; omega
  have nd := toNat_ofNat64 (n := q1 - q0) (by omega)
  have hstc : ∀ p, Ts.pcrToStc p (UInt64.ofNat (t₀ + q1)) (UInt64.ofNat (x2 - x1)) (UInt64.ofNat (q1 - q0)) (UInt64.ofNat (x1 - x0)) =
      .ok (UInt64.ofNat (t₀ + q2)) := by
    intro p
    obtain ⟨s, hs1, hs2⟩ := C09_pcr_to_stc p (UInt64.ofNat (t₀ + q1)) (UInt64.ofNat (x2 - x1)) (UInt64.ofNat (q1 - q0)) (UInt64.ofNat (x1 - x0))
      (by intro h; rw [h] at nn; simp at nn; omega) (by rw [nd, nm]; exact hov) (by rw [nd, nm, nn, hquot, n1]; omega)
    rw [nd, nm, nn, hquot, n1] at hs2
    rw [hs1]; congr 1
    apply UInt64.toNat.inj
    rw [toNat_ofNat64 (by omega)]; omega
  have n2 := toNat_ofNat64 (n := t₀ + q2) (by omega)
  have hmod : (t₀ + q2) % pcrPeriod = t₀ + q2 - pcrPeriod := by
    rw [Nat.mod_eq_sub_mod hwrap, Nat.mod_eq_of_lt (by omega)]
  have np := toNat_ofNat64 (n := t₀ + q2 - pcrPeriod) (by omega)
  refine ⟨_, _, fun p => ⟨hdelta p, hstc p⟩, n2, ?_, ?_⟩
  · rw [hmod, (C93_jitter_debug _ _).1, n2, np, UInt64.lt_iff_toNat_lt, n2, np]
    have h0 : 0 < pcrPeriod := by decide
    refine .inl ⟨by omega, .inr ?_⟩
    unfold rawDistance
    rw [if_neg (by omega)]
    omega
  · rw [hmod, C93_jitter_release, n2, np]
    have h0 : 0 < pcrPeriod := by decide
    have hr : rawDistance (t₀ + q2) (t₀ + q2 - pcrPeriod) = -1 := by
      unfold rawDistance
      rw [if_neg (by omega)]
      omega
    have hsd : signedDistance (t₀ + q2) (t₀ + q2 - pcrPeriod) = -1 := by
      unfold signedDistance
      rw [hr]
      decide
    rw [hsd]
    decide

/-- The hypotheses are met: 38 Mbit/s and a bit (27 ticks for five bytes), a PCR every 200 packets, just before the clock starts again. -/
example : let t₀ := 2576980377600 - 300000
    passes t₀ 27 5 0 = t₀ ∧ passes t₀ 27 5 37600 = t₀ + 203040 ∧ passes t₀ 27 5 75200 = pcrPeriod + 106080 ∧
    Ts.pcrJitterNs .debug 106080 2576980483680 = panic ∧ Ts.pcrJitterNs .release 106080 2576980483680 = .ok (-37) := by decide +kernel

/-- And earlier: the jitter of rounding. -/
example : passes 5 1000 37 188 = 5086 ∧ passes 5 1000 37 376 = 10167 ∧ passes 5 1000 37 564 = 15248 ∧
    Ts.pcrToStc .debug 10167 188 5081 188 = .ok 15248 ∧ Ts.pcrJitterNs .debug 15248 15248 = .ok 0 := by decide +kernel

end Mpegts
