import Verif.Lemmas.CrcPowers

namespace Mpegts.Crc

theorem apart0 : distinct 31 (2 ^ 30) (halves 0 32784 1 []) = true := by decide +kernel
theorem apart1 : distinct 31 (2 ^ 30) (halves 1 32784 1 []) = true := by decide +kernel
theorem apart2 : distinct 31 (2 ^ 30) (halves 2 32784 1 []) = true := by decide +kernel
theorem apart3 : distinct 31 (2 ^ 30) (halves 3 32784 1 []) = true := by decide +kernel

/-- The first 32784 powers of x are pairwise different even without the last coefficient. -/
theorem powers_apart : ∀ a b, a < 32784 → b < 32784 → times^[a] 1 / 2 = times^[b] 1 / 2 → a = b :=
  halves_inj 32784 fun c hc =>
    match c, hc with
    | 0, _ => apart0
    | 1, _ => apart1
    | 2, _ => apart2
    | 3, _ => apart3

end Mpegts.Crc
