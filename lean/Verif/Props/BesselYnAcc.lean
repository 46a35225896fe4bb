import Verif.Proofs.BesselYF2

/-!
# C79: accuracy of `Yn(0, ·)` and `Yn(1, ·)` (src/bessel.rs)

`besselYR n` (`Verif.SpecBesselY`) is the Bessel function of the second kind, given by its series (DLMF 10.8.1).
In binary64 `LibmTrig` says that `sin` and `cos` are within `2^-52` of the exact values and `ln` is accurate to one unit in the last place.
-/

namespace Verif
open Bes Real

/-- C79, order 0, every `x > 0`: the rational fit below 8, the asymptotic form beyond -/
theorem Y0_exact {x : ℝ} (hx : 0 < x) :
    (x < 8 → |Yn 0 x - besselYR 0 x| ≤ 1.1e-15 + 6.4e-15 * |log x|) ∧
    (8 ≤ x → |Yn 0 x - besselYR 0 x| ≤ 1.301e-12 / √x) := ⟨fun h => y0_left hx h, fun h => y0_right h⟩

/-- C79, order 1, every `x > 0` -/
theorem Y1_exact {x : ℝ} (hx : 0 < x) :
    (x < 8 → |Yn 1 x - besselYR 1 x| ≤ 2e-17 + x * (5.3e-16 + 8.1e-16 * |log x|)) ∧
    (8 ≤ x → |Yn 1 x - besselYR 1 x| ≤ 1.301e-12 / √x) := ⟨fun h => y1_left hx h, fun h => y1_right h⟩

example : |Yn 0 (1:ℝ) - besselYR 0 1| ≤ 1.1e-15 := by
  have := (Y0_exact (x := 1) (by norm_num)).1 (by norm_num)
  simpa using this

example : |Yn 1 (100:ℝ) - besselYR 1 100| ≤ 1.301e-13 := by
  have := (Y1_exact (x := 100) (by norm_num)).2 (by norm_num)
  rw [show (100:ℝ) = 10 ^ 2 by norm_num, Real.sqrt_sq (by norm_num)] at this
  rw [show (100:ℝ) = 10 ^ 2 by norm_num]
  exact this.trans (by norm_num)

section Binary64
open BesX F64
variable [Cfg] [Libm F64]

/-- C79 in binary64, order 0, every finite `x > 0` -/
theorem Y0_accurate (L : LibmTrig) {x : F64} (hf : x.isFin = true) (hx : 0 < x.val) : (Yn 0 x).isFin = true ∧
    (x.val < 8 → |(Yn 0 x).val - besselYR 0 x.val| ≤ 2.9e-14 + 1.45e-14 * |log x.val|) ∧
    (8 ≤ x.val → |(Yn 0 x).val - besselYR 0 x.val| ≤ (1.31e-12 + x.val / 2 ^ 53) / √x.val) := by
  refine ⟨?_, fun h => (y0_acc_left L.toLibmUlp hx h).2, fun h => (y0_acc_right L h hf).2⟩
  rcases lt_or_ge x.val 8 with h | h
  · exact (y0_acc_left L.toLibmUlp hx h).1
  · exact (y0_acc_right L h hf).1

/-- C79 in binary64, order 1, every finite `x ≥ 10^-300` (further down `1/x` comes close to overflow) -/
theorem Y1_accurate (L : LibmTrig) {x : F64} (hf : x.isFin = true) (hx : 10 ^ (-300 : ℤ) ≤ x.val) : (Yn 1 x).isFin = true ∧
    (x.val < 8 → |(Yn 1 x).val - besselYR 1 x.val| ≤ 3.6e-14 + 1.45e-14 * |log x.val| + 7e-16 / x.val) ∧
    (8 ≤ x.val → |(Yn 1 x).val - besselYR 1 x.val| ≤ (1.31e-12 + x.val / 2 ^ 53) / √x.val) := by
  refine ⟨?_, fun h => (y1_acc_left L.toLibmUlp hx h).2, fun h => (y1_acc_right L h hf).2⟩
  rcases lt_or_ge x.val 8 with h | h
  · exact (y1_acc_left L.toLibmUlp hx h).1
  · exact (y1_acc_right L h hf).1
end Binary64

open F64 in
example [Cfg] : (letI := idealLibm; |(Yn 0 (2.5 : F64)).val - besselYR 0 (2.5 : F64).val| ≤ 6e-14) := by
  let _ := idealLibm
  have e : (2.5 : F64).val = 2.5 := by rw [val_of_sv (x := (2.5 : F64)) 5 2 (by norm_num) (by decide +kernel)]; norm_num
  have h := (Y0_accurate ideal_trig (x := (2.5 : F64)) (by decide +kernel) (by rw [e]; norm_num)).2.1 (by rw [e]; norm_num)
  refine h.trans ?_
  have : |log (2.5 : F64).val| ≤ 1.5 := by
    rw [e, abs_of_pos (Real.log_pos (by norm_num))]
    have := Real.log_le_sub_one_of_pos (show (0:ℝ) < 2.5 by norm_num)
    linarith
  linarith

open F64 in
example [Cfg] : (letI := idealLibm; |(Yn 1 (100.0 : F64)).val - besselYR 1 (100.0 : F64).val| ≤ 1.33e-13) := by
  let _ := idealLibm
  have e : (100.0 : F64).val = 100 := by rw [val_of_int (x := (100.0 : F64)) 100 (by decide +kernel)]; norm_num
  have h := (Y1_accurate ideal_trig (x := (100.0 : F64)) (by decide +kernel)
    (by rw [e]; exact le_trans (zpow_le_one_of_nonpos₀ (by norm_num) (by norm_num)) (by norm_num))).2.2 (by rw [e]; norm_num)
  rw [e] at h ⊢
  have hs : √(100:ℝ) = 10 := by rw [show (100:ℝ) = 10 ^ 2 by norm_num, Real.sqrt_sq (by norm_num)]
  rw [hs] at h
  exact h.trans (by norm_num)

end Verif
