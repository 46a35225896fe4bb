import Verif.Proofs.BesselF4
import Verif.Props.BesselAcc

/-!
# C71, C72 in binary64: `Jn(0, ·)`, `Jn(1, ·)`, `In(0, ·)`, `In(1, ·)` (src/bessel.rs)

The floating-point counterparts of `Verif.Props.BesselAcc`.  `besselJR n`, `besselIR n` (`Verif.SpecBessel`) are the
real functions.  `LibmTrig` says that `sin` and `cos` are within `2^-52` of the exact values, `LibmUlp` that `exp` is
accurate to one unit in the last place.
-/

namespace Verif
open Bes BesX Real F64
variable [Cfg] [Libm F64]

/-- C71, order 0, every finite argument: the error is at most `2.01·10^-14` for `|x| < 8`, and beyond at most
`1.31·10^-12/√|x|` plus the effect `√|x|/2^53` of the rounding of the argument of the cosine -/
theorem J0_accurate (L : LibmTrig) {x : F64} (hf : x.isFin = true) : ∃ v, Jn 0 x = .ok v ∧ v.isFin = true ∧
    (|x.val| < 8 → |v.val - besselJR 0 x.val| ≤ 2.01e-14) ∧
    (8 ≤ |x.val| → |v.val - besselJR 0 x.val| ≤ (1.31e-12 + |x.val| / 2 ^ 53) / √|x.val|) := by
  refine ⟨j0 x, rfl, ?_, fun h => (j0_acc_left h).2, fun h => (j0_acc_right L h hf).2⟩
  rcases lt_or_ge |x.val| 8 with h | h
  · exact (j0_acc_left h).1
  · exact (j0_acc_right L h hf).1

/-- C71, order 1 -/
theorem J1_accurate (L : LibmTrig) {x : F64} (hf : x.isFin = true) : ∃ v, Jn 1 x = .ok v ∧ v.isFin = true ∧
    (|x.val| < 8 → |v.val - besselJR 1 x.val| ≤ 2.01e-14) ∧
    (8 ≤ |x.val| → |v.val - besselJR 1 x.val| ≤ (1.31e-12 + |x.val| / 2 ^ 53) / √|x.val|) := by
  refine ⟨j1 x, rfl, ?_, fun h => (j1_acc_left h).2, fun h => (j1_acc_right L h hf).2⟩
  rcases lt_or_ge |x.val| 8 with h | h
  · exact (j1_acc_left h).1
  · exact (j1_acc_right L h hf).1

/-- C72, order 0: relative accuracy `3.3·10^-13` wherever `e^|x|` stays clear of overflow -/
theorem I0_accurate (L : LibmUlp) {x : F64} (hx : |x.val| ≤ 690) : ∃ v, In 0 x = .ok v ∧ v.isFin = true ∧
    |v.val - besselIR 0 x.val| ≤ 3.3e-13 * |besselIR 0 x.val| ∧
    (|x.val| < 15 → |v.val - besselIR 0 x.val| ≤ 3.6e-14 * |besselIR 0 x.val|) := by
  rw [abs_of_pos (besselI0_pos x.val)]
  have hl : |x.val| < 15 → |(i0 x).val - besselIR 0 x.val| ≤ 3.6e-14 * besselIR 0 x.val := fun h => (i0_acc_left h).err
  rcases lt_or_ge |x.val| 15 with h | h
  · exact ⟨i0 x, rfl, (i0_acc_left h).fin, ((i0_acc_left h).mono (by norm_num)).err, hl⟩
  · exact ⟨i0 x, rfl, (i0_acc_right L h hx).fin, (i0_acc_right L h hx).err, hl⟩

/-- C72, order 1, for `-15 < x ≤ 690`: relative accuracy `3.3·10^-13`, with an absolute slack of a few subnormal steps.
Missing for the full property: `x ≤ -15`, where the code is wrong (`I1_negative_wrong_f64`), and `690 < x`. -/
theorem I1_accurate_partial (L : LibmUlp) {x : F64} (h1 : -15 < x.val) (h2 : x.val ≤ 690) : ∃ v, In 1 x = .ok v ∧ v.isFin = true ∧
    |v.val - besselIR 1 x.val| ≤ 3.3e-13 * |besselIR 1 x.val| + 1 / 2 ^ 1072 := by
  refine ⟨i1 x, rfl, ?_⟩
  have hw : (0:ℝ) < 1 / 2 ^ 1072 := by positivity
  rcases lt_or_ge x.val 15 with h | h
  · have := i1_acc_left (abs_lt.2 ⟨h1, h⟩)
    refine ⟨this.1, this.2.trans (add_le_add_left ?_ _)⟩
    exact mul_le_mul_of_nonneg_right (by norm_num) (abs_nonneg _)
  · have := i1_acc_right L h h2
    refine ⟨this.fin, this.err.trans ?_⟩
    rw [abs_of_pos this.pos]
    exact le_add_of_nonneg_right hw.le

/-- C72: the restriction `-15 < x` is needed: for `-680 ≤ x ≤ -15` the value is at least 500 000 times too small -/
theorem I1_negative_wrong_f64 (L : LibmUlp) {x : F64} (h1 : -680 ≤ x.val) (h2 : x.val ≤ -15) : ∃ v, In 1 x = .ok v ∧ v.isFin = true ∧
    |v.val| ≤ 2e-6 * |besselIR 1 x.val| := by
  obtain ⟨hf, hv⟩ := i1_neg_small L h2 h1
  refine ⟨i1 x, rfl, hf, hv.trans ?_⟩
  have e : |besselIR 1 x.val| = besselIR 1 (-x.val) := by
    rw [← abs_of_pos (I_pos 1 (by linarith : 0 < -x.val)), I1_odd, abs_neg]
  have h3 : 7.5 ≤ besselIR 1 (-x.val) := by
    rw [besselIR_eq, pow_one]
    have h4 := sb_ge_one 1 le_rfl (by positivity : 0 ≤ (-x.val) ^ 2 / 4)
    norm_num at *
    nlinarith
  rw [e]
  norm_num at *
  linarith

example : (letI := idealLibm; ∃ v, Jn 0 (2.5 : F64) = .ok v ∧ |v.val - besselJR 0 (2.5 : F64).val| ≤ 2.01e-14) := by
  let _ := idealLibm
  obtain ⟨v, h, -, h2, -⟩ := J0_accurate ideal_trig (x := (2.5 : F64)) (by decide +kernel)
  refine ⟨v, h, h2 ?_⟩
  rw [val_of_sv (x := (2.5 : F64)) 5 2 (by norm_num) (by decide +kernel)]; norm_num

example : (letI := idealLibm; ∃ v, Jn 1 (-100.0 : F64) = .ok v ∧ |v.val - besselJR 1 (-100.0 : F64).val| ≤ 1.33e-13) := by
  let _ := idealLibm
  obtain ⟨v, h, -, -, h2⟩ := J1_accurate ideal_trig (x := (-100.0 : F64)) (by decide +kernel)
  have e : (-100.0 : F64).val = -100 := by rw [val_neg, val_of_int (x := (100.0 : F64)) 100 (by decide +kernel)]; norm_num
  rw [e] at h2 ⊢
  have h3 := h2 (by norm_num)
  have hs : √|(-100:ℝ)| = 10 := by rw [abs_neg, abs_of_pos (by norm_num), show (100:ℝ) = 10 ^ 2 by norm_num, Real.sqrt_sq (by norm_num)]
  rw [hs] at h3
  exact ⟨v, h, h3.trans (by norm_num)⟩

example : (letI := idealLibm; ∃ v, In 0 (600.0 : F64) = .ok v ∧ |v.val - besselIR 0 (600.0 : F64).val| ≤ 3.3e-13 * |besselIR 0 (600.0 : F64).val|) := by
  let _ := idealLibm
  obtain ⟨v, h, -, h2, -⟩ := I0_accurate ideal_ulp (x := (600.0 : F64)) (by rw [val_of_int (x := (600.0 : F64)) 600 (by decide +kernel)]; norm_num)
  exact ⟨v, h, h2⟩

example : (letI := idealLibm; ∃ v, In 1 (-20.0 : F64) = .ok v ∧ |v.val| ≤ 2e-6 * |besselIR 1 (-20.0 : F64).val|) := by
  let _ := idealLibm
  have e : (-20.0 : F64).val = -20 := by rw [val_neg, val_of_int (x := (20.0 : F64)) 20 (by decide +kernel)]; norm_num
  obtain ⟨v, h, -, h2⟩ := I1_negative_wrong_f64 ideal_ulp (x := (-20.0 : F64)) (by rw [e]; norm_num) (by rw [e]; norm_num)
  exact ⟨v, h, h2⟩

end Verif
