import Verif.Proofs.BesselLeft2
import Verif.Proofs.BesselRight5
import Verif.Proofs.BesselI2

/-!
# C71, C72: `Jn(0, ·)`, `Jn(1, ·)`, `In(0, ·)`, `In(1, ·)` approximate the Bessel functions (src/bessel.rs)

`besselJR n`, `besselIR n` (`Verif.SpecBessel`) are the real functions, defined by their power series.
The theorems of this file are about the code run in exact arithmetic (`α := ℝ`): they bound the error of the
coefficient tables and of the choice of the formulas.
-/

namespace Verif
open Bes Real
variable [Cfg]

/-- C71, order 0: the error is at most `1.1·10^-14` for `|x| < 8` and at most `1.301·10^-12/√|x|` beyond -/
theorem J0_exact_accurate (x : ℝ) : ∃ v, Jn 0 x = .ok v ∧ |v - besselJR 0 x| ≤ 5e-13 ∧
    (|x| < 8 → |v - besselJR 0 x| ≤ 1.1e-14) ∧ (8 ≤ |x| → |v - besselJR 0 x| ≤ 1.301e-12 / √|x|) := by
  have h8 : |x| < 8 → |j0 x - besselJR 0 x| ≤ 1.1e-14 := fun h => (j0_left h).trans (by norm_num)
  refine ⟨j0 x, rfl, ?_, h8, fun h => j0_right h⟩
  rcases lt_or_ge |x| 8 with h | h
  · exact (h8 h).trans (by norm_num)
  · refine (j0_right h).trans ?_
    have hs : 2.8 ≤ √|x| := Real.le_sqrt_of_sq_le (by norm_num; linarith)
    rw [div_le_iff₀ (by linarith)]
    norm_num at *; linarith

/-- C71, order 1: the error is at most `1.26·10^-15·|x|` for `|x| < 8` and at most `1.301·10^-12/√|x|` beyond -/
theorem J1_exact_accurate (x : ℝ) : ∃ v, Jn 1 x = .ok v ∧ |v - besselJR 1 x| ≤ 5e-13 ∧
    (|x| < 8 → |v - besselJR 1 x| ≤ 1.26e-15 * |x|) ∧ (8 ≤ |x| → |v - besselJR 1 x| ≤ 1.301e-12 / √|x|) := by
  refine ⟨j1 x, rfl, ?_, fun h => j1_left h, fun h => j1_right h⟩
  rcases lt_or_ge |x| 8 with h | h
  · refine (j1_left h).trans ?_
    norm_num at *; linarith
  · refine (j1_right h).trans ?_
    have hs : 2.8 ≤ √|x| := Real.le_sqrt_of_sq_le (by norm_num; linarith)
    rw [div_le_iff₀ (by linarith)]
    norm_num at *; linarith

theorem besselI0_pos (x : ℝ) : 0 < besselIR 0 x := by
  rw [besselIR_eq, pow_zero, one_mul]
  have := sb_ge_one 0 (by norm_num) (by positivity : 0 ≤ x ^ 2 / 4)
  linarith

/-- C72, order 0: the relative error is at most `3·10^-13` for every real `x` -/
theorem I0_exact_accurate (x : ℝ) : ∃ v, In 0 x = .ok v ∧ |v - besselIR 0 x| ≤ 3e-13 * |besselIR 0 x| ∧
    (|x| < 15 → |v - besselIR 0 x| ≤ 2.51e-14 * |besselIR 0 x|) := by
  rw [abs_of_pos (besselI0_pos x)]
  refine ⟨i0 x, rfl, ?_, fun h => i0_left h⟩
  rcases lt_or_ge |x| 15 with h | h
  · refine (i0_left h).trans ?_
    have := besselI0_pos x
    norm_num at *; linarith
  · exact i0_right h

/-- C72, order 1: the relative error is at most `3·10^-13` for every real `x > -15` -/
theorem I1_exact_accurate_partial {x : ℝ} (hx : -15 < x) : ∃ v, In 1 x = .ok v ∧ |v - besselIR 1 x| ≤ 3e-13 * |besselIR 1 x| ∧
    (|x| < 15 → |v - besselIR 1 x| ≤ 1.01e-14 * |besselIR 1 x|) := by
  refine ⟨i1 x, rfl, ?_, fun h => i1_left h⟩
  rcases lt_or_ge x 15 with h | h
  · refine (i1_left (abs_lt.2 ⟨hx, h⟩)).trans ?_
    refine mul_le_mul_of_nonneg_right (by norm_num) (abs_nonneg _)
  · refine (i1_right h).trans ?_
    have := le_abs_self (besselIR 1 x)
    norm_num at *; linarith

omit [Cfg] in
theorem i1_neg_eq {x : ℝ} (hx : 15 ≤ x) : i1 (-x) = -(rexp (-(2 * x)) * i1 x) := by
  have hx0 : 0 < x := by linarith
  have ha : (Arith.abs x : ℝ) = x := abs_of_pos hx0
  have ha' : (Arith.abs (-x) : ℝ) = x := by show |(-x)| = x; rw [abs_neg, abs_of_pos hx0]
  have h : ((x:ℝ) <ᶠ (15.0:ℝ)) = false := by
    show decide (x < (15.0:ℝ)) = false
    rw [decide_eq_false_iff_not]; norm_num; exact hx
  have h2 : (x <ᶠ (0.0:ℝ)) = false := by
    show decide (x < (0.0:ℝ)) = false
    rw [decide_eq_false_iff_not]; norm_num; exact hx0.le
  have h3 : ((-x) <ᶠ (0.0:ℝ)) = true := by
    show decide (-x < (0.0:ℝ)) = true
    rw [decide_eq_true_eq]; norm_num; exact hx0
  unfold i1
  simp only [ha, ha', h, h2, h3, if_true]
  have e : (Libm.exp (-x) : ℝ) = rexp (-(2 * x)) * Libm.exp x := by
    show rexp (-x) = rexp (-(2 * x)) * rexp x
    rw [← Real.exp_add]; congr 1; ring
  rw [e]
  simp only [Bool.false_eq_true, if_false]
  ring

/-- C72: the restriction `x > -15` is needed: for `x ≤ -15` the value returned for order 1 is at least `10^12` times too small,
because line 1010 uses `x.exp()` where the formula needs the exponential of `|x|` -/
theorem I1_negative_wrong {x : ℝ} (hx : x ≤ -15) : ∃ v, In 1 x = .ok v ∧ |v| ≤ 1e-12 * |besselIR 1 x| := by
  refine ⟨i1 x, rfl, ?_⟩
  obtain ⟨y, rfl⟩ : ∃ y, x = -y := ⟨-x, by ring⟩
  have hy : 15 ≤ y := by linarith
  have h := i1_right hy
  rw [i1_neg_eq hy, I1_odd, abs_neg, abs_neg, abs_mul, abs_of_pos (Real.exp_pos _)]
  have e1 : rexp (-(2 * y)) ≤ 1e-13 := by
    have e15 := exp15
    have : rexp (-(2 * y)) ≤ rexp (-(15 + 15)) := Real.exp_le_exp.2 (by linarith)
    refine this.trans ?_
    rw [Real.exp_neg, Real.exp_add]
    have : 3269017 ≤ rexp 15 := by rw [abs_le] at e15; linarith [e15.1]
    rw [inv_le_comm₀ (by positivity) (by norm_num)]
    nlinarith
  have e2 : |i1 y| ≤ 2 * |besselIR 1 y| := by
    have := le_abs_self (besselIR 1 y)
    have h5 := abs_sub_abs_le_abs_sub (i1 y) (besselIR 1 y)
    have h6 := abs_nonneg (besselIR 1 y)
    generalize |besselIR 1 y| = q at *
    norm_num at h
    linarith
  calc rexp (-(2 * y)) * |i1 y| ≤ 1e-13 * (2 * |besselIR 1 y|) := by gcongr
    _ = 2e-13 * |besselIR 1 y| := by ring
    _ ≤ _ := mul_le_mul_of_nonneg_right (by norm_num) (abs_nonneg _)

omit [Cfg] in
/-- the reference functions are the Bessel functions: values and differential equations of order 0 and 1 -/
theorem besselR_characterised (x : ℝ) : besselJR 0 0 = 1 ∧ besselJR 1 0 = 0 ∧ besselIR 0 0 = 1 ∧ besselIR 1 0 = 0 ∧
    HasDerivAt (besselJR 0) (-besselJR 1 x) x ∧ (x ≠ 0 → HasDerivAt (besselJR 1) (besselJR 0 x - besselJR 1 x / x) x) ∧
    HasDerivAt (besselIR 0) (besselIR 1 x) x ∧ (x ≠ 0 → HasDerivAt (besselIR 1) (besselIR 0 x - besselIR 1 x / x) x) := by
  have hz : ∀ n, SB n 0 = 1 / (n.factorial : ℝ) := by
    intro n
    rw [SB, tsum_eq_single 0]
    · simp
    · intro k hk; simp [hk]
  refine ⟨?_, ?_, ?_, ?_, J0_deriv x, J1_deriv, I0_deriv x, I1_deriv⟩
  · rw [besselJR_eq]; simp [hz]
  · rw [besselJR_eq]; simp
  · rw [besselIR_eq]; simp [hz]
  · rw [besselIR_eq]; simp

example : ∃ v, Jn 0 (2.5 : ℝ) = .ok v ∧ |v - besselJR 0 2.5| ≤ 1.1e-14 := by
  obtain ⟨v, h, -, h2, -⟩ := J0_exact_accurate 2.5
  exact ⟨v, h, h2 (by norm_num)⟩

example : ∃ v, Jn 1 (-100 : ℝ) = .ok v ∧ |v - besselJR 1 (-100)| ≤ 1.301e-12 / √|(-100:ℝ)| := by
  obtain ⟨v, h, -, -, h2⟩ := J1_exact_accurate (-100)
  exact ⟨v, h, h2 (by norm_num)⟩

example : ∃ v, In 1 (20 : ℝ) = .ok v ∧ |v - besselIR 1 20| ≤ 3e-13 * |besselIR 1 20| := by
  obtain ⟨v, h, h2, -⟩ := I1_exact_accurate_partial (x := 20) (by norm_num)
  exact ⟨v, h, h2⟩

end Verif
