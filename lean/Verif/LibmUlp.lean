import Verif.LibmSpec
import Verif.F64.Ops

/-! The accuracy of real math libraries: an error of at most about one unit in the last place for `exp` and `ln`. -/

namespace Verif
open F64

/-- `exp` and `ln` accurate to one part in `2⁵²` (one unit in the last place), with one subnormal step of absolute slack. -/
structure LibmUlp [Libm F64] : Prop extends LibmAcc where
  exp_ulp : ∀ x : F64, x.isFin = true → x.val ≤ 709 → |(Libm.exp x).val - Real.exp x.val| ≤ Real.exp x.val / 2^52 + 1 / 2^1074
  ln_ulp : ∀ x : F64, x.isFin = true → 0 < x.val → |(Libm.ln x).val - Real.log x.val| ≤ |Real.log x.val| / 2^52 + 1 / 2^1074

theorem exp_709 {r : ℝ} (h : r ≤ 709) : Real.exp r < HUGE := by
  rw [HUGE_eq]
  refine lt_of_le_of_lt (Real.exp_le_exp.2 h) ?_
  have h2 := Real.log_two_gt_d9
  rw [← Real.lt_log_iff_exp_lt (by positivity), Real.log_pow]
  norm_num at h2 ⊢
  linarith

theorem err_weaken {r e : ℝ} (h : |e| ≤ |r| / 2^53 + 1 / 2^1075) : |e| ≤ |r| / 2^52 + 1 / 2^1074 := by
  refine h.trans (add_le_add ?_ ?_)
  · exact div_le_div_of_nonneg_left (abs_nonneg _) (by positivity) (by norm_num)
  · exact one_div_le_one_div_of_le (by positivity) (pow_le_pow_right₀ (by norm_num) (by norm_num))

theorem ideal_ulp : @LibmUlp idealLibm := by
  let _ := idealLibm
  refine @LibmUlp.mk idealLibm ideal_acc ?_ ?_
  · intro x hf hx
    show |(if x.isNaN then nan else if x.isInf then (if x.neg then 0.0 else inf) else ofReal (Real.exp x.val) : F64).val - _| ≤ _
    rw [isFin_notNaN hf, isFin_notInf hf]; simp only [Bool.false_eq_true, if_false]
    rw [ofReal_val]
    have h := RN_err' (x := Real.exp x.val) (by rw [abs_of_pos (Real.exp_pos _)]; exact exp_709 hx)
    have := err_weaken h
    rwa [abs_of_pos (Real.exp_pos x.val)] at this
  · intro x hf h0
    show |(if x.isNaN then nan else if x.isZero then ninf else if x.neg then nan else if x.isInf then inf else ofReal (Real.log x.val) : F64).val - _| ≤ _
    rw [isFin_notNaN hf, val_ne_zero.1 h0.ne', neg_of_val_pos h0, isFin_notInf hf]
    simp only [Bool.false_eq_true, if_false]
    rw [ofReal_val]
    have hb := log_fin_bound hf h0
    have hh := HUGE_ge
    have h1 : (1000:ℝ) ≤ 10^200 := by norm_num
    exact err_weaken (RN_err' (by linarith))

end Verif
