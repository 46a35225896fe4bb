import Verif.LibmUlp

/-! The accuracy of `sin` and `cos` in real math libraries. -/

namespace Verif
open F64

/-- `sin` and `cos` with an absolute error of at most `2⁻⁵²` at every finite argument -/
structure LibmTrig [Libm F64] : Prop extends LibmUlp where
  sin_ulp : ∀ x : F64, x.isFin = true → |(Libm.sin x).val - Real.sin x.val| ≤ 1 / 2^52
  cos_ulp : ∀ x : F64, x.isFin = true → |(Libm.cos x).val - Real.cos x.val| ≤ 1 / 2^52

theorem rn_unit {r : ℝ} (h : |r| ≤ 1) : |RN r - r| ≤ 1 / 2^52 := by
  have hH := HUGE_ge
  have e := RN_err' (x := r) (lt_of_le_of_lt h (lt_of_lt_of_le (by norm_num) hH))
  have h1 : |r| / 2^53 ≤ 1 / 2^53 := by gcongr
  have h2 : (1:ℝ) / 2^1075 ≤ 1 / 2^53 := one_div_le_one_div_of_le (by positivity) (pow_le_pow_right₀ (by norm_num) (by norm_num))
  refine e.trans ((add_le_add h1 h2).trans ?_)
  norm_num

/-- The hypotheses are satisfiable: correctly rounded functions meet them. -/
theorem ideal_trig : @LibmTrig idealLibm := by
  let _ := idealLibm
  refine @LibmTrig.mk idealLibm ideal_ulp ?_ ?_
  · intro x hf
    show |(if x.isFin then (if x.neg then -(ofReal (Real.sin |x.val|)) else ofReal (Real.sin |x.val|)) else nan : F64).val - _| ≤ _
    rw [if_pos hf]
    have hs := Real.abs_sin_le_one |x.val|
    have hr := rn_unit hs
    by_cases hn : x.neg = true
    · have hx : x.val ≤ 0 := val_nonpos_of_neg hn
      rw [if_pos hn, val_neg, ofReal_val, abs_of_nonpos hx, Real.sin_neg] at *
      rw [RN_neg, neg_neg] at *
      exact rn_unit (by simpa using hs)
    · have hx : 0 ≤ x.val := val_nonneg_of_neg (by simpa using hn)
      rw [if_neg hn, ofReal_val]
      rw [abs_of_nonneg hx] at *
      exact hr
  · intro x hf
    show |(if x.isFin then ofReal (Real.cos |x.val|) else nan : F64).val - _| ≤ _
    rw [if_pos hf, ofReal_val, Real.cos_abs]
    exact rn_unit (Real.abs_cos_le_one _)

end Verif
