import Verif.Spec
import Verif.Proofs.Exact
import Mathlib.Analysis.Complex.ExponentialBounds

/-!
# What is assumed about the platform's libm

Rust's `f64::exp`, `ln`, … call the platform's math library; their results are not specified bit for bit.  Theorems that need to know
something about them take `LibmSpec` as an explicit hypothesis (no axiom).  `ideal_spec` shows that the correctly rounded functions satisfy it.
-/

namespace Verif
open F64

/-- Special cases and coarse ranges, as required by C99 Annex F / IEEE-754 clause 9. -/
structure LibmSpec [Libm F64] : Prop where
  exp_nan : ∀ x : F64, x.isNaN = true → (Libm.exp x).isNaN = true
  /-- `exp` of a number is a number with positive sign bit -/
  exp_num : ∀ x : F64, x.isNaN = false → (Libm.exp x).isNaN = false ∧ (Libm.exp x).neg = false
  exp_inf : Libm.exp inf = inf
  exp_ninf : Libm.exp ninf = 0.0
  /-- `exp x ≤ 1` for `x ≤ 0`, `exp x ≥ 1` for `x ≥ 0` -/
  exp_le_one : ∀ x : F64, x.isNaN = false → x.val ≤ 0 → (Libm.exp x).val ≤ 1
  exp_ge_one : ∀ x : F64, x.isNaN = false → 0 ≤ x.val → 1 ≤ (Libm.exp x).val
  /-- neither overflow nor underflow up to 700 -/
  exp_mid : ∀ x : F64, |x.val| ≤ 700 → (Libm.exp x).isFin = true ∧ 0 < (Libm.exp x).val
  ln_nan : ∀ x : F64, x.isNaN = true → (Libm.ln x).isNaN = true
  ln_neg : ∀ x : F64, x.isNaN = false → x.val < 0 → (Libm.ln x).isNaN = true
  ln_zero : ∀ x : F64, x.isZero = true → Libm.ln x = ninf
  ln_inf : Libm.ln inf = inf
  /-- for a positive finite number `ln` is a number of the right sign and at most 746 in magnitude (the true bound is 745.14) -/
  ln_num : ∀ x : F64, x.isFin = true → 0 < x.val → (Libm.ln x).isNaN = false ∧ |(Libm.ln x).val| ≤ 746
  ln_le : ∀ x : F64, x.isFin = true → 0 < x.val → x.val ≤ 1 → (Libm.ln x).val ≤ 0
  ln_ge : ∀ x : F64, x.isFin = true → 1 ≤ x.val → 0 ≤ (Libm.ln x).val
  sin_nan : ∀ x : F64, x.isFin = false → (Libm.sin x).isNaN = true
  cos_nan : ∀ x : F64, x.isFin = false → (Libm.cos x).isNaN = true
  sin_num : ∀ x : F64, x.isFin = true → (Libm.sin x).isNaN = false ∧ |(Libm.sin x).val| ≤ 1
  cos_num : ∀ x : F64, x.isFin = true → (Libm.cos x).isNaN = false ∧ |(Libm.cos x).val| ≤ 1
  /-- `sin` is odd and `cos` is even, bit for bit -/
  sin_neg : ∀ x : F64, x.isFin = true → Libm.sin (-x) = -Libm.sin x
  cos_neg : ∀ x : F64, x.isFin = true → Libm.cos (-x) = Libm.cos x

/-- `exp` and `ln` are moreover accurate to one part in a million (real implementations: one unit in the last place). -/
structure LibmAcc [Libm F64] : Prop extends LibmSpec where
  exp_acc : ∀ x : F64, |x.val| ≤ 700 → |(Libm.exp x).val - Real.exp x.val| ≤ Real.exp x.val / 10^6
  ln_acc : ∀ x : F64, x.isFin = true → 0 < x.val → |(Libm.ln x).val - Real.log x.val| ≤ (1 + |Real.log x.val|) / 10^6
  /-- `exp` underflows to zero (the true threshold is -745.2) -/
  exp_under : ∀ x : F64, x.isNaN = false → x.val ≤ -750 → Libm.exp x = 0.0

theorem neg_neg_f64 (a : F64) : -(-a) = a := by
  apply ext'
  · show (!(!a.neg)) = a.neg; cases a.neg <;> rfl
  · rfl

/-- `r` rounded to binary64 (sign of zero positive) -/
noncomputable def F64.ofReal (r : ℝ) : F64 :=
  ⟨decide (r < 0), rndMag (|r| * 2^1074), lt_of_le_of_lt (rndMag_le _) (by decide)⟩

theorem ofReal_val (r : ℝ) : (ofReal r).val = RN r := by
  rw [val_eq]
  show (if (decide (r < 0)) = true then -((iv (rndMag (|r| * 2^1074)) : ℝ) / 2^1074) else (iv (rndMag (|r| * 2^1074)) : ℝ) / 2^1074) = RN r
  unfold RN rnd0
  by_cases h : r < 0
  · rw [if_neg (not_le.2 h), abs_of_neg h, decide_eq_true h, if_pos rfl]
  · rw [if_pos (not_lt.1 h), abs_of_nonneg (not_lt.1 h), decide_eq_false h, if_neg Bool.false_ne_true]

theorem ofReal_nn (r : ℝ) : (ofReal r).isNaN = false := by
  rw [notNaN_iff]; exact rndMag_le _

/-- the correctly rounded functions -/
noncomputable def idealLibm : Libm F64 where
  exp x := if x.isNaN then nan else if x.isInf then (if x.neg then 0.0 else inf) else ofReal (Real.exp x.val)
  ln x := if x.isNaN then nan else if x.isZero then ninf else if x.neg then nan else if x.isInf then inf else ofReal (Real.log x.val)
  sin x := if x.isFin then (if x.neg then -(ofReal (Real.sin |x.val|)) else ofReal (Real.sin |x.val|)) else nan
  cos x := if x.isFin then ofReal (Real.cos |x.val|) else nan
  sinh x := if x.isFin then (if x.neg then -(ofReal (Real.sinh |x.val|)) else ofReal (Real.sinh |x.val|)) else x
  cosh x := if x.isNaN then nan else if x.isInf then inf else ofReal (Real.cosh |x.val|)
  powf x y := if x.isFin && y.isFin then ofReal (x.val ^ y.val) else nan

theorem log_fin_bound {x : F64} (hx : x.isFin = true) (h0 : 0 < x.val) : |Real.log x.val| ≤ 745 := by
  have l2 := Real.log_two_lt_d9
  have l2' : 0 < Real.log 2 := Real.log_pos (by norm_num)
  have h1 : (1:ℝ) / 2^1074 ≤ x.val := by
    have hf := val_pos_form (neg_of_val_pos h0)
    have h0' := h0
    rw [hf] at h0' ⊢
    apply div_le_div_of_nonneg_right _ U_pos.le
    have h3 : 0 < (iv x.mag : ℝ) := by
      by_contra hc
      have h4 : (iv x.mag : ℝ) / 2^1074 ≤ 0 := div_nonpos_of_nonpos_of_nonneg (not_lt.1 hc) U_pos.le
      exact absurd h0' (not_lt.2 h4)
    have h4 : 0 < iv x.mag := by exact_mod_cast h3
    exact_mod_cast h4
  have h2 : x.val ≤ 2^1024 := by rw [← HUGE_eq]; exact (fin_lt hx).le
  have a := Real.log_le_log (by positivity) h1
  have b := Real.log_le_log h0 h2
  rw [Real.log_div (by norm_num) (by positivity), Real.log_one, Real.log_pow, zero_sub] at a
  rw [Real.log_pow] at b
  generalize Real.log x.val = L at *
  clear h1 h2
  rw [abs_le]
  norm_num at a b l2 ⊢
  constructor <;> nlinarith

theorem RN_le_int {r : ℝ} (i : ℤ) (hi : |i| ≤ 2^53) (h : r ≤ i) : RN r ≤ i := by
  rw [← RN_int i hi]; exact RN_mono h
theorem RN_ge_int {r : ℝ} (i : ℤ) (hi : |i| ≤ 2^53) (h : (i:ℝ) ≤ r) : (i:ℝ) ≤ RN r := by
  rw [← RN_int i hi]; exact RN_mono h
theorem RN_abs_le_int {r : ℝ} (i : ℤ) (hi : |i| ≤ 2^53) (h : |r| ≤ i) : |RN r| ≤ i := by
  rw [RN_abs]; exact RN_le_int i hi h

theorem small_fin {x : F64} (h : |x.val| ≤ 700) : x.isFin = true := by
  rw [isFin_iff_val]
  have := HUGE_ge
  have h2 : (1000:ℝ) ≤ 10^200 := by norm_num
  linarith

theorem HUGE_ge2 : (2:ℝ)^1020 ≤ HUGE := by rw [HUGE_eq]; exact pow_le_pow_right₀ (by norm_num) (by norm_num)

theorem RN_pow2' {p : ℕ} (h : p ≤ 1020) : RN ((2:ℝ)^p) = 2^p := by
  have e : (2:ℝ)^p = ((1:ℤ):ℝ) * 2^(p:ℤ) := by rw [zpow_natCast]; push_cast; ring
  rw [e]
  refine RN_dyadic _ _ (by norm_num) (by omega) ?_
  rw [← e, abs_of_pos (by positivity), HUGE_eq]
  exact pow_le_pow_right₀ (by norm_num) (by omega)

theorem RN_inv_pow2 {p : ℕ} (h : p ≤ 1020) : RN (((2:ℝ)^p)⁻¹) = ((2:ℝ)^p)⁻¹ := by
  have e : ((2:ℝ)^p)⁻¹ = ((1:ℤ):ℝ) * 2^(-(p:ℤ)) := by rw [zpow_neg, zpow_natCast]; push_cast; ring
  rw [e]
  refine RN_dyadic _ _ (by norm_num) (by omega) ?_
  rw [← e, abs_of_pos (by positivity)]
  have h1 : ((2:ℝ)^p)⁻¹ ≤ 1 := inv_le_one_of_one_le₀ (one_le_pow₀ (by norm_num))
  have := HUGE_ge
  have h2 : (1:ℝ) ≤ 10^200 := by norm_num
  linarith

theorem exp_700 {r : ℝ} (h : |r| ≤ 700) : ((2:ℝ)^1020)⁻¹ ≤ Real.exp r ∧ Real.exp r ≤ 2^1020 := by
  have key : Real.exp 700 ≤ (2:ℝ)^1020 := by
    have h1 : Real.exp 1 ≤ 2.72 := (Real.exp_one_lt_d9.le).trans (by norm_num)
    have h2 : Real.exp 700 = Real.exp 1 ^ 700 := by rw [← Real.exp_nat_mul]; norm_num
    rw [h2]
    refine (pow_le_pow_left₀ (Real.exp_pos 1).le h1 700).trans ?_
    have h3 : (2.72:ℝ)^70 ≤ 2^102 := by norm_num
    have h4 := pow_le_pow_left₀ (by positivity) h3 10
    rwa [← pow_mul, ← pow_mul] at h4
  rw [abs_le] at h
  have h1 := (Real.exp_le_exp.2 h.2).trans key
  have h2 := (Real.exp_le_exp.2 (by linarith [h.1] : -r ≤ 700)).trans key
  refine ⟨?_, h1⟩
  rw [Real.exp_neg] at h2
  rw [inv_le_comm₀ (by positivity) (Real.exp_pos _)]
  exact h2

theorem ideal_spec : @LibmSpec idealLibm := by
  let _ := idealLibm
  have inf_le : ∀ x : F64, x.isInf = true → x.neg = false → x = inf := fun x h hn => by
    have := isInf_cases h; rw [hn] at this; exact this
  refine ⟨?_, ?_, ?_, ?_, ?_, ?_, ?_, ?_, ?_, ?_, ?_, ?_, ?_, ?_, ?_, ?_, ?_, ?_, ?_, ?_⟩
  · intro x h; show (if x.isNaN then nan else _ : F64).isNaN = true; rw [if_pos h]; decide
  · intro x h
    show (if x.isNaN then nan else if x.isInf then (if x.neg then 0.0 else inf) else ofReal (Real.exp x.val) : F64).isNaN = false ∧
      (if x.isNaN then nan else if x.isInf then (if x.neg then 0.0 else inf) else ofReal (Real.exp x.val) : F64).neg = false
    rw [h]; simp only [Bool.false_eq_true, if_false]
    split
    · split <;> decide +kernel
    · exact ⟨ofReal_nn _, decide_eq_false (not_lt.2 (Real.exp_pos _).le)⟩
  · rfl
  · rfl
  · intro x h h0
    show (if x.isNaN then nan else if x.isInf then (if x.neg then 0.0 else inf) else ofReal (Real.exp x.val) : F64).val ≤ 1
    rw [h]; simp only [Bool.false_eq_true, if_false]
    split
    · rename_i hi
      split
      · rw [zero_val]; norm_num
      · rename_i hn
        have := inf_le x hi (by simpa using hn)
        rw [this, inf_val] at h0
        exact absurd h0 (not_le.2 HUGE_pos)
    · rw [ofReal_val]
      have := RN_le_int (r := Real.exp x.val) 1 (by norm_num) (by push_cast; exact Real.exp_le_one_iff.2 h0)
      push_cast at this; exact this
  · intro x h h0
    show 1 ≤ (if x.isNaN then nan else if x.isInf then (if x.neg then 0.0 else inf) else ofReal (Real.exp x.val) : F64).val
    rw [h]; simp only [Bool.false_eq_true, if_false]
    split
    · rename_i hi
      split
      · rename_i hn
        have h1 := val_nonpos_of_neg hn
        have h2 : x.val = 0 := le_antisymm h1 h0
        have h3 := notZero_of_inf hi
        rw [val_eq_zero.1 h2] at h3; cases h3
      · rw [inf_val]
        have := HUGE_ge
        have h5 : (1:ℝ) ≤ 10^200 := by norm_num
        linarith
    · rw [ofReal_val]
      have := RN_ge_int (r := Real.exp x.val) 1 (by norm_num) (by push_cast; exact Real.one_le_exp h0)
      push_cast at this; exact this
  · intro x h
    have hf : x.isFin = true := small_fin h
    show (if x.isNaN then nan else if x.isInf then (if x.neg then 0.0 else inf) else ofReal (Real.exp x.val) : F64).isFin = true ∧
      0 < (if x.isNaN then nan else if x.isInf then (if x.neg then 0.0 else inf) else ofReal (Real.exp x.val) : F64).val
    rw [isFin_notNaN hf, isFin_notInf hf]; simp only [Bool.false_eq_true, if_false]
    obtain ⟨e1, e2⟩ := exp_700 h
    have hA := HUGE_ge2
    constructor
    · rw [isFin_iff_val, ofReal_val, RN_abs, abs_of_pos (Real.exp_pos _)]
      refine lt_of_le_of_lt (RN_mono e2) (lt_of_le_of_lt (b := (2:ℝ)^1020) ?_ ?_)
      · rw [RN_pow2' (by norm_num)]
      · rw [HUGE_eq]; exact pow_lt_pow_right₀ (by norm_num) (by norm_num)
    · rw [ofReal_val]
      refine lt_of_lt_of_le ?_ (RN_mono e1)
      rw [RN_inv_pow2 (by norm_num)]; positivity
  · intro x h; show (if x.isNaN then nan else _ : F64).isNaN = true; rw [if_pos h]; decide
  · intro x h h0
    show (if x.isNaN then nan else if x.isZero then ninf else if x.neg then nan else if x.isInf then inf else ofReal (Real.log x.val) : F64).isNaN = true
    rw [h, val_ne_zero.1 h0.ne, neg_of_val_neg h0]; rfl
  · intro x h
    show (if x.isNaN then nan else if x.isZero then ninf else if x.neg then nan else if x.isInf then inf else ofReal (Real.log x.val) : F64) = ninf
    rw [isFin_notNaN (isZero_fin h), h]; rfl
  · rfl
  · intro x h h0
    show (if x.isNaN then nan else if x.isZero then ninf else if x.neg then nan else if x.isInf then inf else ofReal (Real.log x.val) : F64).isNaN = false ∧
      |(if x.isNaN then nan else if x.isZero then ninf else if x.neg then nan else if x.isInf then inf else ofReal (Real.log x.val) : F64).val| ≤ 746
    rw [isFin_notNaN h, val_ne_zero.1 h0.ne', neg_of_val_pos h0, isFin_notInf h]
    simp only [Bool.false_eq_true, if_false]
    refine ⟨ofReal_nn _, ?_⟩
    rw [ofReal_val]
    have := RN_abs_le_int (r := Real.log x.val) 746 (by norm_num) (by have := log_fin_bound h h0; push_cast; linarith)
    push_cast at this; exact this
  · intro x h h0 h1
    show (if x.isNaN then nan else if x.isZero then ninf else if x.neg then nan else if x.isInf then inf else ofReal (Real.log x.val) : F64).val ≤ 0
    rw [isFin_notNaN h, val_ne_zero.1 h0.ne', neg_of_val_pos h0, isFin_notInf h]
    simp only [Bool.false_eq_true, if_false]
    rw [ofReal_val]
    exact RN_nonpos (Real.log_nonpos h0.le h1)
  · intro x h h1
    show 0 ≤ (if x.isNaN then nan else if x.isZero then ninf else if x.neg then nan else if x.isInf then inf else ofReal (Real.log x.val) : F64).val
    rw [isFin_notNaN h, val_ne_zero.1 (by linarith), neg_of_val_pos (by linarith), isFin_notInf h]
    simp only [Bool.false_eq_true, if_false]
    rw [ofReal_val]
    exact RN_nonneg (Real.log_nonneg h1)
  · intro x h; show (if x.isFin then _ else nan : F64).isNaN = true; rw [h, if_neg Bool.false_ne_true]; decide
  · intro x h; show (if x.isFin then _ else nan : F64).isNaN = true; rw [h, if_neg Bool.false_ne_true]; decide
  · intro x h
    show (if x.isFin then (if x.neg then -(ofReal (Real.sin |x.val|)) else ofReal (Real.sin |x.val|)) else nan : F64).isNaN = false ∧
      |(if x.isFin then (if x.neg then -(ofReal (Real.sin |x.val|)) else ofReal (Real.sin |x.val|)) else nan : F64).val| ≤ 1
    rw [if_pos h]
    have hb := RN_abs_le_int (r := Real.sin |x.val|) 1 (by norm_num) (by push_cast; exact Real.abs_sin_le_one _)
    push_cast at hb
    split
    · exact ⟨val_of_neg (ofReal_nn _), by rw [val_neg, abs_neg, ofReal_val]; exact hb⟩
    · exact ⟨ofReal_nn _, by rw [ofReal_val]; exact hb⟩
  · intro x h
    show (if x.isFin then ofReal (Real.cos |x.val|) else nan : F64).isNaN = false ∧
      |(if x.isFin then ofReal (Real.cos |x.val|) else nan : F64).val| ≤ 1
    rw [if_pos h]
    have hb := RN_abs_le_int (r := Real.cos |x.val|) 1 (by norm_num) (by push_cast; exact Real.abs_cos_le_one _)
    push_cast at hb
    exact ⟨ofReal_nn _, by rw [ofReal_val]; exact hb⟩
  · intro x h
    show (if (-x).isFin then (if (-x).neg then -(ofReal (Real.sin |(-x).val|)) else ofReal (Real.sin |(-x).val|)) else nan : F64) =
      -(if x.isFin then (if x.neg then -(ofReal (Real.sin |x.val|)) else ofReal (Real.sin |x.val|)) else nan : F64)
    have e1 : (-x).isFin = true := h
    have e2 : (-x).neg = !x.neg := rfl
    rw [if_pos h, if_pos e1, val_neg, abs_neg, e2]
    cases x.neg
    · rfl
    · simp only [Bool.not_true, Bool.false_eq_true, if_false, if_true]
      exact (neg_neg_f64 _).symm
  · intro x h
    show (if (-x).isFin then ofReal (Real.cos |(-x).val|) else nan : F64) = (if x.isFin then ofReal (Real.cos |x.val|) else nan : F64)
    have e1 : (-x).isFin = true := h
    rw [if_pos h, if_pos e1, val_neg, abs_neg]

theorem RN_err_million {r : ℝ} (h : |r| ≤ 2^1020) : |RN r - r| ≤ |r| / 2^53 + 1 / 2^1075 :=
  RN_err' (lt_of_le_of_lt h (by rw [HUGE_eq]; exact pow_lt_pow_right₀ (by norm_num) (by norm_num)))

theorem tiny_bound {e : ℝ} (he : ((2:ℝ)^1020)⁻¹ ≤ e) : (1:ℝ) / 2^1075 ≤ e / 2^53 := by
  rw [div_le_div_iff₀ (by positivity) (by positivity), one_mul]
  have h1 : (2:ℝ)^1075 = 2^53 * (2^1020 * 4) := by
    rw [show (4:ℝ) = 2^2 by norm_num, ← pow_add, ← pow_add]
  have h2 : 1 ≤ e * 2^1020 := by
    have := mul_le_mul_of_nonneg_right he (by positivity : (0:ℝ) ≤ 2^1020)
    rwa [inv_mul_cancel₀ (by positivity)] at this
  rw [h1]
  have e3 : e * ((2:ℝ)^53 * (2^1020 * 4)) = (e * 2^1020) * (4 * 2^53) := by ring
  rw [e3]
  generalize e * (2:ℝ)^1020 = Y at *
  linarith

theorem small_1075 : (1:ℝ) / 2^1075 ≤ 1 / 2^53 :=
  one_div_le_one_div_of_le (by positivity) (pow_le_pow_right₀ (by norm_num) (by norm_num))

theorem exp_m750 {r : ℝ} (h : r ≤ -750) : 2 * (Real.exp r * 2^1074) < 1 := by
  have h1 : Real.exp r ≤ Real.exp (-750) := Real.exp_le_exp.2 h
  have h2 : Real.exp 750 = (Real.exp 1 ^ 75) ^ 10 := by rw [← pow_mul, ← Real.exp_nat_mul]; norm_num
  have h3 : (2:ℝ)^108 < Real.exp 1 ^ 75 := by
    have : (2.718:ℝ) ≤ Real.exp 1 := by have := Real.exp_one_gt_d9; linarith
    refine lt_of_lt_of_le ?_ (pow_le_pow_left₀ (by norm_num) this 75)
    norm_num
  have h4 : (2:ℝ)^1080 < Real.exp 750 := by
    rw [h2, show (2:ℝ)^1080 = (2^108)^10 by rw [← pow_mul]]
    exact pow_lt_pow_left₀ h3 (by positivity) (by norm_num)
  rw [Real.exp_neg] at h1
  have h5 : (Real.exp 750)⁻¹ < ((2:ℝ)^1080)⁻¹ := inv_strictAnti₀ (by positivity) h4
  have h6 : Real.exp r < ((2:ℝ)^1080)⁻¹ := lt_of_le_of_lt h1 h5
  have h7 : 2 * (Real.exp r * 2^1074) < 2 * (((2:ℝ)^1080)⁻¹ * 2^1074) := by
    exact mul_lt_mul_of_pos_left (mul_lt_mul_of_pos_right h6 (by positivity)) (by norm_num)
  refine h7.trans_le ?_
  have h8 : (2:ℝ)^1080 = 2^1074 * 64 := by rw [show (64:ℝ) = 2^6 by norm_num, ← pow_add]
  rw [h8, mul_inv, mul_comm ((2:ℝ)^1074)⁻¹, mul_assoc, inv_mul_cancel₀ (by positivity)]
  norm_num

theorem ofReal_tiny {r : ℝ} (h0 : 0 ≤ r) (h : 2 * (r * 2^1074) < 1) : ofReal r = 0.0 := by
  have hm : rndMag (|r| * 2^1074) = 0 := by
    by_contra hc
    have := (lt_rndMag (n := 0) (x := |r| * 2^1074)).1 (Nat.pos_of_ne_zero hc)
    rcases this.2 with h1 | h1
    · rw [abs_of_nonneg h0] at h1
      have e0 : iv 0 = 0 := iv_zero
      have e1 : iv (0+1) = 1 := by decide +kernel
      rw [e0, e1, Nat.cast_zero, Nat.cast_one, zero_add] at h1
      exact absurd h (not_lt.2 h1.le)
    · omega
  have e : (0.0 : F64) = ⟨false, 0, by decide⟩ := by decide +kernel
  rw [e]
  apply ext'
  · exact decide_eq_false (not_lt.2 h0)
  · exact hm

/-- The correctly rounded functions satisfy every assumption made about libm. -/
theorem ideal_acc : @LibmAcc idealLibm := by
  let _ := idealLibm
  refine ⟨ideal_spec, ?_, ?_, ?_⟩
  · intro x h
    have hf : x.isFin = true := small_fin h
    show |(if x.isNaN then nan else if x.isInf then (if x.neg then 0.0 else inf) else ofReal (Real.exp x.val) : F64).val - Real.exp x.val| ≤ _
    rw [isFin_notNaN hf, isFin_notInf hf]; simp only [Bool.false_eq_true, if_false]
    rw [ofReal_val]
    obtain ⟨e1, e2⟩ := exp_700 h
    have b := RN_err_million (r := Real.exp x.val) (by rw [abs_of_pos (Real.exp_pos _)]; exact e2)
    rw [abs_of_pos (Real.exp_pos x.val)] at b
    refine b.trans ((add_le_add_right (tiny_bound e1) _).trans ?_)
    have := Real.exp_pos x.val
    clear b e1 e2
    generalize Real.exp x.val = E at *
    norm_num; linarith
  · intro x h h0
    show |(if x.isNaN then nan else if x.isZero then ninf else if x.neg then nan else if x.isInf then inf else ofReal (Real.log x.val) : F64).val - Real.log x.val| ≤ _
    rw [isFin_notNaN h, val_ne_zero.1 h0.ne', neg_of_val_pos h0, isFin_notInf h]
    simp only [Bool.false_eq_true, if_false]
    rw [ofReal_val]
    have hb := log_fin_bound h h0
    have b := RN_err' (x := Real.log x.val) (lt_of_le_of_lt hb (by
      have := HUGE_ge
      have h2 : (1000:ℝ) ≤ 10^200 := by norm_num
      linarith))
    refine b.trans ((add_le_add_right small_1075 _).trans ?_)
    have := abs_nonneg (Real.log x.val)
    clear b
    generalize |Real.log x.val| = E at *
    norm_num; linarith
  · intro x h h0
    show (if x.isNaN then nan else if x.isInf then (if x.neg then 0.0 else inf) else ofReal (Real.exp x.val) : F64) = 0.0
    rw [h, neg_of_val_neg (by linarith)]
    simp only [Bool.false_eq_true, if_false, if_true]
    split
    · rfl
    · exact ofReal_tiny (Real.exp_pos _).le (exp_m750 h0)

end Verif
