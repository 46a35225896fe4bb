import Verif.Proofs.ErfcF
import Verif.Props.Error
import Verif.Props.ErfcxAll

/-!
# C66, C67: accuracy of `erf` and `erfc` (src/error.rs)

`erfR`, `erfcR` (`Verif.SpecFun`) are the real error function and its complement, defined by the integral of `exp(-t²)`.
-/

namespace Verif
open F64
variable [Libm F64]

/-- far out both the result and the true value are below `10^-296` -/
theorem erfccheb_tail (L : LibmUlp) {z : F64} (hf : z.isFin = true) (h0 : 26.2 < z.val) :
    ∃ v, erfccheb z = .ok v ∧ v.isFin = true ∧ |v.val - erfcR z.val| ≤ 1 / 10^296 := by
  have hz0 : 0 < z.val := by norm_num at h0; linarith
  have hn := isFin_notNaN hf
  have hsq : 686.44 ≤ z.val^2 := by norm_num at h0 ⊢; nlinarith
  have e685 : Real.exp (-685) ≤ 1 / 10^297 := by
    rw [Real.exp_neg, one_div]
    refine inv_anti₀ (by positivity) ?_
    calc (10:ℝ)^297 = (10^59)^5 * 10^2 := by rw [← pow_mul, ← pow_add]
      _ ≤ (3 * 10^59)^5 := by rw [mul_pow, mul_comm]; exact mul_le_mul_of_nonneg_right (by norm_num) (by positivity)
      _ ≤ (2.7182^137)^5 := pow_le_pow_left₀ (by positivity) (by norm_num) _
      _ = 2.7182^685 := by rw [← pow_mul]
      _ ≤ (Real.exp 1)^685 := pow_le_pow_left₀ (by norm_num) (by have := Real.exp_one_gt_d9; norm_num at this ⊢; linarith) _
      _ = Real.exp 685 := by rw [← Real.exp_nat_mul]; norm_num
  have four_small : (4:ℝ) / 10^297 ≤ 1 := by
    rw [div_le_one (by positivity)]
    calc (4:ℝ) ≤ 10^1 := by norm_num
      _ ≤ _ := pow_le_pow_right₀ (by norm_num) (by norm_num)
  have ht : erfcR z.val ≤ 1 / 10^297 := by
    refine (erfcR_le hz0).trans (le_trans ?_ e685)
    have hk := kap_bounds.2
    have h1 : kap / (2 * z.val) ≤ 1 := by rw [div_le_one (by linarith)]; norm_num at hk h0; linarith
    calc _ ≤ 1 * Real.exp (-z.val^2) := mul_le_mul_of_nonneg_right h1 (Real.exp_pos _).le
      _ ≤ _ := by rw [one_mul]; exact Real.exp_le_exp.2 (by norm_num at hsq; linarith)
  have hle : F64.le 0.0 z = true := le_iff.2 ⟨nn_zero, hn, by rw [Verif.zero_val]; exact hz0.le⟩
  unfold erfccheb
  simp only [ar_le]
  rw [if_pos hle]
  obtain ⟨ft, t0, t1⟩ := cheb_t hn hz0.le
  refine ⟨_, rfl, ?_⟩
  generalize 2.0 / (2.0 + z) = t at *
  obtain ⟨⟨wf, w1, w2⟩, ⟨df, d1, d2⟩⟩ := cheb_bounds t0 t1
  generalize 0.5 * ((COF : List F64).headD 0.0 + (4.0 * t - 2.0) * (clenshaw (4.0 * t - 2.0) cofRev).1) = W at *
  generalize (clenshaw (4.0 * t - 2.0) cofRev).2 = D at *
  have q : (0.25 : F64).val = 1/4 := by
    have := val_of_sv (x := (0.25 : F64)) 1 4 (by norm_num) (by decide +kernel); rw [this]; norm_num
  have q' : (-0.25 : F64).val = -(1/4) := by rw [val_neg, q]
  rw [q] at w2 d2
  rw [q'] at d1
  have l686 : (686.0 : F64).val = 686 := by
    have := val_of_sv (x := (686.0 : F64)) 686 1 (by norm_num) (by decide +kernel); rw [this]; norm_num
  have l1 : (-685.5 : F64).val = -685.5 := by
    have := val_of_sv (x := (685.5 : F64)) 6855 10 (by norm_num) (by decide +kernel); rw [val_neg, this]; norm_num
  have l2 : (-685.0 : F64).val = -685 := by
    have := val_of_sv (x := (685.0 : F64)) 685 1 (by norm_num) (by decide +kernel); rw [val_neg, this]; norm_num
  have E : (-(z * z) + W - D).isNaN = false ∧ (-(z * z) + W - D).val ≤ -685 := by
    have S0 := Iv.mul_spec' hf hf
    have hz2 : 686 ≤ (z * z).val := by
      rw [S0.2, ← l686]
      exact le_RN_of_le (by decide +kernel) (by rw [l686]; norm_num at hsq; nlinarith)
    rcases fin_or_inf S0.1 with h | h
    · have S := add_spec (a := -(z*z)) (b := W) (by rw [isFin_neg]; exact h) wf
      have sle : (-(z*z) + W).val ≤ -685.5 := by
        rw [S.2, ← l1]
        exact RN_le_of_le (by decide +kernel) (by rw [l1, val_neg]; norm_num; linarith)
      rcases fin_or_inf S.1 with h' | h'
      · have S' := sub_spec h' df
        refine ⟨S'.1, ?_⟩
        rw [S'.2, ← l2]
        exact RN_le_of_le (by decide +kernel) (by rw [l2]; norm_num at sle; linarith)
      · rw [sub_eq, add_inf_left h' (val_of_neg (isFin_notNaN df)) (fun hc => by rw [isInf_neg, isFin_notInf df] at hc; cases hc)]
        exact ⟨S.1, by norm_num at sle; linarith⟩
    · have hi : (-(z*z)).isInf = true := by rw [isInf_neg]; exact h
      rw [add_inf_left hi (isFin_notNaN wf) (fun hc => by rw [isFin_notInf wf] at hc; cases hc), sub_eq,
        add_inf_left hi (val_of_neg (isFin_notNaN df)) (fun hc => by rw [isInf_neg, isFin_notInf df] at hc; cases hc)]
      exact ⟨by rw [isNaN_neg]; exact S0.1, by rw [val_neg]; linarith⟩
  have hX := L.exp_num _ E.1
  have hX0 := val_nonneg_of_neg hX.2
  have hX1 : (Libm.exp (-(z * z) + W - D)).val ≤ 4 / 10^297 := by
    rcases le_or_gt (-(z * z) + W - D).val (-750) with h | h
    · rw [L.exp_under _ E.1 h, Verif.zero_val]; positivity
    · have hf2 : (-(z * z) + W - D).isFin = true := abs_fin (b := 1000) (by linarith) (by linarith [E.2]) (by norm_num)
      have := (abs_le.1 (L.exp_ulp _ hf2 (by linarith [E.2]))).2
      have h3 : Real.exp (-(z * z) + W - D).val ≤ 1 / 10^297 := (Real.exp_le_exp.2 E.2).trans e685
      have h4 : (1:ℝ) / 2^1074 ≤ 1 / 10^297 := by
        apply one_div_le_one_div_of_le (by positivity)
        calc (10:ℝ)^297 = (10^3)^99 := by rw [← pow_mul]
          _ ≤ (2^10)^99 := pow_le_pow_left₀ (by norm_num) (by norm_num) _
          _ = 2^990 := by rw [← pow_mul]
          _ ≤ _ := pow_le_pow_right₀ (by norm_num) (by norm_num)
      have h5 : Real.exp (-(z * z) + W - D).val / 2^52 ≤ 1 / 10^297 := by
        refine le_trans (div_le_self (Real.exp_pos _).le (by norm_num)) h3
      have e4 : (4:ℝ) / 10^297 = 1 / 10^297 + 1 / 10^297 + 1 / 10^297 + 1 / 10^297 := by ring
      rw [e4]
      have : (0:ℝ) ≤ 1 / 10^297 := by positivity
      linarith
  generalize Libm.exp (_ : F64) = X at *
  have fX : X.isFin = true := abs_fin (b := 1) (by linarith) (hX1.trans four_small) (by norm_num)
  have P := Iv.mul_spec' ft fX
  have b1 : 0 ≤ (t * X).val := by rw [P.2]; exact RN_nonneg (mul_nonneg t0 hX0)
  have b2 : (t * X).val ≤ X.val := by
    rw [P.2]
    exact RN_le_of_le (isFin_notNaN fX) (by nlinarith)
  have e10 : (1:ℝ) / 10^296 = 10 / 10^297 := by rw [div_eq_div_iff (by positivity) (by positivity), one_mul, mul_comm, ← pow_succ]
  refine ⟨abs_fin (b := 1) (by linarith) ?_ (by norm_num), ?_⟩
  · exact (b2.trans hX1).trans four_small
  · rw [e10]
    have hp := erfcR_pos z.val
    have : (0:ℝ) < 1 / 10^297 := by positivity
    have e4 : (4:ℝ) / 10^297 = 4 * (1 / 10^297) := by ring
    have e10' : (10:ℝ) / 10^297 = 10 * (1 / 10^297) := by ring
    rw [e4] at hX1
    rw [e10', abs_le]
    constructor <;> linarith

/-- `erfccheb` is `erfc` on the right half axis -/
theorem erfccheb_acc (L : LibmUlp) {z : F64} (hf : z.isFin = true) (h0 : 0 ≤ z.val) :
    ∃ v, erfccheb z = .ok v ∧ v.isFin = true ∧ |v.val - erfcR z.val| ≤ 3 / 10^13 * erfcR z.val + 1 / 10^296 ∧ |v.val - erfcR z.val| ≤ 9 / 10^14 := by
  have hp := erfcR_pos z.val
  have h1 := erfcR_le_one h0
  have hs : (0:ℝ) ≤ 1 / 10^296 := by positivity
  have hs' : (1:ℝ) / 10^296 ≤ 1 / 10^20 := one_div_le_one_div_of_le (by positivity) (pow_le_pow_right₀ (by norm_num) (by norm_num))
  rcases le_or_gt z.val 4 with h4 | h4
  · obtain ⟨v, e, R⟩ := erfccheb_rel4 L hf h0 h4
    refine ⟨v, e, R.fin, R.err.trans ?_, R.err.trans ?_⟩
    · refine le_add_of_le_of_nonneg ?_ hs
      norm_num; linarith
    · norm_num; linarith
  · have hsm : erfcR z.val ≤ 1 / 7 := by
      refine (erfcR_le (by linarith)).trans ?_
      have hk := kap_bounds.2
      have a1 : kap / (2 * z.val) ≤ 1 / 7 := by rw [div_le_div_iff₀ (by linarith) (by norm_num)]; norm_num at hk; linarith
      have a2 : Real.exp (-z.val^2) ≤ 1 := by rw [Real.exp_le_one_iff]; nlinarith [sq_nonneg z.val]
      calc _ ≤ (1 / 7 : ℝ) * 1 := mul_le_mul a1 a2 (Real.exp_pos _).le (by norm_num)
        _ = _ := by norm_num
    rcases le_or_gt z.val 26.2 with h5 | h5
    · obtain ⟨v, e, R⟩ := erfccheb_rel26 L hf h0 h5
      refine ⟨v, e, R.fin, R.err.trans (le_add_of_nonneg_right hs), R.err.trans ?_⟩
      norm_num at hsm ⊢; linarith
    · obtain ⟨v, e, a, b⟩ := erfccheb_tail L hf h5
      refine ⟨v, e, a, b.trans (le_add_of_nonneg_left (by positivity)), b.trans (hs'.trans (by norm_num))⟩

omit [Libm F64] in
/-- a rounded difference of two numbers between 0 and 2 -/
theorem sub_acc {a b : F64} {A : ℝ} (ha : a.isFin = true) (hb : b.isFin = true) {δ : ℝ} (h : |a.val - b.val - A| ≤ δ) (h2 : |a.val - b.val| ≤ 4) :
    (a - b).isFin = true ∧ |(a - b).val - A| ≤ δ + 1 / 2^50 := by
  have S := sub_spec ha hb
  have hH := HUGE_ge
  have h10 : (1000:ℝ) < 10^200 := by norm_num
  have hr := RN_err' (x := a.val - b.val) (by linarith)
  have hw : (1:ℝ) / 2^1075 ≤ 1 / 2^60 := one_div_le_one_div_of_le (by positivity) (pow_le_pow_right₀ (by norm_num) (by norm_num))
  have hr2 : |RN (a.val - b.val) - (a.val - b.val)| ≤ 1 / 2^50 := by
    refine hr.trans ((add_le_add (div_le_div_of_nonneg_right h2 (by positivity)) hw).trans ?_)
    norm_num
  constructor
  · rw [isFin_iff_val, S.2]
    have k := abs_le.1 hr2
    have k2 := abs_le.1 h2
    rw [abs_lt]
    norm_num at k h10
    constructor <;> linarith [k.1, k.2]
  · rw [S.2]
    exact (abs_sub_le _ (a.val - b.val) _).trans (by linarith)

/-! ## C66 -/

/-- C66: for every finite `x ≥ 0` the result of `erfc(x)` is within `3·10^-13` (relative) of the true value, up to `10^-296`. -/
theorem erfc_accurate_right (L : LibmUlp) {x : F64} (hf : x.isFin = true) (h : 0 ≤ x.val) :
    ∃ v, Returns (erfc x) v ∧ v.isFin = true ∧ |v.val - erfcR x.val| ≤ 3 / 10^13 * erfcR x.val + 1 / 10^296 := by
  obtain ⟨v, e, a, b, -⟩ := erfccheb_acc L hf h
  have hle : F64.le 0.0 x = true := le_iff.2 ⟨nn_zero, isFin_notNaN hf, by rw [Verif.zero_val]; exact h⟩
  exact ⟨v, (if_pos hle).trans e, a, b⟩

/-- C66: for every finite `x` the result of `erfc(x)` is within `10^-13` of the true value. -/
theorem erfc_accurate (L : LibmUlp) {x : F64} (hf : x.isFin = true) :
    ∃ v, Returns (erfc x) v ∧ v.isFin = true ∧ |v.val - erfcR x.val| ≤ 1 / 10^13 := by
  rcases le_or_gt 0 x.val with h | h
  · obtain ⟨v, e, a, -, b⟩ := erfccheb_acc L hf h
    have hle : F64.le 0.0 x = true := le_iff.2 ⟨nn_zero, isFin_notNaN hf, by rw [Verif.zero_val]; exact h⟩
    exact ⟨v, (if_pos hle).trans e, a, b.trans (by norm_num)⟩
  · obtain ⟨v, e, a, -, b⟩ := erfccheb_acc L (z := -x) (by rw [isFin_neg]; exact hf) (by rw [val_neg]; linarith)
    have hle : F64.le 0.0 x = false := (le_false_iff nn_zero (isFin_notNaN hf)).2 (by rw [Verif.zero_val]; exact h)
    rw [val_neg] at b
    have h1 := erfcR_le_one (x := -x.val) (by linarith)
    have hp := erfcR_pos (-x.val)
    have k := abs_le.1 b
    have hn := erfcR_neg (-x.val)
    rw [neg_neg] at hn
    have := sub_acc (a := 2.0) (b := v) (A := erfcR x.val) (δ := 9 / 10^14) (by decide +kernel) a ?_ ?_
    · refine ⟨2.0 - v, ?_, this.1, this.2.trans (by norm_num)⟩
      refine (if_neg (ne_true_of_eq_false hle)).trans ?_
      rw [e]; rfl
    · rw [two_val, hn, show 2 - v.val - (2 - erfcR (-x.val)) = -(v.val - erfcR (-x.val)) by ring, abs_neg]; exact b
    · rw [two_val, abs_le]
      norm_num at k
      constructor <;> linarith [k.1, k.2]

/-! ## C67 -/

/-- C67: for every finite `x` the result of `erf(x)` is within `10^-13` of the true value. -/
theorem erf_accurate (L : LibmUlp) {x : F64} (hf : x.isFin = true) :
    ∃ v, Returns (erf x) v ∧ v.isFin = true ∧ |v.val - erfR x.val| ≤ 1 / 10^13 := by
  have e1 : ∀ y, erfR y = 1 - erfcR y := fun y => by unfold erfcR; ring
  rcases le_or_gt 0 x.val with h | h
  · obtain ⟨v, e, a, -, b⟩ := erfccheb_acc L hf h
    have hle : F64.le 0.0 x = true := le_iff.2 ⟨nn_zero, isFin_notNaN hf, by rw [Verif.zero_val]; exact h⟩
    have h1 := erfcR_le_one h
    have hp := erfcR_pos x.val
    have k := abs_le.1 b
    have := sub_acc (a := 1.0) (b := v) (A := erfR x.val) (δ := 9 / 10^14) (by decide +kernel) a ?_ ?_
    · refine ⟨1.0 - v, ?_, this.1, this.2.trans (by norm_num)⟩
      refine (if_pos hle).trans ?_
      rw [e]; rfl
    · rw [one_val, e1, show 1 - v.val - (1 - erfcR x.val) = -(v.val - erfcR x.val) by ring, abs_neg]; exact b
    · rw [one_val, abs_le]
      norm_num at k
      constructor <;> linarith [k.1, k.2]
  · obtain ⟨v, e, a, -, b⟩ := erfccheb_acc L (z := -x) (by rw [isFin_neg]; exact hf) (by rw [val_neg]; linarith)
    have hle : F64.le 0.0 x = false := (le_false_iff nn_zero (isFin_notNaN hf)).2 (by rw [Verif.zero_val]; exact h)
    rw [val_neg] at b
    have h1 := erfcR_le_one (x := -x.val) (by linarith)
    have hp := erfcR_pos (-x.val)
    have k := abs_le.1 b
    have hn := erfR_neg (-x.val)
    rw [neg_neg, e1 (-x.val)] at hn
    have := sub_acc (a := v) (b := 1.0) (A := erfR x.val) (δ := 9 / 10^14) a (by decide +kernel) ?_ ?_
    · refine ⟨v - 1.0, ?_, this.1, this.2.trans (by norm_num)⟩
      refine (if_neg (ne_true_of_eq_false hle)).trans ?_
      rw [e]; rfl
    · rw [one_val, hn, show v.val - 1 - -(1 - erfcR (-x.val)) = v.val - erfcR (-x.val) by ring]; exact b
    · rw [one_val, abs_le]
      norm_num at k
      constructor <;> linarith [k.1, k.2]

/-! ## The same in exact arithmetic: the approximation error alone -/

omit [Libm F64] in
/-- C66: evaluated in exact arithmetic, `erfc(x)` is within `6·10^-14` (relative) of the true value for every real `x ≥ 0` -/
theorem erfc_exact_accurate {x : ℝ} (h : 0 ≤ x) : ∃ v, Returns (erfc x) v ∧ |v - erfcR x| ≤ 6 / 10^14 * erfcR x :=
  ⟨_, erfc_real h, erfc_exact_acc h⟩

/-! ## The hypotheses are met -/

example : ∃ _ : Libm F64, LibmUlp := ⟨idealLibm, ideal_ulp⟩
example : (1.0 : F64).isFin = true ∧ 0 ≤ (1.0 : F64).val := ⟨by decide +kernel, by rw [one_val]; norm_num⟩
/-- the true function is not trivial -/
example : erfcR 0 = 1 ∧ StrictAnti erfcR := ⟨erfcR_zero, erfcR_anti⟩

end Verif
