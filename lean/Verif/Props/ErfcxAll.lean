import Verif.Props.Erfcx
import Verif.Proofs.ErfcxTailF

/-!
# C34: accuracy of `erfcx` on the whole axis (src/error.rs)
-/

namespace Verif
open F64 FlErr
variable [Libm F64]

omit [Libm F64] in
theorem erfR_neg (x : ℝ) : erfR (-x) = -erfR x := by
  unfold erfR
  have h := intervalIntegral.integral_comp_neg (f := fun t : ℝ => Real.exp (-t^2)) (a := 0) (b := x)
  have h3 := intervalIntegral.integral_symm (f := fun t : ℝ => Real.exp (-t^2)) (μ := MeasureTheory.volume) 0 (-x)
  simp only [neg_zero, neg_sq] at h
  rw [h, h3]; ring

omit [Libm F64] in
theorem erfcR_neg (x : ℝ) : erfcR (-x) = 2 - erfcR x := by
  unfold erfcR; rw [erfR_neg]; ring

omit [Libm F64] in
theorem erfcxR_neg (x : ℝ) : erfcxR (-x) = 2 * Real.exp (x^2) - erfcxR x := by
  unfold erfcxR; rw [erfcR_neg, neg_sq]; ring

omit [Libm F64] in
theorem erfcR_le_one {x : ℝ} (h : 0 ≤ x) : erfcR x ≤ 1 := by
  rw [← erfcR_zero]; exact erfcR_anti.antitone h

omit [Libm F64] in
theorem erfcxR_le_exp {x : ℝ} (h : 0 ≤ x) : erfcxR x ≤ Real.exp (x^2) := by
  unfold erfcxR
  have := erfcR_le_one h
  nlinarith [Real.exp_pos (x^2)]

/-- twice the exponential of the squared argument -/
theorem twice_exp_sq (L : LibmUlp) {x : F64} (h : |x.val| ≤ 26.6) {η : ℝ} (hη : x.val^2 / 2^53 ≤ η) (hη1 : 1 / 2^53 ≤ η) (hη2 : η ≤ 1 / 10^13) :
    Rel (2.0 * Libm.exp (x * x)) (2 * Real.exp (x.val^2)) (η + 2 / 2^51) := by
  have hab := abs_le.1 h
  obtain ⟨hf, f2, s, h0⟩ := sq_fin (h.trans (by norm_num))
  have hsq : x.val^2 ≤ 707.56 := by
    norm_num at hab ⊢
    nlinarith [hab.1, hab.2]
  have hsq0 : 0 ≤ x.val^2 := sq_nonneg _
  have hH := HUGE_ge
  have h10 : (1000:ℝ) < 10^200 := by norm_num
  have herr := RN_err' (x := x.val * x.val) (by rw [← sq, abs_of_nonneg hsq0]; norm_num at hsq; linarith)
  have hexp : |(x * x).val - x.val^2| ≤ η + 1 / 2^100 := by
    rw [s, sq]
    refine herr.trans ?_
    rw [← sq, abs_of_nonneg hsq0]
    refine add_le_add hη ?_
    exact one_div_le_one_div_of_le (by positivity) (pow_le_pow_right₀ (by norm_num) (by norm_num))
  have hE := rel_exp L f2 hexp (by norm_num at hη2 ⊢; linarith) (by linarith) (by norm_num at hsq; linarith)
  have e1 : (1:ℝ) ≤ Real.exp (x.val^2) := Real.one_le_exp hsq0
  have e2 : 2 * Real.exp (x.val^2) * (1 + 1 / 10^9) ≤ 2^1022 := by
    have l2 := Real.log_two_gt_d9
    have h1 : 2 * Real.exp (x.val^2) * (1 + 1 / 10^9) ≤ Real.exp (0.6931471808 + 707.56 + 1 / 10^9) := by
      rw [Real.exp_add, Real.exp_add]
      refine mul_le_mul (mul_le_mul ?_ (Real.exp_le_exp.2 hsq) (Real.exp_pos _).le (Real.exp_pos _).le) ?_ (by norm_num) (by positivity)
      · rw [← Real.log_le_iff_le_exp (by norm_num)]
        exact Real.log_two_lt_d9.le
      · linarith [Real.add_one_le_exp (1 / 10^9 : ℝ)]
    refine h1.trans ?_
    rw [← Real.log_le_log_iff (Real.exp_pos _) (by positivity), Real.log_exp, Real.log_pow]
    norm_num at l2 ⊢
    linarith
  have hs : η + 1 / 2^100 ≤ 2 / 10^13 := by norm_num at hη2 ⊢; linarith
  have hsm : (η + 1 / 2^100)^2 ≤ 1 / 10^24 := by
    have h0 : 0 ≤ η + 1 / 2^100 := by norm_num at hη1 ⊢; linarith
    calc (η + 1 / 2^100)^2 ≤ (2 / 10^13)^2 := pow_le_pow_left₀ h0 hs 2
      _ ≤ _ := by norm_num
  have hb := hE.bounds
  generalize hε : η + 1 / 2^100 + (η + 1 / 2^100)^2 + 1 / 2^51 = ε at *
  have hε1 : ε ≤ 1 / 10^9 := by rw [← hε]; norm_num at hs hsm ⊢; linarith
  have hE0 := Real.exp_pos (x.val^2)
  have hv0 : 1/2 ≤ (Libm.exp (x * x)).val := by
    refine le_trans ?_ hb.1
    have : (1/2:ℝ) ≤ 1 - ε := by norm_num at hε1; linarith
    nlinarith
  have hv1 : 2 * (Libm.exp (x * x)).val ≤ 2^1022 := by
    refine le_trans ?_ e2
    nlinarith [hb.2]
  have S := mul_spec (a := 2.0) (b := Libm.exp (x * x)) (by decide +kernel) hE.fin
  have R := rn_rel (x := 2 * (Libm.exp (x * x)).val) (by
    rw [abs_of_pos (by linarith)]
    have : (1:ℝ) / 2^1022 ≤ 1 := by rw [div_le_one (by positivity)]; exact one_le_pow₀ (by norm_num)
    linarith) (by rw [abs_of_pos (by linarith)]; exact hv1)
  have e3 : (2.0 * Libm.exp (x * x)).val = RN (2 * (Libm.exp (x * x)).val) := by rw [S.2.1, two_val]
  refine ⟨?_, by positivity, ?_⟩
  · rw [isFin_iff_val, e3]; exact R.2.2
  · rw [e3]
    refine (abs_sub_le _ (2 * (Libm.exp (x * x)).val) _).trans ((add_le_add R.2.1 (?_ : _ ≤ 2 * (ε * Real.exp (x.val^2)))).trans ?_)
    · rw [← mul_sub, abs_mul, abs_of_pos (by norm_num : (0:ℝ) < 2)]
      exact mul_le_mul_of_nonneg_left hE.err (by norm_num)
    · rw [abs_of_pos (by linarith)]
      have h5 : 2 * (Libm.exp (x * x)).val / 2^53 ≤ 2 * ((1 + 1 / 10^9) * Real.exp (x.val^2)) / 2^53 := by
        refine div_le_div_of_nonneg_right ?_ (by positivity)
        nlinarith [hb.2]
      refine (add_le_add h5 (le_refl _)).trans ?_
      have h6 : ε ≤ η + 1 / 2^100 + 1 / 10^24 + 1 / 2^51 := by rw [← hε]; linarith
      have h7 := mul_le_mul_of_nonneg_right h6 hE0.le
      norm_num at h7 ⊢
      linarith

/-- between −26.6 and −6.1 -/
theorem erfcx_acc_mid (L : LibmUlp) {x : F64} (hn : x.isNaN = false) (h1 : -26.6 ≤ x.val) (h2 : x.val < (-6.1 : F64).val) :
    ∃ v, Returns (erfcx x) v ∧ v.isFin = true ∧ |v.val - erfcxR x.val| ≤ erfcxR x.val / 10^13 := by
  have w1 := val_le_of_sv (x := (-26.7 : F64)) (-266) 10 (by norm_num) (by decide +kernel)
  have w2 := val_le_of_sv (x := (-6.1 : F64)) (-609) 100 (by norm_num) (by decide +kernel)
  push_cast at w1 w2
  have hx6 : x.val < -6.09 := lt_of_lt_of_le h2 (w2.trans (by norm_num))
  have hsq : x.val^2 ≤ 707.56 := by norm_num at h1 hx6 ⊢; nlinarith
  have hsq2 : 37 ≤ x.val^2 := by norm_num at h1 hx6 ⊢; nlinarith
  have R := twice_exp_sq L (x := x) (η := 786 / 10^16) (abs_le.2 ⟨h1, by norm_num at hx6 ⊢; linarith⟩) (by norm_num at hsq ⊢; linarith) (by norm_num) (by norm_num)
  refine ⟨_, erfcx_mid (w1.trans (le_trans (by norm_num) h1)) h2 hn, R.fin, ?_⟩
  have e := erfcxR_neg (-x.val)
  rw [neg_neg, neg_sq] at e
  have p1 := erfcxR_pos (-x.val)
  have p2 := erfcxR_le (x := -x.val) (by norm_num at hx6; linarith)
  have hk := kap_bounds
  have p3 : erfcxR (-x.val) ≤ 1 / 10 := by
    refine p2.trans ?_
    rw [div_le_div_iff₀ (by norm_num at hx6; linarith) (by norm_num)]
    norm_num at hk hx6 ⊢
    linarith [hk.2]
  have big : (9 * 10^15 : ℝ) ≤ Real.exp (x.val^2) := by
    calc (9 * 10^15 : ℝ) ≤ 2.7^37 := by norm_num
      _ ≤ (Real.exp 1)^37 := pow_le_pow_left₀ (by norm_num) (by have := Real.exp_one_gt_d9; norm_num at this ⊢; linarith) _
      _ = Real.exp 37 := by rw [← Real.exp_nat_mul]; norm_num
      _ ≤ _ := Real.exp_le_exp.2 hsq2
  have hR := R.err
  rw [e]
  generalize Real.exp (x.val^2) = E at *
  generalize (2.0 * Libm.exp (x * x)).val = v at *
  generalize erfcxR (-x.val) = c at *
  have k := abs_le.1 hR
  rw [abs_le]
  norm_num at k p3 big ⊢
  constructor <;> linarith [k.1, k.2]

/-- between −6.1 and −0.125 -/
theorem erfcx_acc_refl (L : LibmUlp) {x : F64} (hn : x.isNaN = false) (h1 : (-6.1 : F64).val ≤ x.val) (h2 : x.val ≤ -(1/8)) :
    ∃ v, Returns (erfcx x) v ∧ v.isFin = true ∧ |v.val - erfcxR x.val| ≤ erfcxR x.val / 10^13 := by
  have w2 := le_val_of_sv (x := (-6.1 : F64)) (-62) 10 (by norm_num) (by decide +kernel)
  push_cast at w2
  have hx6 : -6.2 ≤ x.val := le_trans (by norm_num) (w2.trans h1)
  have hsq : x.val^2 ≤ 38.44 := by norm_num at hx6 ⊢; nlinarith
  have R := twice_exp_sq L (x := x) (η := 1 / 10^14) (abs_le.2 ⟨by norm_num at hx6 ⊢; linarith, by norm_num; linarith⟩) (by norm_num at hsq ⊢; linarith) (by norm_num) (by norm_num)
  obtain ⟨v, ev, c, -⟩ := cheb_at (x := -x) (by rw [val_neg]; linarith) (by rw [val_neg]; norm_num at hx6; linarith)
  have hacc := c.acc
  have hv1 := c.le_one
  have hv0 := c.pos
  have hvf := c.fin
  rw [val_neg] at hacc
  refine ⟨2.0 * Libm.exp (x * x) - v, (erfcx_refl h1 h2 hn).trans (by rw [ev]; rfl), ?_⟩
  have e := erfcxR_neg (-x.val)
  rw [neg_neg, neg_sq] at e
  have p1 := erfcxR_pos (-x.val)
  have p2 : 2 * erfcxR (-x.val) ≤ 2 * Real.exp (x.val^2) := by
    have := erfcxR_le_exp (x := -x.val) (by linarith)
    rw [neg_sq] at this
    linarith
  have e1 : (1:ℝ) ≤ Real.exp (x.val^2) := Real.one_le_exp (sq_nonneg _)
  have e2 : Real.exp (x.val^2) ≤ 10^60 := by
    calc Real.exp (x.val^2) ≤ Real.exp 39 := Real.exp_le_exp.2 (by norm_num at hsq ⊢; linarith)
      _ = (Real.exp 1)^39 := by rw [← Real.exp_nat_mul]; norm_num
      _ ≤ 3^39 := pow_le_pow_left₀ (Real.exp_pos _).le (by have := Real.exp_one_lt_d9; norm_num at this ⊢; linarith) _
      _ ≤ _ := by norm_num
  have S := sub_spec R.fin hvf
  have hR := R.err
  generalize Real.exp (x.val^2) = E at *
  generalize hT : (2.0 * Libm.exp (x * x)) = T at *
  have hc1 : erfcxR (-x.val) ≤ 1 + 1 / 10^10 := by
    have := (abs_le.1 hacc).1
    norm_num at this ⊢
    linarith
  generalize erfcxR (-x.val) = q at *
  have k := abs_le.1 hR
  have k2 := abs_le.1 hacc
  have hpos : 1 / 2 ≤ T.val - v.val := by
    norm_num at k k2 ⊢; linarith [k.1]
  have hup : T.val - v.val ≤ 10^70 := by
    norm_num at k k2 e2 ⊢; linarith [k.2]
  have R2 := rn_rel (x := T.val - v.val) (by
    rw [abs_of_pos (by linarith)]
    have : (1:ℝ) / 2^1022 ≤ 1 / 2 := one_div_le_one_div_of_le (by norm_num) (by
      calc (2:ℝ) = 2^1 := by norm_num
        _ ≤ _ := pow_le_pow_right₀ (by norm_num) (by norm_num))
    linarith) (by
    rw [abs_of_pos (by linarith)]
    refine hup.trans ?_
    calc (10:ℝ)^70 ≤ 2^250 := by norm_num
      _ ≤ _ := pow_le_pow_right₀ (by norm_num) (by norm_num))
  constructor
  · rw [isFin_iff_val, S.2]; exact R2.2.2
  · rw [S.2, e]
    have hr := abs_le.1 R2.2.1
    rw [abs_of_pos (a := T.val - v.val) (by linarith)] at hr
    rw [abs_le]
    generalize RN (T.val - v.val) = w at *
    norm_num at k k2 hr ⊢
    constructor <;> linarith [k.1, k.2, k2.1, k2.2, hr.1, hr.2]

theorem erfcx_acc_big {x : F64} (hf : x.isFin = true) (h : 12 < x.val) :
    ∃ v, Returns (erfcx x) v ∧ v.isFin = true ∧ |v.val - erfcxR x.val| ≤ erfcxR x.val / 10^14 + 1 / 2^1075 := by
  have hn := isFin_notNaN hf
  refine ⟨_, erfcx_big h hn, ?_⟩
  have hw : (0:ℝ) ≤ 1 / 2^1075 := by positivity
  have fin : ∀ v : F64, Rel v (erfcxR x.val) (1 / (2 * 10^14)) → v.isFin = true ∧ |v.val - erfcxR x.val| ≤ erfcxR x.val / 10^14 + 1 / 2^1075 := by
    intro v R
    refine ⟨R.fin, R.err.trans ?_⟩
    have := erfcxR_pos x.val
    generalize (1:ℝ) / 2^1075 = w at *
    norm_num
    linarith
  have w69 := val_le_of_sv (x := (6.9e7 : F64)) 69000000 1 (by norm_num) (by decide +kernel)
  have w69' := le_val_of_sv (x := (6.9e7 : F64)) 69000000 1 (by norm_num) (by decide +kernel)
  have w150 := le_val_of_sv (x := (150.0 : F64)) 150 1 (by norm_num) (by decide +kernel)
  have w150' := val_le_of_sv (x := (150.0 : F64)) 150 1 (by norm_num) (by decide +kernel)
  have w23 := le_val_of_sv (x := (23.2 : F64)) 23 1 (by norm_num) (by decide +kernel)
  push_cast at w69 w69' w150 w150' w23
  have cap : ∀ {y : ℝ}, y ≤ 69000000 → y ≤ 2^100 := fun h => h.trans (by norm_num)
  rcases h3 : F64.lt x 150.0 with _ | _
  · rw [if_neg Bool.false_ne_true]
    have g3 := (lt_false_iff hn (by decide +kernel)).1 h3
    rcases h4 : F64.lt x 6.9e7 with _ | _
    · rw [if_neg Bool.false_ne_true]
      have g4 := (lt_false_iff hn val_69.2).1 h4
      exact inv_acc hf (by norm_num at w69' ⊢; linarith)
    · rw [if_pos rfl]
      have g4 := (lt_iff.1 h4).2.2
      exact fin _ (asy3_rel (by linarith) (cap (by linarith)))
  · rw [if_pos rfl]
    have g3 := (lt_iff.1 h3).2.2
    rcases h4 : F64.lt x 23.2 with _ | _
    · rw [if_neg Bool.false_ne_true]
      have g4 := (lt_false_iff hn (by decide +kernel)).1 h4
      exact fin _ (asy6_rel (by linarith) (cap (by linarith)))
    · rw [if_pos rfl]
      exact fin _ (asy10_rel h.le (cap (by linarith)))

/-- C34: for every finite `x > -0.125` the result is finite and within `10^-14` (relative) of `exp(x²)·erfc(x)`; the absolute term `2^-1075`, half
the smallest positive number, matters only when the result itself is subnormal. No assumption on the platform's `exp` is used. -/
theorem erfcx_accurate_right {x : F64} (hf : x.isFin = true) (h : -(1/8) < x.val) :
    ∃ v, Returns (erfcx x) v ∧ v.isFin = true ∧ |v.val - erfcxR x.val| ≤ erfcxR x.val / 10^14 + 1 / 2^1075 := by
  have hn := isFin_notNaN hf
  have hw : (0:ℝ) ≤ 1 / 2^1075 := by positivity
  rcases lt_or_ge |x.val| (1/8) with h1 | h1
  · have R := mac_acc h1.le
    refine ⟨_, erfcx_small (lt_iff.2 ⟨by rw [isNaN_abs]; exact hn, lit_0125.2.2, by rw [val_abs, val_0125]; exact h1⟩), R.fin, R.err.trans ?_⟩
    have := erfcxR_pos x.val
    generalize (1:ℝ) / 2^1075 = w at *
    norm_num
    linarith
  · have h2 : 1/8 ≤ x.val := by
      rcases le_abs.1 h1 with a | a
      · exact a
      · linarith
    rcases le_or_gt x.val 12 with h3 | h3
    · obtain ⟨v, a, b, c⟩ := erfcx_accurate hn h2 h3
      exact ⟨v, a, b, c.trans (by linarith)⟩
    · exact erfcx_acc_big hf h3

/-- C34: for every finite `x ≥ -26.6` the result is within `10^-13` (relative) of `exp(x²)·erfc(x)`, provided `exp` is correct to one unit in the last place. -/
theorem erfcx_accurate_all (L : LibmUlp) {x : F64} (hf : x.isFin = true) (h : -26.6 ≤ x.val) :
    ∃ v, Returns (erfcx x) v ∧ v.isFin = true ∧ |v.val - erfcxR x.val| ≤ erfcxR x.val / 10^13 + 1 / 2^1075 := by
  have hn := isFin_notNaN hf
  have hw : (0:ℝ) ≤ 1 / 2^1075 := by positivity
  rcases lt_or_ge x.val (-6.1 : F64).val with h1 | h1
  · obtain ⟨v, a, b, c⟩ := erfcx_acc_mid L hn h h1
    exact ⟨v, a, b, c.trans (by linarith)⟩
  rcases le_or_gt x.val (-(1/8)) with h2 | h2
  · obtain ⟨v, a, b, c⟩ := erfcx_acc_refl L hn h1 h2
    exact ⟨v, a, b, c.trans (by linarith)⟩
  · obtain ⟨v, a, b, c⟩ := erfcx_accurate_right hf h2
    refine ⟨v, a, b, c.trans ?_⟩
    have := erfcxR_pos x.val
    generalize (1:ℝ) / 2^1075 = w at *
    norm_num
    linarith

/-- C34: below −26.7 the result is `+∞`, and `exp(x²)·erfc(x)` exceeds `2^1024`, hence every finite number. -/
theorem erfcx_overflow {x : F64} (hn : x.isNaN = false) (h : x.val < (-26.7 : F64).val) : Returns (erfcx x) inf ∧ 2^1024 ≤ erfcxR x.val := by
  refine ⟨erfcx_over h hn, ?_⟩
  have w1 := val_le_of_sv (x := (-26.7 : F64)) (-266999) 10000 (by norm_num) (by decide +kernel)
  push_cast at w1
  have hx : x.val ≤ -26.6999 := h.le.trans (w1.trans (by norm_num))
  have hsq : 712 ≤ x.val^2 := by norm_num at hx ⊢; nlinarith
  have e := erfcxR_neg (-x.val)
  rw [neg_neg, neg_sq] at e
  have p := erfcxR_le_exp (x := -x.val) (by norm_num at hx; linarith)
  rw [neg_sq] at p
  have : (2:ℝ)^1024 ≤ Real.exp (x.val^2) := by
    have l2 := Real.log_two_lt_d9
    rw [← Real.log_le_log_iff (by positivity) (Real.exp_pos _), Real.log_exp, Real.log_pow]
    norm_num at l2 ⊢
    linarith
  rw [e]; linarith

/-! ## The hypotheses are met -/

example : ∃ _ : Libm F64, LibmUlp := ⟨idealLibm, ideal_ulp⟩
example : (1e300 : F64).isFin = true ∧ (-(1/8) : ℝ) < (1e300 : F64).val := by
  have a := le_val_of_sv (x := (1e300 : F64)) 1 1 (by norm_num) (by decide +kernel)
  push_cast at a
  exact ⟨by decide +kernel, by linarith⟩
example : (-20.0 : F64).isFin = true ∧ (-26.6 : ℝ) ≤ (-20.0 : F64).val := by
  have a := le_val_of_sv (x := (-20.0 : F64)) (-20) 1 (by norm_num) (by decide +kernel)
  push_cast at a
  exact ⟨by decide +kernel, le_trans (by norm_num) a⟩
example : (-1e10 : F64).isNaN = false ∧ (-1e10 : F64).val < (-26.7 : F64).val := ⟨by decide +kernel, key_lt.1 (by decide +kernel)⟩

end Verif
