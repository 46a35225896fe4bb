import Verif.Proofs.BetaCfH

/-!
# `betai` in binary64: the front factor times the continued fraction
-/

namespace Verif
namespace Bcf
open F64

variable {a b x : F64} {X : ℝ}

theorem RN_tot {y : ℝ} (h : |y| ≤ 10^100) : |RN y - y| ≤ |y| / 2^53 + 1 / 2^1075 := by
  refine RN_err' (lt_of_le_of_lt h (lt_of_lt_of_le ?_ HUGE_ge))
  exact pow_lt_pow_right₀ (by norm_num) (by norm_num)

set_option maxHeartbeats 800000 in
/-- the two roundings of `bt * cf / a` -/
theorem tail_val {bt cf : F64} {F Gv e1 e2 A : ℝ} (fa : a.isFin = true) (hA : a.val = A) (A0 : 1 / 10^5 ≤ A) (A1 : A ≤ 1000)
    (fbt : bt.isFin = true) (fcf : cf.isFin = true) (F0 : 0 ≤ F) (F1 : F ≤ 1000) (G1 : 1 ≤ Gv) (G2 : Gv ≤ 1001)
    (e10 : 0 ≤ e1) (e11 : e1 ≤ 1 / 10^6) (e20 : 0 ≤ e2) (e21 : e2 ≤ 1 / 10^6)
    (hbt : |bt.val - F| ≤ e1 * F + 1 / 2^1074) (hcf : |cf.val - Gv| ≤ e2 * Gv) :
    (bt * cf / a).isFin = true ∧ |(bt * cf / a).val - F * Gv / A| ≤ ((e1 + e2) * (1 + 1 / 10^5) + 4 / 10^16) * (F * Gv / A) + 1 / 10^300 := by
  have Ap : 0 < A := lt_of_lt_of_le (by norm_num) A0
  obtain ⟨τ, hτ⟩ : ∃ τ, τ = (1:ℝ) / 2^1074 := ⟨_, rfl⟩
  have τ0 : 0 < τ := by rw [hτ]; positivity
  have τ1 : τ ≤ 1 / 10^320 := by
    rw [hτ]
    refine one_div_le_one_div_of_le (by positivity) ?_
    calc (10:ℝ)^320 = (10^3)^106 * 10^2 := by rw [← pow_mul, ← pow_add]
      _ ≤ (2^10)^106 * 2^7 := mul_le_mul (pow_le_pow_left₀ (by norm_num) (by norm_num) _) (by norm_num) (by positivity) (by positivity)
      _ = 2^1067 := by rw [← pow_mul, ← pow_add]
      _ ≤ 2^1074 := pow_le_pow_right₀ (by norm_num) (by norm_num)
  have τs : τ ≤ 1 / 10^20 := τ1.trans (one_div_le_one_div_of_le (by positivity) (pow_le_pow_right₀ (by norm_num) (by norm_num)))
  have τh : (1:ℝ) / 2^1075 ≤ τ := by rw [hτ]; exact one_div_le_one_div_of_le (by positivity) (pow_le_pow_right₀ (by norm_num) (by norm_num))
  rw [← hτ] at hbt
  obtain ⟨V, hV⟩ : ∃ V, V = F * Gv := ⟨_, rfl⟩
  have V0 : 0 ≤ V := by rw [hV]; exact mul_nonneg F0 (by linarith)
  have V1 : V ≤ 1001000 := by rw [hV]; nlinarith
  -- product
  have p1 : |bt.val * cf.val - V| ≤ ((e1 + e2) * (1 + 1 / 10^6)) * V + 1002 * τ := by
    rw [show bt.val * cf.val - V = (bt.val - F) * (cf.val - Gv) + (bt.val - F) * Gv + F * (cf.val - Gv) by rw [hV]; ring]
    have t1 := abs_add_le ((bt.val - F) * (cf.val - Gv) + (bt.val - F) * Gv) (F * (cf.val - Gv))
    have t2 := abs_add_le ((bt.val - F) * (cf.val - Gv)) ((bt.val - F) * Gv)
    have G0 : 0 ≤ Gv := by linarith
    have s1 : |(bt.val - F) * (cf.val - Gv)| ≤ (e1 * F + τ) * (e2 * Gv) := by rw [abs_mul]; exact mul_le_mul hbt hcf (abs_nonneg _) (by positivity)
    have s2 : |(bt.val - F) * Gv| ≤ (e1 * F + τ) * Gv := by rw [abs_mul, abs_of_nonneg G0]; exact mul_le_mul_of_nonneg_right hbt G0
    have s3 : |F * (cf.val - Gv)| ≤ F * (e2 * Gv) := by rw [abs_mul, abs_of_nonneg F0]; exact mul_le_mul_of_nonneg_left hcf F0
    have k1 : (e1 * F + τ) * (e2 * Gv) + (e1 * F + τ) * Gv + F * (e2 * Gv) = (e1 * e2 + e1 + e2) * V + τ * Gv * (1 + e2) := by rw [hV]; ring
    have k2 : e1 * e2 + e1 + e2 ≤ (e1 + e2) * (1 + 1 / 10^6) := by nlinarith
    have k3 : (e1 * e2 + e1 + e2) * V ≤ (e1 + e2) * (1 + 1 / 10^6) * V := mul_le_mul_of_nonneg_right k2 V0
    have k4 : Gv * (1 + e2) ≤ 1002 := by norm_num at e21; nlinarith
    have k5 : τ * (Gv * (1 + e2)) ≤ τ * 1002 := mul_le_mul_of_nonneg_left k4 τ0.le
    linarith
  obtain ⟨E1, hE1⟩ : ∃ E, E = (e1 + e2) * (1 + 1 / 10^6) := ⟨_, rfl⟩
  rw [← hE1] at p1
  have E10 : 0 ≤ E1 := by rw [hE1]; positivity
  have E11 : E1 ≤ 3 / 10^6 := by rw [hE1]; norm_num at e11 e21 ⊢; linarith
  have b1 : |bt.val * cf.val| ≤ (1 + E1) * V + 1002 * τ := by
    have := abs_add_le (bt.val * cf.val - V) V
    rw [sub_add_cancel, abs_of_nonneg V0] at this
    linarith
  have b1' : |bt.val * cf.val| ≤ 10^7 := by
    have : (1 + E1) * V ≤ 2 * 1001000 := mul_le_mul (by norm_num at E11; linarith) V1 V0 (by norm_num)
    refine b1.trans ?_
    norm_num at τs ⊢; linarith
  have m := (mul_spec fbt fcf).2.1
  have r1 := RN_tot (b1'.trans (by norm_num))
  rw [← m] at r1
  have p2 : |(bt * cf).val - V| ≤ (E1 * (1 + 1 / 10^6) + 1.2 / 10^16) * V + 1004 * τ := by
    have t := abs_add_le ((bt * cf).val - bt.val * cf.val) (bt.val * cf.val - V)
    rw [sub_add_sub_cancel] at t
    have q : |bt.val * cf.val| / 2^53 ≤ ((1 + E1) * V + 1002 * τ) / 2^53 := by gcongr
    have z : (1 + E1) / 2^53 + E1 ≤ E1 * (1 + 1 / 10^6) + 1.2 / 10^16 := by norm_num at E11 ⊢; linarith
    have z2 := mul_le_mul_of_nonneg_right z V0
    have z3 : 1002 * τ / 2^53 ≤ τ := by norm_num; linarith
    have z4 : ((1 + E1) * V + 1002 * τ) / 2^53 = (1 + E1) / 2^53 * V + 1002 * τ / 2^53 := by ring
    have z5 : ((1 + E1) / 2^53 + E1) * V = (1 + E1) / 2^53 * V + E1 * V := by ring
    generalize (1 + E1) / 2^53 = w at *
    generalize 1002 * τ / 2^53 = w2 at *
    generalize (1:ℝ) / 2^1075 = w3 at *
    generalize |bt.val * cf.val| / 2^53 = w4 at *
    linarith
  have b2 : |(bt * cf).val| ≤ 10^8 := by
    have := abs_add_le ((bt * cf).val - V) V
    rw [sub_add_cancel, abs_of_nonneg V0] at this
    have h2 : (E1 * (1 + 1 / 10^6) + 1.2 / 10^16) * V ≤ 1 * 1001000 := mul_le_mul (by norm_num at E11 ⊢; linarith) V1 V0 (by norm_num)
    norm_num at τs ⊢; linarith
  have fm : (bt * cf).isFin = true := isFin_of_abs b2 (by norm_num)
  obtain ⟨E2, hE2⟩ : ∃ E, E = E1 * (1 + 1 / 10^6) + 1.2 / 10^16 := ⟨_, rfl⟩
  rw [← hE2] at p2
  have E20 : 0 ≤ E2 := by rw [hE2]; positivity
  have E21 : E2 ≤ 4 / 10^6 := by rw [hE2]; norm_num at E11 ⊢; linarith
  -- quotient
  have d := (div_spec fm fa (by rw [hA]; exact Ap.ne')).2.1
  rw [hA] at d
  have iA : 1 / A ≤ 10^5 := by rw [div_le_iff₀ Ap]; norm_num at A0 ⊢; linarith
  have p3 : |(bt * cf).val / A - V / A| ≤ E2 * (V / A) + 1004 * τ * 10^5 := by
    rw [← sub_div, abs_div, abs_of_pos Ap]
    calc |(bt * cf).val - V| / A ≤ (E2 * V + 1004 * τ) / A := by gcongr
      _ = E2 * (V / A) + 1004 * τ * (1 / A) := by ring
      _ ≤ _ := by gcongr
  have W0 : 0 ≤ V / A := by positivity
  have W1 : V / A ≤ 10^12 := by
    rw [div_le_iff₀ Ap]; norm_num at A0 ⊢; linarith
  have b3 : |(bt * cf).val / A| ≤ (1 + E2) * (V / A) + 1004 * τ * 10^5 := by
    have := abs_add_le ((bt * cf).val / A - V / A) (V / A)
    rw [sub_add_cancel, abs_of_nonneg W0] at this
    linarith
  have b3' : |(bt * cf).val / A| ≤ 10^13 := by
    have : (1 + E2) * (V / A) ≤ 2 * 10^12 := mul_le_mul (by norm_num at E21; linarith) W1 W0 (by norm_num)
    refine b3.trans ?_
    norm_num at τs this ⊢; linarith
  have r2 := RN_tot (b3'.trans (by norm_num))
  rw [← d] at r2
  have fin : |(bt * cf / a).val - V / A| ≤ (E2 * (1 + 1 / 10^6) + 1.2 / 10^16) * (V / A) + 1000000000 * τ := by
    have t := abs_add_le ((bt * cf / a).val - (bt * cf).val / A) ((bt * cf).val / A - V / A)
    rw [sub_add_sub_cancel] at t
    have q : |(bt * cf).val / A| / 2^53 ≤ ((1 + E2) * (V / A) + 1004 * τ * 10^5) / 2^53 := by gcongr
    have z : (1 + E2) / 2^53 + E2 ≤ E2 * (1 + 1 / 10^6) + 1.2 / 10^16 := by norm_num at E21 ⊢; linarith
    have z2 := mul_le_mul_of_nonneg_right z W0
    have z3 : 1004 * τ * 10^5 / 2^53 ≤ τ := by norm_num; linarith
    have z4 : ((1 + E2) * (V / A) + 1004 * τ * 10^5) / 2^53 = (1 + E2) / 2^53 * (V / A) + 1004 * τ * 10^5 / 2^53 := by ring
    have z5 : ((1 + E2) / 2^53 + E2) * (V / A) = (1 + E2) / 2^53 * (V / A) + E2 * (V / A) := by ring
    generalize (1 + E2) / 2^53 = w at *
    generalize 1004 * τ * 10^5 / 2^53 = w2 at *
    generalize (1:ℝ) / 2^1075 = w3 at *
    generalize |(bt * cf).val / A| / 2^53 = w4 at *
    rw [show 1004 * τ * 10^5 = 100400000 * τ by ring] at p3
    linarith
  rw [← hV]
  have t9 : 1000000000 * τ ≤ 1 / 10^300 := by
    calc 1000000000 * τ ≤ 10^9 * (1 / 10^320) := by rw [show (1000000000:ℝ) = 10^9 by norm_num]; gcongr
      _ = 1 / 10^311 := by rw [show (10:ℝ)^320 = 10^9 * 10^311 by rw [← pow_add]]; rw [mul_one_div, div_mul_eq_div_div, div_self (by positivity)]
      _ ≤ _ := one_div_le_one_div_of_le (by positivity) (pow_le_pow_right₀ (by norm_num) (by norm_num))
  have ts : 1000000000 * τ ≤ 1 := by norm_num at τs ⊢; linarith
  refine ⟨isFin_of_abs (b := 10^14) ?_ (by norm_num), ?_⟩
  · have := abs_add_le ((bt * cf / a).val - V / A) (V / A)
    rw [sub_add_cancel, abs_of_nonneg W0] at this
    have h2 : (E2 * (1 + 1 / 10^6) + 1.2 / 10^16) * (V / A) ≤ 1 * 10^12 := mul_le_mul (by norm_num at E21 ⊢; linarith) W1 W0 (by norm_num)
    norm_num at W1 h2 ⊢; linarith
  · refine fin.trans (add_le_add (mul_le_mul_of_nonneg_right ?_ W0) t9)
    rw [hE2, hE1]
    have : 0 ≤ e1 + e2 := by linarith
    norm_num at e11 e21 ⊢
    nlinarith

/-- the front factor -/
theorem front_f64 [Libm F64] (L : LibmUlp) (ha : 1 / 10^5 ≤ a.val) (ha1 : a.val ≤ 1000) (hb : 1 / 10^5 ≤ b.val) (hb1 : b.val ≤ 1000)
    (h1 : 1 / 10^270 ≤ x.val) (h2 : x.val < 1) :
    (Libm.exp (lnGamma (a + b) - lnGamma a - lnGamma b + a * Libm.ln x + b * Libm.ln (1.0 - x))).isFin = true ∧
    |(Libm.exp (lnGamma (a + b) - lnGamma a - lnGamma b + a * Libm.ln x + b * Libm.ln (1.0 - x))).val - x.val^a.val * (1 - x.val)^b.val / eulerBeta a.val b.val|
      ≤ (1.00001 * (1.65 / 10^8 + 1 / 10^12 * (1 / a.val + 1 / b.val)) + 1 / 10^15) * (x.val^a.val * (1 - x.val)^b.val / eulerBeta a.val b.val) + 1 / 2^1074 := by
  have a0 : 0 < a.val := lt_of_lt_of_le (by norm_num) ha
  have b0 : 0 < b.val := lt_of_lt_of_le (by norm_num) hb
  have x0 : 0 < x.val := lt_of_lt_of_le (by positivity) h1
  have A := arg_ab L (a := a) (b := b) (x := x) (by norm_num at ha ⊢; linarith) ha1 (by norm_num at hb ⊢; linarith) hb1
    (le_trans (one_div_le_one_div_of_le (by positivity) (pow_le_pow_right₀ (by norm_num) (by norm_num))) h1) h2
  have fe := front_eq a0 b0 x0 h2
  have fl := front_le a0 b0 x0 h2
  rw [fe] at fl ⊢
  have ia : 1 / a.val ≤ 10^5 := by rw [div_le_iff₀ a0]; norm_num at ha ⊢; linarith
  have ib : 1 / b.val ≤ 10^5 := by rw [div_le_iff₀ b0]; norm_num at hb ⊢; linarith
  refine exp_ab L A (by norm_num at ia ib ⊢; linarith) ?_
  by_contra h
  have h := Real.exp_lt_exp.2 (lt_of_not_ge h)
  have e5 := Real.add_one_le_exp (50:ℝ)
  rw [show (100:ℝ) = 50 + 50 by norm_num, Real.exp_add] at h
  nlinarith

/-- the branch that evaluates the fraction at `X` -/
theorem dir_f64 {bt : F64} (H : Ctx a b x X) (fbt : bt.isFin = true)
    (hbt : |bt.val - X^a.val * (1 - X)^b.val / eulerBeta a.val b.val|
      ≤ (1.00001 * (1.65 / 10^8 + 1 / 10^12 * (1 / a.val + 1 / b.val)) + 1 / 10^15) * (X^a.val * (1 - X)^b.val / eulerBeta a.val b.val) + 1 / 2^1074) :
    (bt * betacf a b x / a).isFin = true ∧ |(bt * betacf a b x / a).val - regBeta a.val b.val X|
      ≤ (2.3 / 10^8 + 1.3 / 10^10 * (1 / (1 - X)) + 1.1 / 10^12 * (1 / a.val + 1 / b.val)) * regBeta a.val b.val X + 1 / 10^300 := by
  have a0 := H.ap
  have b0 := H.bp
  have X1 : X < 1 := lt_of_le_of_lt H.x1 (by norm_num)
  have w : 0 < 1 - X := by linarith
  obtain ⟨c1, c2⟩ := betacf_f64 H
  have ia : 1 / a.val ≤ 10^5 := by rw [div_le_iff₀ a0]; have := H.a0; norm_num at this ⊢; linarith
  have ib : 1 / b.val ≤ 10^5 := by rw [div_le_iff₀ b0]; have := H.b0; norm_num at this ⊢; linarith
  have ia0 : 0 < 1 / a.val := by positivity
  have ib0 : 0 < 1 / b.val := by positivity
  obtain ⟨iw, hiw⟩ : ∃ i, i = 1 / (1 - X) := ⟨_, rfl⟩
  have iw1 : 1 ≤ iw := by rw [hiw, le_div_iff₀ w]; linarith [H.Xpos]
  have iw2 : iw ≤ 1000 := by rw [hiw, div_le_iff₀ w]; linarith [H.x1]
  have G2 := G_le H.neg H.Xpos X1
  rw [← hiw] at G2
  rw [show (12:ℝ) / 10^11 / (1 - X) = 12 / 10^11 * iw by rw [hiw]; ring] at c2
  rw [regBeta_G a0 b0 H.Xpos X1, ← hiw]
  have f0 : 0 ≤ X^a.val * (1 - X)^b.val / eulerBeta a.val b.val := by
    have := eulerBeta_pos a0 b0
    have : 0 ≤ (1 - X)^b.val := Real.rpow_nonneg (by linarith) _
    have : 0 ≤ X^a.val := Real.rpow_nonneg H.Xpos.le _
    positivity
  have f1 := front_le a0 b0 H.Xpos X1
  have G1 := G_ge_one H.neg H.Xpos X1
  generalize X^a.val * (1 - X)^b.val / eulerBeta a.val b.val = F at *
  obtain ⟨t1, t2⟩ := tail_val H.fa rfl H.a0 H.a1 fbt c1 f0 (f1.trans H.a1) G1 (G2.trans (by linarith)) (by positivity)
    (by norm_num at ia ib ⊢; linarith) (by positivity) (by norm_num; linarith) hbt c2
  refine ⟨t1, t2.trans (add_le_add (mul_le_mul_of_nonneg_right ?_ (by positivity)) le_rfl)⟩
  clear t2 hbt c2
  generalize 1 / a.val = p at *
  generalize 1 / b.val = q at *
  norm_num
  linarith

end Bcf
end Verif
