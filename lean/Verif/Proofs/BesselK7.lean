import Verif.Proofs.BesselK6
import Verif.Props.Series
import Mathlib.Analysis.Real.Pi.Bounds
import Mathlib.Analysis.Complex.ExponentialBounds

/-! `k0` and `k1` in exact arithmetic: the relative error for every `x > 0`. -/

namespace Verif
namespace Bes
open ZPoly Real Set Filter Topology

/-- `√(π/2)` -/
theorem sp2 : 1.25331413731550025 ≤ √(π / 2) ∧ √(π / 2) ≤ 1.25331413731550026 := by
  have h1 := Real.pi_gt_d20
  have h2 := Real.pi_lt_d20
  constructor
  · refine Real.le_sqrt_of_sq_le ?_
    norm_num at *; linarith
  · rw [Real.sqrt_le_left (by norm_num)]
    norm_num at *; linarith

/-- `√(π/2)/e` -/
noncomputable def qh : ℝ := √(π / 2) * exp (-1)

theorem qh_bounds : 0.461068504447894554 ≤ qh ∧ qh ≤ 0.461068504447894565 := by
  obtain ⟨h1, h2⟩ := sp2
  have he := Real.exp_one_near_20
  rw [abs_le] at he
  have e1 : (2.71828182845904523:ℝ) ≤ exp 1 := by norm_num at *; linarith
  have e2 : exp 1 ≤ 2.71828182845904524 := by norm_num at *; linarith
  rw [qh, Real.exp_neg, ← div_eq_mul_inv]
  constructor
  · rw [le_div_iff₀ (Real.exp_pos 1)]; norm_num at *; nlinarith
  · rw [div_le_iff₀ (Real.exp_pos 1)]; norm_num at *; nlinarith

theorem Kh_form {x : ℝ} (hx : 0 < x) : besselKR (1 / 2) x = √(π / 2) * (exp (-x) / √x) := by
  rw [K_half hx, ← div_div, Real.sqrt_div (by positivity)]; ring

theorem K0_form {x : ℝ} (hx : 0 < x) : besselKR 0 x = √(π / 2) * tf x * (exp (-x) / √x) := by
  have := K_pos hx (1 / 2)
  have e : besselKR 0 x = besselKR (1 / 2) x * tf x := by rw [tf]; field_simp
  rw [e, Kh_form hx]; ring

theorem K1_form {x : ℝ} (hx : 0 < x) : besselKR 1 x = √(π / 2) * tg x * (exp (-x) / √x) := by
  have := K_pos hx (1 / 2)
  have e : besselKR 1 x = besselKR (1 / 2) x * tg x := by rw [tg]; field_simp
  rw [e, Kh_form hx]; ring

theorem K0_one : besselKR 0 1 = qh * tf 1 := by rw [K0_form one_pos, qh, Real.sqrt_one]; ring
theorem K1_one : besselKR 1 1 = qh * tg 1 := by rw [K1_form one_pos, qh, Real.sqrt_one]; ring

set_option maxRecDepth 100000

theorem ri0_one : |ri kA kB 1 - 0.91314942178682054| ≤ 1e-17 := by
  have e1 : ev kA (1 / 1) = 10 ^ 13 * ev K0PPz 1 := by rw [kA, ev_smul]; norm_num
  have e2 : ev kB (1 / 1) = 1253314137315499 * ev K0QQz 1 := by rw [kB, ev_smul]; norm_num
  rw [ri, e1, e2]
  norm_num [K0PPz, K0QQz, ev, abs_le]

theorem ri1_one : |ri kC kD 1 - 1.3054616057932335| ≤ 1e-16 := by
  have e1 : ev kC (1 / 1) = 5 * 10 ^ 15 * ev K1PPz 1 := by rw [kC, ev_smul]; norm_num
  have e2 : ev kD (1 / 1) = 626657068657751 * ev K1QQz 1 := by rw [kD, ev_smul]; norm_num
  rw [ri, e1, e2]
  norm_num [K1PPz, K1QQz, ev, abs_le]

theorem k0L_one : |k0L 1 - 0.421024438240707733| ≤ 1e-18 := by
  have e1 : ev LB (1 ^ 2) = 10 * ev K0Qz 0 := by rw [LB, ev_smul, ev_cmp1]; norm_num
  rw [k0L, log_one, rz, e1, LA]
  norm_num [K0Pz, K0Qz, ev, abs_le]

theorem k1L_one : |k1L 1 - 0.60190723019723462| ≤ 1e-17 := by
  have e1 : ev CB (1 ^ 2) = 100 * ev K1Qz 0 := by rw [CB, ev_smul, ev_cmp1]; norm_num
  rw [k1L, log_one, rz, e1, CA]
  norm_num [K1Pz, K1Qz, ev, abs_le]

theorem at_one : |lE 1| ≤ 2.28e-13 ∧ |lW 1| ≤ 2.28e-13 ∧ 0.421 ≤ besselKR 0 1 ∧ 0.6019 ≤ besselKR 1 1 := by
  obtain ⟨a1, a2⟩ := right_scaled (le_refl (1:ℝ))
  obtain ⟨q1, q2⟩ := qh_bounds
  have b1 := ri0_one
  have b2 := ri1_one
  have c1 := k0L_one
  have c2 := k1L_one
  rw [lE, lW, one_mul, K0_one, K1_one]
  simp only [abs_le] at *
  obtain ⟨a3, a4⟩ := a1
  obtain ⟨a5, a6⟩ := a2
  obtain ⟨b3, b4⟩ := b1
  obtain ⟨b5, b6⟩ := b2
  have f1 : tf 1 ≤ 0.9131494217873106 := by norm_num at *; linarith
  have f2 : 0.9131494217863304 ≤ tf 1 := by norm_num at *; linarith
  have g1 : tg 1 ≤ 1.3054616057937236 := by norm_num at *; linarith
  have g2 : 1.3054616057927433 ≤ tg 1 := by norm_num at *; linarith
  have p1 : qh * tf 1 ≤ 0.461068504447894565 * 0.9131494217873106 := mul_le_mul q2 f1 (by linarith) (by norm_num)
  have p2 : 0.461068504447894554 * 0.9131494217863304 ≤ qh * tf 1 := mul_le_mul q1 f2 (by norm_num) (by linarith)
  have p3 : qh * tg 1 ≤ 0.461068504447894565 * 1.3054616057937236 := mul_le_mul q2 g1 (by linarith) (by norm_num)
  have p4 : 0.461068504447894554 * 1.3054616057927433 ≤ qh * tg 1 := mul_le_mul q1 g2 (by norm_num) (by linarith)
  norm_num at p1 p2 p3 p4
  refine ⟨⟨?_, ?_⟩, ⟨?_, ?_⟩, ?_, ?_⟩ <;> norm_num at * <;> linarith

/-- lower bounds below 1 -/
theorem xK1_ge {x : ℝ} (hx : 0 < x) (hx1 : x ≤ 1) : 0.6019 ≤ x * besselKR 1 x := by
  have h := mono_Icc (f := fun t => -(t * besselKR 1 t)) (f' := fun t => t * besselKR 0 t) (a := x) (b := 1) (fun t ht => by
    have ht0 : 0 < t := by linarith [ht.1]
    refine ((hasDerivAt_id t).mul (K1_deriv ht0)).neg.congr_deriv ?_
    simp only [id]; field_simp; ring) (fun t ht => by
      have ht0 : 0 < t := by linarith [ht.1]
      exact mul_nonneg ht0.le (K_pos ht0 0).le) le_rfl hx1 le_rfl
  simp only [one_mul] at h
  linarith [at_one.2.2.2]

theorem K0_ge {x : ℝ} (hx : 0 < x) (hx1 : x ≤ 1) : 0.421 + 0.6019 * (-log x) ≤ besselKR 0 x := by
  have h := mono_Icc (f := fun t => -(besselKR 0 t + 0.6019 * log t)) (f' := fun t => besselKR 1 t - 0.6019 / t) (a := x) (b := 1) (fun t ht => by
    have ht0 : 0 < t := by linarith [ht.1]
    refine ((K0_deriv ht0).add ((hasDerivAt_log ht0.ne').const_mul 0.6019)).neg.congr_deriv ?_
    rw [div_eq_mul_inv]; ring) (fun t ht => by
      have ht0 : 0 < t := by linarith [ht.1]
      rw [sub_nonneg, div_le_iff₀ ht0, mul_comm]
      exact xK1_ge ht0 ht.2) le_rfl hx1 le_rfl
  simp only [log_one, mul_zero, add_zero] at h
  linarith [at_one.2.2.1]

theorem left_acc {x : ℝ} (hx : 0 < x) (hx1 : x ≤ 1) : |k0L x - besselKR 0 x| ≤ 9e-13 * besselKR 0 x ∧
    |k1L x / x - besselKR 1 x| ≤ 9e-13 * besselKR 1 x := by
  obtain ⟨i1, i2, -⟩ := at_one
  obtain ⟨b, hb0, hb, hW, hE⟩ := stage_left (by norm_num) (by norm_num) (by norm_num) (by norm_num) lE_deriv lW_deriv lr0_le lr1_le i1 i2 hx hx1
  have hb' : b ≤ 5.34e-13 := by norm_num at *; linarith
  have hl0 : 0 ≤ -log x := by linarith [log_nonpos hx.le hx1]
  have k0 := K0_ge hx hx1
  have k1 := xK1_ge hx hx1
  constructor
  · refine le_trans hE ?_
    have : (b + 3.8e-17) * (-log x) ≤ 5.35e-13 * (-log x) := mul_le_mul_of_nonneg_right (by norm_num at *; linarith) hl0
    norm_num at *; linarith
  · have e : k1L x / x - besselKR 1 x = lW x / x := by rw [lW]; field_simp
    rw [e, abs_div, abs_of_pos hx, div_le_iff₀ hx]
    norm_num at *; linarith

theorem cert_f : resOn 0 16 8 1 8 0 1 10 (sh (sub kB kA)) kB = true := by decide +kernel

theorem right_acc {x : ℝ} (hx : 1 ≤ x) :
    |1.253314137315499 * ri kA kB x * (exp (-x) / √x) - besselKR 0 x| ≤ 5.6e-13 * besselKR 0 x ∧
    |1.253314137315502 * ri kC kD x * (exp (-x) / √x) - besselKR 1 x| ≤ 5.6e-13 * besselKR 1 x := by
  have hx0 : 0 < x := by linarith
  have hy : 0 ≤ 1 / x := by positivity
  have hy1 : 1 / x ≤ 1 := by rw [div_le_one hx0]; exact hx
  obtain ⟨a1, a2⟩ := right_scaled hx
  obtain ⟨t1, t2, t3, t4⟩ := tfg_bounds hx0
  obtain ⟨s1, s2⟩ := sp2
  have pB := kB_pos hy
  have hf : 0.9 ≤ ri kA kB x := by
    have h := resOn_sound (by norm_num) (by norm_num) (by norm_num) (by norm_num) cert_f (y := 1 / x) hy (by push_cast; positivity)
      (by push_cast; linarith) pB.le
    rw [ev_sh, ev_sub, abs_mul, abs_of_nonneg hy] at h
    have hy0 : 0 < 1 / x := by positivity
    have h2 : |ev kB (1 / x) - ev kA (1 / x)| ≤ 1 / 10 * ev kB (1 / x) := by
      refine le_of_mul_le_mul_left ?_ hy0
      push_cast at h
      linarith
    rw [abs_le] at h2
    rw [ri, le_div_iff₀ pB]
    norm_num at *; linarith
  have hf1 : ri kA kB x ≤ 1 := by
    rw [ri, div_le_one pB]; exact kA_le hy
  have hg : ri kC kD x ≤ 2 := by
    have : 1 / (2 * x) ≤ 1 / 2 := by rw [div_le_div_iff₀ (by positivity) (by norm_num)]; linarith
    rw [abs_le] at a2
    norm_num at *; linarith
  have hg0 : 0 < ri kC kD x := div_pos (kC_pos hy) (kD_pos hy)
  have hG : 0 < exp (-x) / √x := by positivity
  rw [K0_form hx0, K1_form hx0]
  generalize exp (-x) / √x = G at hG ⊢
  have main : ∀ κ F T : ℝ, |κ - √(π / 2)| ≤ 2e-15 → 0 < F → F ≤ 2 → |F - T| ≤ 4.9e-13 → 0.899 ≤ T → |κ * F * G - √(π / 2) * T * G| ≤ 5.6e-13 * (√(π / 2) * T * G) := by
    intro κ F T h1 h2 h3 h4 h5
    have e : κ * F * G - √(π / 2) * T * G = ((κ - √(π / 2)) * F + √(π / 2) * (F - T)) * G := by ring
    have u1 : |(κ - √(π / 2)) * F + √(π / 2) * (F - T)| ≤ 2e-15 * 2 + 1.25331413731550026 * 4.9e-13 := by
      refine (abs_add_le _ _).trans (add_le_add ?_ ?_)
      · rw [abs_mul, abs_of_pos h2]; exact mul_le_mul h1 h3 h2.le (by norm_num)
      · rw [abs_mul, abs_of_nonneg (Real.sqrt_nonneg _)]; exact mul_le_mul s2 h4 (abs_nonneg _) (by norm_num)
    have u2 : 1.25331413731550025 * 0.899 ≤ √(π / 2) * T := mul_le_mul s1 h5 (by norm_num) (by linarith)
    rw [e, abs_mul, abs_of_pos hG, ← mul_assoc]
    refine mul_le_mul_of_nonneg_right ?_ hG.le
    norm_num at *; linarith
  have hf0 : 0.899 ≤ tf x := by rw [abs_le] at a1; norm_num at *; linarith
  refine ⟨main _ _ _ ?_ (by linarith) (by linarith) a1 hf0, main _ _ _ ?_ hg0 hg a2 (by linarith)⟩
  · rw [abs_le]; constructor <;> norm_num at * <;> linarith
  · rw [abs_le]; constructor <;> norm_num at * <;> linarith

/-- line 1020: the formulas of `k0` -/
theorem k0_eq_left {x : ℝ} (hx : x ≤ 1) : k0 x = k0L x := by
  have h : (x ≤ᶠ (1.0:ℝ)) = true := by
    show decide (x ≤ (1.0:ℝ)) = true
    rw [decide_eq_true_eq]; norm_num; exact hx
  unfold k0
  simp only [h, if_true, poly_exact]
  rw [K0Pz_eq, K0Qz_eq, K0PIz_eq, K0QIz_eq, k0L, rz, rz, LA, LB, MA, MB, ev_smul, ev_smul, ev_cmp1, ev_cmp1, ← sq]
  have e1 : (1.0:ℝ) = 1 := by norm_num
  rw [e1]
  have e2 : (Libm.ln x : ℝ) = log x := rfl
  rw [e2]
  push_cast
  ring

theorem k1_eq_left {x : ℝ} (hx0 : 0 < x) (hx : x ≤ 1) : k1 x = k1L x / x := by
  have h : (x ≤ᶠ (1.0:ℝ)) = true := by
    show decide (x ≤ (1.0:ℝ)) = true
    rw [decide_eq_true_eq]; norm_num; exact hx
  unfold k1
  simp only [h, if_true, poly_exact]
  rw [K1Pz_eq, K1Qz_eq, K1PIz_eq, K1QIz_eq, k1L, rz, rz, CA, CB, DA, DB, ev_smul, ev_smul, ev_cmp1, ev_cmp1, ← sq]
  have e1 : (1.0:ℝ) = 1 := by norm_num
  rw [e1]
  push_cast
  have e2 : (Libm.ln x : ℝ) = log x := rfl
  rw [e2]
  field_simp
  ring

theorem k0_eq_right {x : ℝ} (hx : 1 < x) : k0 x = 1.253314137315499 * ri kA kB x * (exp (-x) / √x) := by
  have h : (x ≤ᶠ (1.0:ℝ)) = false := by
    show decide (x ≤ (1.0:ℝ)) = false
    rw [decide_eq_false_iff_not]; norm_num; exact hx
  have hy : 0 ≤ 1 / x := by positivity
  have hB := kB_pos hy
  unfold k0
  simp only [h, poly_exact]
  have e1 : (1.0:ℝ) = 1 := by norm_num
  rw [kB, ev_smul] at hB
  rw [K0PPz_eq, K0QQz_eq, e1, ri, kA, kB, ev_smul, ev_smul]
  have e2 : (Libm.exp (-x) : ℝ) = exp (-x) := rfl
  have e3 : (Arith.sqrt x : ℝ) = √x := rfl
  rw [e2, e3]
  have : 0 < √x := by positivity
  push_cast at *
  have hB' : ev K0QQz (1 / x) ≠ 0 := by intro h; rw [h] at hB; simp at hB
  field_simp
  norm_num
  ring

theorem k1_eq_right {x : ℝ} (hx : 1 < x) : k1 x = 1.253314137315502 * ri kC kD x * (exp (-x) / √x) := by
  have h : (x ≤ᶠ (1.0:ℝ)) = false := by
    show decide (x ≤ (1.0:ℝ)) = false
    rw [decide_eq_false_iff_not]; norm_num; exact hx
  have hy : 0 ≤ 1 / x := by positivity
  have hB := kD_pos hy
  unfold k1
  simp only [h, poly_exact]
  have e1 : (1.0:ℝ) = 1 := by norm_num
  rw [kD, ev_smul] at hB
  rw [K1PPz_eq, K1QQz_eq, e1, ri, kC, kD, ev_smul, ev_smul]
  have e2 : (Libm.exp (-x) : ℝ) = exp (-x) := rfl
  have e3 : (Arith.sqrt x : ℝ) = √x := rfl
  rw [e2, e3]
  have : 0 < √x := by positivity
  push_cast at *
  have hB' : ev K1QQz (1 / x) ≠ 0 := by intro h; rw [h] at hB; simp at hB
  field_simp
  norm_num
  ring

theorem k0_exact {x : ℝ} (hx : 0 < x) : |k0 x - besselKR 0 x| ≤ 9e-13 * besselKR 0 x := by
  rcases le_or_gt x 1 with h | h
  · rw [k0_eq_left h]; exact (left_acc hx h).1
  · rw [k0_eq_right h]
    refine (right_acc h.le).1.trans (mul_le_mul_of_nonneg_right (by norm_num) (K_pos hx 0).le)

theorem k1_exact {x : ℝ} (hx : 0 < x) : |k1 x - besselKR 1 x| ≤ 9e-13 * besselKR 1 x := by
  rcases le_or_gt x 1 with h | h
  · rw [k1_eq_left hx h]; exact (left_acc hx h).2
  · rw [k1_eq_right h]
    refine (right_acc h.le).2.trans (mul_le_mul_of_nonneg_right (by norm_num) (K_pos hx 1).le)

end Bes
end Verif
