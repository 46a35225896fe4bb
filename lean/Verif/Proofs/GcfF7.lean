import Verif.Proofs.GcfF6
import Verif.Proofs.IncReal

/-! The product of the scale factor and the series or fraction; how `Q(a,x)` depends on `x`. -/

namespace Verif
namespace Gcf
open F64

theorem exp_near {t ε j : ℝ} (h : |t| ≤ ε) (he : ε ≤ 4.06 / 10^9 + j) (j0 : 0 ≤ j) (j1 : j ≤ 1/2) : |Real.exp t - 1| ≤ 4.07 / 10^9 + 1.51 * j := by
  have hb : |t| ≤ 4.06 / 10^9 + j := h.trans he
  have h1 : |t| ≤ 1 := hb.trans (by norm_num at *; linarith)
  have h2 := Real.abs_exp_sub_one_sub_id_le h1
  have h3 : |Real.exp t - 1| ≤ |Real.exp t - 1 - t| + |t| := by
    have := abs_add_le (Real.exp t - 1 - t) t; rwa [sub_add_cancel] at this
  have h4 : t^2 ≤ (4.06 / 10^9 + j)^2 := by rw [← sq_abs]; exact pow_le_pow_left₀ (abs_nonneg _) hb 2
  have h5 : (4.06 / 10^9 + j)^2 ≤ 1/10^16 + 0.505 * j := by
    norm_num
    nlinarith
  norm_num at *
  linarith

theorem tau74 : (1:ℝ) / 2^1074 ≤ 1 / 10^60 := by
  refine one_div_le_one_div_of_le (by norm_num) ?_
  calc (10:ℝ)^60 ≤ 2^200 := by norm_num
    _ ≤ _ := pow_le_pow_right₀ (by norm_num) (by norm_num)

theorem scale_acc [Libm F64] (L : LibmUlp) {lr h : F64} {Lt G R j : ℝ} (lf : lr.isFin = true) (hl : |lr.val - Lt| ≤ 4.06 / 10^9 + j)
    (j0 : 0 ≤ j) (j1 : j ≤ 1/2) (hf : h.isFin = true) (hh : |h.val - G| ≤ 4.7 / 10^9 * G) (G1 : 1 / 10^6 ≤ G) (G2 : G ≤ 10^30)
    (hR : R = Real.exp Lt * G) (R1 : R ≤ 1) :
    F64.lt 700.0 lr = false ∧ (F64.lt lr (-700.0) = true → R ≤ 1 / 10^20) ∧
    (F64.lt lr (-700.0) = false → (Libm.exp lr * h).isFin = true ∧ (h * Libm.exp lr).isFin = true ∧
      |(Libm.exp lr * h).val - R| ≤ 9 / 10^9 + 1.6 * j ∧ |(h * Libm.exp lr).val - R| ≤ 9 / 10^9 + 1.6 * j) := by
  obtain ⟨l1, l2⟩ := abs_le.1 hl
  have G0 : 0 < G := lt_of_lt_of_le (by norm_num) G1
  have R0 : 0 < R := by rw [hR]; positivity
  have Lle : Lt ≤ 20 := by
    have h1 : Real.exp Lt ≤ 10^6 := by
      have : Real.exp Lt * (1 / 10^6) ≤ 1 := (mul_le_mul_of_nonneg_left G1 (Real.exp_pos _).le).trans (hR ▸ R1)
      rw [mul_one_div, div_le_one (by norm_num)] at this; exact this
    rw [← Real.le_log_iff_exp_le (by norm_num)] at h1
    refine h1.trans ?_
    rw [Real.log_le_iff_le_exp (by norm_num)]
    have h7 : Real.exp 20 = (Real.exp 1)^20 := by rw [← Real.exp_nat_mul]; norm_num
    rw [h7]
    exact le_trans (by norm_num) (pow_le_pow_left₀ (by norm_num) Real.exp_one_gt_d9.le 20)
  obtain ⟨f7, v7⟩ := lit700
  have fm7 : (-700.0 : F64).isFin = true := by decide +kernel
  have vm7 : (-700.0 : F64).val = -700 := by rw [val_neg, v7]
  have lr1 : lr.val ≤ 21 := by norm_num at *; linarith
  refine ⟨?_, ?_, ?_⟩
  · rw [lt_false_iff (isFin_notNaN f7) (isFin_notNaN lf), v7]; linarith
  · intro hlt
    have := (lt_iff.1 hlt).2.2
    rw [vm7] at this
    have : Lt ≤ -690 := by norm_num at *; linarith
    have h1 : Real.exp Lt ≤ Real.exp (-200) := Real.exp_le_exp.2 (by linarith)
    have h2 : Real.exp (-200) ≤ 1 / 10^60 := by
      rw [Real.exp_neg, one_div]
      refine inv_anti₀ (by norm_num) ?_
      have h7 : Real.exp 200 = (Real.exp 1)^200 := by rw [← Real.exp_nat_mul]; norm_num
      rw [h7]
      refine le_trans ?_ (pow_le_pow_left₀ (by norm_num) (show (2:ℝ) ≤ Real.exp 1 by linarith [Real.exp_one_gt_d9]) 200)
      norm_num
    rw [hR]
    refine (mul_le_mul (h1.trans h2) G2 G0.le (by norm_num)).trans ?_
    norm_num
  · intro _
    have hE := L.exp_ulp lr lf (by linarith)
    have eE : Real.exp lr.val = Real.exp Lt * Real.exp (lr.val - Lt) := by rw [← Real.exp_add]; congr 1; ring
    have hk := exp_near hl le_rfl j0 j1
    have p0 := Real.exp_pos Lt
    have q0 := Real.exp_pos (lr.val - Lt)
    have p1 : Real.exp Lt ≤ Real.exp 20 := Real.exp_le_exp.2 Lle
    have hE1 : |Real.exp lr.val - Real.exp Lt| ≤ (4.07 / 10^9 + 1.51 * j) * Real.exp Lt := by
      rw [eE, show Real.exp Lt * Real.exp (lr.val - Lt) - Real.exp Lt = (Real.exp (lr.val - Lt) - 1) * Real.exp Lt by ring, abs_mul, abs_of_pos p0]
      exact mul_le_mul_of_nonneg_right hk p0.le
    have tau := tau74
    have hE2 : |(Libm.exp lr).val - Real.exp Lt| ≤ (4.08 / 10^9 + 1.52 * j) * Real.exp Lt + 1 / 10^60 := by
      have := abs_add_le ((Libm.exp lr).val - Real.exp lr.val) (Real.exp lr.val - Real.exp Lt)
      rw [sub_add_sub_cancel] at this
      refine this.trans ((add_le_add hE hE1).trans ?_)
      have b1 : Real.exp lr.val ≤ 2 * Real.exp Lt := by
        have := (abs_le.1 hE1).2
        have : (4.07 / 10^9 + 1.51 * j) * Real.exp Lt ≤ 1 * Real.exp Lt := mul_le_mul_of_nonneg_right (by norm_num at *; linarith) p0.le
        linarith
      generalize (1:ℝ) / 2^1074 = t at *
      generalize Real.exp lr.val = w at *
      generalize Real.exp Lt = z at *
      have : 0 ≤ j * z := mul_nonneg j0 p0.le
      norm_num at tau b1 ⊢
      nlinarith
    have main : |(Libm.exp lr).val * h.val - R| ≤ 8.9 / 10^9 + 1.55 * j := by
      have e : (Libm.exp lr).val * h.val - R = ((Libm.exp lr).val - Real.exp Lt) * h.val + Real.exp Lt * (h.val - G) := by rw [hR]; ring
      have hh2 : |h.val| ≤ 1.0000001 * G := by
        obtain ⟨k1, k2⟩ := abs_le.1 hh
        rw [abs_le]; norm_num at *; constructor <;> linarith
      rw [e]
      refine (abs_add_le _ _).trans ?_
      rw [abs_mul, abs_mul, abs_of_pos p0]
      have m1 := mul_le_mul hE2 hh2 (abs_nonneg _) (by positivity)
      have m2 := mul_le_mul_of_nonneg_left hh p0.le
      refine (add_le_add m1 m2).trans ?_
      have e3 : ((4.08 / 10^9 + 1.52 * j) * Real.exp Lt + 1 / 10^60) * (1.0000001 * G) + Real.exp Lt * (4.7 / 10^9 * G) =
          R * ((4.08 / 10^9 + 1.52 * j) * 1.0000001 + 4.7 / 10^9) + 1.0000001 / 10^60 * G := by rw [hR]; ring
      rw [e3]
      have m3 : R * ((4.08 / 10^9 + 1.52 * j) * 1.0000001 + 4.7 / 10^9) ≤ 1 * ((4.08 / 10^9 + 1.52 * j) * 1.0000001 + 4.7 / 10^9) :=
        mul_le_mul_of_nonneg_right R1 (by positivity)
      refine (add_le_add_left m3 _).trans ?_
      norm_num at G2 ⊢
      linarith
    have mY : |(Libm.exp lr).val * h.val| ≤ 3 := by
      have := abs_add_le ((Libm.exp lr).val * h.val - R) R
      rw [sub_add_cancel, abs_of_pos R0] at this
      norm_num at *; linarith
    obtain ⟨r1, r2⟩ := rn_mod mY (by norm_num)
    have fE : (Libm.exp lr).isFin = true := by
      refine isFin_of_abs (b := 10^30) ?_ (pow_le_pow_right₀ (by norm_num) (by norm_num))
      have := abs_add_le ((Libm.exp lr).val - Real.exp Lt) (Real.exp Lt)
      rw [sub_add_cancel, abs_of_pos p0] at this
      have h20 : Real.exp Lt ≤ 10^9 := by
        refine p1.trans ?_
        have h7 : Real.exp 20 = (Real.exp 1)^20 := by rw [← Real.exp_nat_mul]; norm_num
        rw [h7]
        refine le_trans (pow_le_pow_left₀ (Real.exp_pos _).le (show Real.exp 1 ≤ 2.72 by linarith [Real.exp_one_lt_d9]) 20) (by norm_num)
      have hj : j * Real.exp Lt ≤ 1/2 * Real.exp Lt := mul_le_mul_of_nonneg_right j1 p0.le
      generalize Real.exp Lt = z at *
      norm_num at this hE2 h20 ⊢
      nlinarith
    have m1 := (mul_spec fE hf).2.1
    have m2 := (mul_spec hf fE).2.1
    rw [mul_comm h.val] at m2
    have fin : |RN ((Libm.exp lr).val * h.val) - R| ≤ 9 / 10^9 + 1.6 * j := by
      have := abs_add_le (RN ((Libm.exp lr).val * h.val) - (Libm.exp lr).val * h.val) ((Libm.exp lr).val * h.val - R)
      rw [sub_add_sub_cancel] at this
      refine this.trans ((add_le_add r2 main).trans ?_)
      norm_num
      linarith
    exact ⟨by rw [isFin_iff_val, m1]; exact r1, by rw [isFin_iff_val, m2]; exact r1, by rw [m1]; exact fin, by rw [m2]; exact fin⟩

/-! ## dependence on `x` -/

theorem lower_diff {a u v : ℝ} (ha : 0 < a) : lowerGamma a v - lowerGamma a u = ∫ t in u..v, t^(a-1) * Real.exp (-t) := by
  unfold lowerGamma
  rw [intervalIntegral.integral_interval_sub_left (lg_integrable ha) (lg_integrable ha)]

theorem dens_le {a t : ℝ} (ha : 0 < a) (ht : 9/10 ≤ t) : t^(a-1) * Real.exp (-t) ≤ 6 * Real.Gamma a := by
  have t0 : 0 < t := by linarith
  have h1 := lower_diff (u := t) (v := t + 1) ha
  have h2 := upper_add_lower ha (show 0 ≤ t + 1 by linarith)
  have h3 := lowerGamma_nonneg (a := a) t0.le
  have h4 : 0 ≤ upperGamma a (t + 1) := by rw [← W_zero]; exact (W_pos ha (by linarith) 0).le
  have h5 : 1/6 * (t^(a-1) * Real.exp (-t)) ≤ ∫ s in t..(t+1), s^(a-1) * Real.exp (-s) := by
    have e : 1/6 * (t^(a-1) * Real.exp (-t)) = ∫ s in t..(t+1), 1/6 * (t^(a-1) * Real.exp (-t)) := by
      rw [intervalIntegral.integral_const]; simp
    rw [e]
    refine intervalIntegral.integral_mono_on (by linarith) (by simp) ((lg_integrable ha).symm.trans (lg_integrable ha)) ?_
    intro s hs
    have s0 : 0 < s := by linarith [hs.1]
    have p1 : 9/19 * t^(a-1) ≤ s^(a-1) := by
      rw [Real.rpow_sub_one t0.ne', Real.rpow_sub_one s0.ne']
      have : t^a ≤ s^a := Real.rpow_le_rpow t0.le hs.1 ha.le
      have q := Real.rpow_pos_of_pos t0 a
      rw [← mul_div_assoc, div_le_div_iff₀ t0 s0]
      have : 9/19 * s ≤ t := by linarith [hs.2]
      nlinarith
    have p2 : Real.exp (-t) * (36/100) ≤ Real.exp (-s) := by
      have : Real.exp (-t) * Real.exp (-1) ≤ Real.exp (-s) := by rw [← Real.exp_add]; exact Real.exp_le_exp.2 (by linarith [hs.2])
      have := Real.exp_neg_one_gt_d9
      have := Real.exp_pos (-t)
      nlinarith
    have m := mul_le_mul p1 p2 (by positivity) (by positivity)
    have : 0 < t^(a-1) * Real.exp (-t) := by positivity
    nlinarith
  rw [← h1] at h5
  linarith

theorem regQ_near {a u v : ℝ} (ha : 0 < a) (hu : 9/10 ≤ u) (hv : 9/10 ≤ v) : |regQ a u - regQ a v| ≤ 6 * |u - v| := by
  have hg := Real.Gamma_pos_of_pos ha
  have e : regQ a u - regQ a v = (∫ t in u..v, t^(a-1) * Real.exp (-t)) / Real.Gamma a := by
    have h1 := upper_add_lower ha (show 0 ≤ u by linarith)
    have h2 := upper_add_lower ha (show 0 ≤ v by linarith)
    rw [← lower_diff ha]
    unfold regQ
    rw [← sub_div]; congr 1; linarith
  rw [e, abs_div, abs_of_pos hg, div_le_iff₀ hg]
  have := intervalIntegral.norm_integral_le_of_norm_le_const (a := u) (b := v) (C := 6 * Real.Gamma a) (f := fun t : ℝ => t^(a-1) * Real.exp (-t)) (by
    intro t ht
    have ht9 : 9/10 ≤ t := by
      rcases Set.mem_uIoc.1 ht with h | h <;> linarith [h.1]
    rw [Real.norm_of_nonneg (by have : 0 < t := by linarith
                                positivity)]
    exact dens_le ha ht9)
  rw [Real.norm_eq_abs, abs_sub_comm v u] at this
  linarith

theorem regQ_frac {a y : ℝ} (ha : 0 < a) (hy : 0 < y) : regQ a y = Real.exp (Lr a y) * F a y := by
  have hg := Real.Gamma_pos_of_pos ha
  have e : Real.exp (Lr a y) = y^a * Real.exp (-y) / Real.Gamma a := by
    unfold Lr
    rw [Real.exp_sub, Real.exp_log hg, Real.exp_add, Real.rpow_def_of_pos hy, mul_comm (Real.log y) a]; ring
  rw [e]
  unfold regQ F
  rw [W_zero]
  have := scale_pos (a := a) hy
  field_simp

theorem regQ_nonneg {a y : ℝ} (ha : 0 < a) (hy : 0 < y) : 0 ≤ regQ a y :=
  div_nonneg (by rw [← W_zero]; exact (W_pos ha hy 0).le) (Real.Gamma_pos_of_pos ha).le

theorem regP_nonneg {a y : ℝ} (ha : 0 < a) (hy : 0 ≤ y) : 0 ≤ regP a y :=
  div_nonneg (lowerGamma_nonneg hy) (Real.Gamma_pos_of_pos ha).le

theorem Lr_near {a x y : ℝ} (ha : 0 < a) (hy : a + 99/100 ≤ y) (h : |y - x| ≤ 1 / 10^12) : |Lr a x - Lr a y| ≤ 3 / 10^12 := by
  have y0 : 0 < y := by linarith
  obtain ⟨h1, h2⟩ := abs_le.1 h
  have hx : a ≤ x := by norm_num at *; linarith
  have x0 : 0 < x := by linarith
  have l : ∀ p q : ℝ, 0 < p → 0 < q → Real.log q - Real.log p ≤ |q - p| / p := by
    intro p q hp hq
    rw [← Real.log_div hq.ne' hp.ne']
    refine (Real.log_le_sub_one_of_pos (by positivity)).trans ?_
    rw [div_sub_one hp.ne']
    gcongr
    exact le_abs_self _
  have l1 := l x y x0 y0
  have l2 := l y x y0 x0
  have k1 : a * (Real.log y - Real.log x) ≤ |y - x| := by
    have := mul_le_mul_of_nonneg_left l1 ha.le
    refine this.trans ?_
    rw [mul_div_assoc', div_le_iff₀ x0, mul_comm]
    exact mul_le_mul_of_nonneg_left hx (abs_nonneg _)
  have k2 : a * (Real.log x - Real.log y) ≤ |y - x| := by
    have := mul_le_mul_of_nonneg_left l2 ha.le
    refine this.trans ?_
    rw [mul_div_assoc', div_le_iff₀ y0, mul_comm, abs_sub_comm x y]
    exact mul_le_mul_of_nonneg_left (by linarith) (abs_nonneg _)
  unfold Lr
  rw [abs_le]
  norm_num at *
  constructor <;> linarith

end Gcf
end Verif
