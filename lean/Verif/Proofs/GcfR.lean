import Verif.SpecIncGamma
import Mathlib.MeasureTheory.Integral.IntegralEqImproper
import Mathlib.Analysis.SpecialFunctions.Pow.Asymptotics
import Mathlib.Analysis.SpecialFunctions.Gamma.Basic
import Mathlib.Tactic

/-! The remainder of the continued fraction of the upper incomplete gamma function. -/

namespace Verif
namespace Gcf
open Real Set MeasureTheory Filter Topology

/-- the integrand of the `i`-th remainder -/
noncomputable def wf (a x : ℝ) (i : ℕ) (t : ℝ) : ℝ := exp (-t) * (t - x) ^ i * t ^ (a - 1 - i)

noncomputable def W (a x : ℝ) (i : ℕ) : ℝ := ∫ t in Ioi x, wf a x i t

variable {a x : ℝ}

theorem wf_cont (hx : 0 < x) (i : ℕ) : ContinuousOn (wf a x i) (Ici x) := by
  unfold wf
  refine ContinuousOn.mul (by fun_prop) ?_
  refine ContinuousOn.rpow_const (by fun_prop) fun t ht => Or.inl ?_
  exact (lt_of_lt_of_le hx ht).ne'

theorem wf_pos (hx : 0 < x) (i : ℕ) {t : ℝ} (ht : x < t) : 0 < wf a x i t := by
  unfold wf
  have : 0 < t - x := by linarith
  have : 0 < t := by linarith
  positivity

theorem wf_succ (hx : 0 < x) (i : ℕ) {t : ℝ} (ht : x < t) : wf a x (i + 1) t = wf a x i t * ((t - x) / t) := by
  unfold wf
  have : 0 < t := by linarith
  have e : t ^ (a - 1 - ((i + 1 : ℕ) : ℝ)) = t ^ (a - 1 - i) / t := by
    rw [show a - 1 - ((i + 1 : ℕ) : ℝ) = (a - 1 - i) - 1 by push_cast; ring, rpow_sub_one this.ne']
  rw [e, pow_succ]
  field_simp

theorem wf_le (hx : 0 < x) (i : ℕ) {t : ℝ} (ht : x < t) : wf a x (i + 1) t ≤ wf a x i t := by
  rw [wf_succ hx i ht]
  have : (t - x) / t ≤ 1 := by rw [div_le_one (by linarith)]; linarith
  have := (wf_pos (a := a) hx i ht).le
  nlinarith

theorem wf_zero (t : ℝ) : wf a x 0 t = t ^ (a - 1) * exp (-t) := by
  unfold wf; simp [mul_comm]

theorem wf_int0 (ha : 0 < a) (hx : 0 < x) : IntegrableOn (wf a x 0) (Ioi x) := by
  have h := (Real.GammaIntegral_convergent ha).mono_set (Ioi_subset_Ioi hx.le)
  refine h.congr_fun (fun t _ => ?_) measurableSet_Ioi
  rw [wf_zero, mul_comm]

theorem wf_int (ha : 0 < a) (hx : 0 < x) (i : ℕ) : IntegrableOn (wf a x i) (Ioi x) := by
  induction i with
  | zero => exact wf_int0 ha hx
  | succ i ih =>
    refine Integrable.mono' ih ?_ ?_
    · exact ((wf_cont hx _).mono Ioi_subset_Ici_self).aestronglyMeasurable measurableSet_Ioi
    · refine (ae_restrict_iff' measurableSet_Ioi).2 (ae_of_all _ fun t ht => ?_)
      rw [norm_eq_abs, abs_of_pos (wf_pos hx _ ht)]
      exact wf_le hx i ht

theorem W_pos (ha : 0 < a) (hx : 0 < x) (i : ℕ) : 0 < W a x i := by
  unfold W
  rw [setIntegral_pos_iff_support_of_nonneg_ae]
  · have : Function.support (wf a x i) ∩ Ioi x = Ioi x := by
      refine inter_eq_right.2 fun t ht => ?_
      exact (wf_pos hx i ht).ne'
    rw [this]; simp
  · refine (ae_restrict_iff' measurableSet_Ioi).2 (ae_of_all _ fun t ht => ?_)
    exact (wf_pos hx i ht).le
  · exact wf_int ha hx i

theorem W_le (ha : 0 < a) (hx : 0 < x) (i : ℕ) : W a x (i + 1) ≤ W a x i :=
  setIntegral_mono_on (wf_int ha hx _) (wf_int ha hx _) measurableSet_Ioi fun _ ht => wf_le hx i ht

theorem W_zero : W a x 0 = upperGamma a x := by
  unfold W upperGamma
  refine setIntegral_congr_fun measurableSet_Ioi fun t _ => ?_
  exact wf_zero t

theorem wf_le0 (hx : 0 < x) (i : ℕ) {t : ℝ} (ht : x < t) : wf a x i t ≤ wf a x 0 t := by
  induction i with
  | zero => rfl
  | succ i ih => exact (wf_le hx i ht).trans ih

theorem wf_tendsto (hx : 0 < x) (i : ℕ) : Tendsto (wf a x i) atTop (𝓝 0) := by
  have h := tendsto_rpow_mul_exp_neg_mul_atTop_nhds_zero (a - 1) 1 one_pos
  refine squeeze_zero' ?_ ?_ h
  · filter_upwards [eventually_gt_atTop x] with t ht using (wf_pos hx i ht).le
  · filter_upwards [eventually_gt_atTop x] with t ht
    refine (wf_le0 hx i ht).trans ?_
    rw [wf_zero]; simp

theorem lin3 (ha : 0 < a) (hx : 0 < x) (i : ℕ) (p q r : ℝ) :
    ∫ t in Ioi x, (p * wf a x i t + q * wf a x (i + 1) t + r * wf a x (i + 2) t) = p * W a x i + q * W a x (i + 1) + r * W a x (i + 2) := by
  have I := wf_int ha hx
  have h1 : Integrable (fun t => p * wf a x i t) (volume.restrict (Ioi x)) := (I i).const_mul _
  have h2 : Integrable (fun t => q * wf a x (i + 1) t) (volume.restrict (Ioi x)) := (I (i + 1)).const_mul _
  have h3 : Integrable (fun t => r * wf a x (i + 2) t) (volume.restrict (Ioi x)) := (I (i + 2)).const_mul _
  have h12 : Integrable (fun t => p * wf a x i t + q * wf a x (i + 1) t) (volume.restrict (Ioi x)) := h1.add h2
  rw [integral_add h12 h3, integral_add h1 h2, integral_const_mul, integral_const_mul, integral_const_mul]
  rfl

/-- the three-term recurrence -/
theorem W_rec (ha : 0 < a) (hx : 0 < x) (i : ℕ) :
    (x + 1 - a + 2 * ((i + 1 : ℕ) : ℝ)) * W a x (i + 1) = (i + 1) * W a x i + (i + 2 - a) * W a x (i + 2) := by
  have hd : ∀ t ∈ Ioi x, HasDerivAt (fun t => x * wf a x (i + 1) t)
      (-x * wf a x (i + 1) t + (i + 1) * (wf a x i t - wf a x (i + 1) t) - (i + 2 - a) * (wf a x (i + 1) t - wf a x (i + 2) t)) t := by
    intro t ht
    have ht' : x < t := ht
    have t0 : 0 < t := by linarith
    have d1 : HasDerivAt (fun t : ℝ => exp (-t)) (-exp (-t)) t := by simpa using (hasDerivAt_neg t).exp
    have d2 : HasDerivAt (fun t : ℝ => (t - x) ^ (i + 1)) (((i + 1 : ℕ) : ℝ) * (t - x) ^ i) t := by
      have h := ((hasDerivAt_id t).sub_const x).fun_pow (i + 1)
      simpa using h
    have d3 : HasDerivAt (fun t : ℝ => t ^ (a - 1 - ((i + 1 : ℕ) : ℝ))) ((a - 1 - ((i + 1 : ℕ) : ℝ)) * t ^ (a - 1 - ((i + 1 : ℕ) : ℝ) - 1)) t :=
      Real.hasDerivAt_rpow_const (Or.inl t0.ne')
    have d := ((d1.mul d2).mul d3).const_mul x
    refine d.congr_deriv ?_
    have s1 := wf_succ (a := a) hx i ht'
    have s2 := wf_succ (a := a) hx (i + 1) ht'
    rw [s2, s1]
    have e : t ^ (a - 1 - ((i + 1 : ℕ) : ℝ)) = t ^ (a - 1 - i) / t := by
      rw [show a - 1 - ((i + 1 : ℕ) : ℝ) = (a - 1 - i) - 1 by push_cast; ring, rpow_sub_one t0.ne']
    rw [rpow_sub_one t0.ne', e]
    unfold wf
    have : t - x ≠ 0 := by linarith
    simp only [Pi.mul_apply]
    push_cast
    field_simp
    ring
  have I := wf_int ha hx
  have hint : IntegrableOn (fun t => -x * wf a x (i + 1) t + (i + 1) * (wf a x i t - wf a x (i + 1) t) -
      (i + 2 - a) * (wf a x (i + 1) t - wf a x (i + 2) t)) (Ioi x) :=
    (((I (i + 1)).const_mul _).add (((I i).sub (I (i + 1))).const_mul _)).sub (((I (i + 1)).sub (I (i + 2))).const_mul _)
  have hc : ContinuousWithinAt (fun t => x * wf a x (i + 1) t) (Ici x) x :=
    (continuousOn_const.mul (wf_cont hx _)) x self_mem_Ici
  have ht : Tendsto (fun t => x * wf a x (i + 1) t) atTop (𝓝 0) := by
    simpa using (wf_tendsto (a := a) hx (i + 1)).const_mul x
  have key := integral_Ioi_of_hasDerivAt_of_tendsto hc hd hint ht
  have e0 : wf a x (i + 1) x = 0 := by unfold wf; simp
  rw [e0, mul_zero, sub_zero] at key
  have L := lin3 ha hx i ((i:ℝ) + 1) (-x - (i + 1) - (i + 2 - a)) (i + 2 - a)
  have e : ∀ t, -x * wf a x (i + 1) t + (i + 1) * (wf a x i t - wf a x (i + 1) t) - (i + 2 - a) * (wf a x (i + 1) t - wf a x (i + 2) t) =
      ((i:ℝ) + 1) * wf a x i t + (-x - (i + 1) - (i + 2 - a)) * wf a x (i + 1) t + (i + 2 - a) * wf a x (i + 2) t := fun t => by ring
  simp only [e] at key
  rw [L] at key
  push_cast
  linarith

theorem W_rec0 (ha : 0 < a) (hx : 0 < x) : (x + 1 - a) * W a x 0 = x ^ a * exp (-x) + (1 - a) * W a x 1 := by
  have hd : ∀ t ∈ Ioi x, HasDerivAt (fun t => x * wf a x 0 t)
      (-x * wf a x 0 t - (1 - a) * (wf a x 0 t - wf a x 1 t)) t := by
    intro t ht
    have ht' : x < t := ht
    have t0 : 0 < t := by linarith
    have d1 : HasDerivAt (fun t : ℝ => exp (-t)) (-exp (-t)) t := by simpa using (hasDerivAt_neg t).exp
    have d3 : HasDerivAt (fun t : ℝ => t ^ (a - 1)) ((a - 1) * t ^ (a - 1 - 1)) t :=
      Real.hasDerivAt_rpow_const (Or.inl t0.ne')
    have d := ((d3.mul d1)).const_mul x
    have e : (fun t => x * wf a x 0 t) = fun t => x * ((fun t : ℝ => t ^ (a - 1)) * fun t : ℝ => exp (-t)) t := by
      funext t; rw [wf_zero]; rfl
    rw [e]
    refine d.congr_deriv ?_
    have s1 := wf_succ (a := a) hx 0 ht'
    rw [s1, wf_zero, rpow_sub_one t0.ne']
    field_simp
    ring
  have I := wf_int ha hx
  have hint : IntegrableOn (fun t => -x * wf a x 0 t - (1 - a) * (wf a x 0 t - wf a x 1 t)) (Ioi x) :=
    ((I 0).const_mul _).sub (((I 0).sub (I 1)).const_mul _)
  have hc : ContinuousWithinAt (fun t => x * wf a x 0 t) (Ici x) x :=
    (continuousOn_const.mul (wf_cont hx _)) x self_mem_Ici
  have ht : Tendsto (fun t => x * wf a x 0 t) atTop (𝓝 0) := by
    simpa using (wf_tendsto (a := a) hx 0).const_mul x
  have key := integral_Ioi_of_hasDerivAt_of_tendsto hc hd hint ht
  have L := lin3 ha hx 0 (-x - (1 - a)) (1 - a) 0
  have e : ∀ t, -x * wf a x 0 t - (1 - a) * (wf a x 0 t - wf a x 1 t) =
      (-x - (1 - a)) * wf a x 0 t + (1 - a) * wf a x (0 + 1) t + 0 * wf a x (0 + 2) t := fun t => by ring
  simp only [e] at key
  rw [L, wf_zero] at key
  have e : x ^ a = x * x ^ (a - 1) := by rw [rpow_sub_one hx.ne']; field_simp
  rw [e]
  linarith

theorem upper_add_lower (ha : 0 < a) (hx : 0 ≤ x) : lowerGamma a x + upperGamma a x = Gamma a := by
  unfold lowerGamma upperGamma
  rw [Gamma_eq_integral ha, intervalIntegral.integral_of_le hx]
  have h := Real.GammaIntegral_convergent ha
  have h' : IntegrableOn (fun t : ℝ => t ^ (a - 1) * exp (-t)) (Ioi 0) :=
    h.congr_fun (fun t _ => by rw [mul_comm]) measurableSet_Ioi
  rw [← setIntegral_union (Ioc_disjoint_Ioi le_rfl) measurableSet_Ioi (h'.mono_set Ioc_subset_Ioi_self)
    (h'.mono_set (Ioi_subset_Ioi hx)), Ioc_union_Ioi_eq_Ioi hx]
  exact setIntegral_congr_fun measurableSet_Ioi fun t _ => by rw [mul_comm]

end Gcf

theorem regP_add_regQ {a x : ℝ} (ha : 0 < a) (hx : 0 ≤ x) : regP a x + regQ a x = 1 := by
  unfold regP regQ
  rw [← add_div, Gcf.upper_add_lower ha hx, div_self (Real.Gamma_pos_of_pos ha).ne']

end Verif
