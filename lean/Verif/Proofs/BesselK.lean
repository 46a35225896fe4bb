import Verif.SpecBesselK
import Mathlib.MeasureTheory.Integral.ExpDecay
import Mathlib.MeasureTheory.Integral.IntegralEqImproper
import Mathlib.Analysis.Calculus.ParametricIntegral
import Mathlib.Analysis.SpecialFunctions.Gaussian.GaussianIntegral
import Mathlib.Tactic

/-! Facts about `K_ν`: recurrence, derivative, `K_{1/2}` in closed form, behaviour at infinity. -/

namespace Verif
namespace Bes
open Real Set MeasureTheory Filter Topology

/-- the integrand -/
noncomputable def kf (ν x t : ℝ) : ℝ := exp (-x * cosh t) * cosh (ν * t)

theorem kf_cont (ν x : ℝ) : Continuous (kf ν x) := by unfold kf; fun_prop
theorem kf_pos (ν x t : ℝ) : 0 < kf ν x t := mul_pos (exp_pos _) (cosh_pos _)

theorem cosh_ge_sq (t : ℝ) (ht : 0 ≤ t) : 1 + t ^ 2 / 2 ≤ cosh t := by
  have h := self_le_sinh_iff.2 (by positivity : 0 ≤ t / 2)
  have h2 := cosh_two_mul (t / 2)
  rw [cosh_sq, show 2 * (t / 2) = t by ring] at h2
  nlinarith

theorem cosh_le_exp_abs (s : ℝ) : cosh s ≤ exp |s| := by
  rw [cosh_eq]
  have h1 : exp s ≤ exp |s| := exp_le_exp.2 (le_abs_self s)
  have h2 : exp (-s) ≤ exp |s| := exp_le_exp.2 (neg_le_abs s)
  linarith

theorem kf_le {x : ℝ} (hx : 0 < x) (ν : ℝ) {t : ℝ} (ht : 0 ≤ t) : kf ν x t ≤ exp ((|ν| + 1) ^ 2 / (2 * x)) * exp (-1 * t) := by
  unfold kf
  have h1 := cosh_le_exp_abs (ν * t)
  rw [abs_mul, abs_of_nonneg ht] at h1
  calc exp (-x * cosh t) * cosh (ν * t) ≤ exp (-x * cosh t) * exp (|ν| * t) := by gcongr
    _ = exp (-x * cosh t + |ν| * t) := by rw [exp_add]
    _ ≤ exp ((|ν| + 1) ^ 2 / (2 * x) + -1 * t) := by
      apply exp_le_exp.2
      have h2 := cosh_ge_sq t ht
      have h3 : x * (1 + t ^ 2 / 2) ≤ x * cosh t := by gcongr
      have h4 : (|ν| + 1) * t ≤ (|ν| + 1) ^ 2 / (2 * x) + x * t ^ 2 / 2 := by
        have : (|ν| + 1) ^ 2 / (2 * x) + x * t ^ 2 / 2 - (|ν| + 1) * t = (|ν| + 1 - x * t) ^ 2 / (2 * x) := by
          field_simp; ring
        have : 0 ≤ (|ν| + 1 - x * t) ^ 2 / (2 * x) := by positivity
        linarith
      linarith
    _ = _ := by rw [exp_add]

theorem kf_int {x : ℝ} (hx : 0 < x) (ν : ℝ) : IntegrableOn (kf ν x) (Ioi 0) := by
  refine integrable_of_isBigO_exp_neg (b := 1) one_pos (kf_cont ν x).continuousOn ?_
  refine Asymptotics.IsBigO.of_bound (exp ((|ν| + 1) ^ 2 / (2 * x))) ?_
  filter_upwards [eventually_ge_atTop 0] with t ht
  rw [norm_of_nonneg (kf_pos ν x t).le, norm_of_nonneg (exp_pos _).le]
  exact kf_le hx ν ht

theorem K_eq (ν x : ℝ) : besselKR ν x = ∫ t in Ioi (0:ℝ), kf ν x t := rfl

theorem K_neg (ν x : ℝ) : besselKR (-ν) x = besselKR ν x := by
  unfold besselKR
  simp only [neg_mul, cosh_neg]

theorem K_pos {x : ℝ} (hx : 0 < x) (ν : ℝ) : 0 < besselKR ν x := by
  rw [K_eq, setIntegral_pos_iff_support_of_nonneg_ae]
  · have : Function.support (kf ν x) = univ := by ext t; simp [(kf_pos ν x t).ne']
    rw [this, univ_inter]; simp
  · filter_upwards with t using (kf_pos ν x t).le
  · exact kf_int hx ν

theorem K_mono {x : ℝ} (hx : 0 < x) {μ ν : ℝ} (h : |μ| ≤ |ν|) : besselKR μ x ≤ besselKR ν x := by
  rw [K_eq, K_eq]
  refine setIntegral_mono_on (kf_int hx μ) (kf_int hx ν) measurableSet_Ioi ?_
  intro t ht
  unfold kf
  have : cosh (μ * t) ≤ cosh (ν * t) := by
    rw [cosh_le_cosh, abs_mul, abs_mul]; gcongr
  gcongr

theorem kf_tendsto {x : ℝ} (hx : 0 < x) (ν : ℝ) : Tendsto (kf ν x) atTop (𝓝 0) := by
  have h : Tendsto (fun t : ℝ => exp ((|ν| + 1) ^ 2 / (2 * x)) * exp (-1 * t)) atTop (𝓝 (exp ((|ν| + 1) ^ 2 / (2 * x)) * 0)) := by
    refine Tendsto.const_mul _ ?_
    have := tendsto_exp_neg_atTop_nhds_zero
    simpa using this
  rw [mul_zero] at h
  refine tendsto_of_tendsto_of_tendsto_of_le_of_le' tendsto_const_nhds h ?_ ?_
  · filter_upwards with t using (kf_pos ν x t).le
  · filter_upwards [eventually_ge_atTop 0] with t ht using kf_le hx ν ht

/-- `x (K_{ν+1} - K_{ν-1}) = 2ν K_ν` -/
theorem K_rec {x : ℝ} (hx : 0 < x) (ν : ℝ) : x * (besselKR (ν + 1) x - besselKR (ν - 1) x) = 2 * ν * besselKR ν x := by
  have hd : ∀ t ∈ Ici (0:ℝ), HasDerivAt (fun t => 2 * (exp (-x * cosh t) * sinh (ν * t)))
      (2 * ν * kf ν x t - x * (kf (ν + 1) x t - kf (ν - 1) x t)) t := by
    intro t _
    have h1 : HasDerivAt (fun t => exp (-x * cosh t)) (exp (-x * cosh t) * (-x * sinh t)) t :=
      ((hasDerivAt_cosh t).const_mul (-x)).exp
    have h2 : HasDerivAt (fun t => sinh (ν * t)) (cosh (ν * t) * (ν * 1)) t := ((hasDerivAt_id t).const_mul ν).sinh
    refine ((h1.mul h2).const_mul 2).congr_deriv ?_
    unfold kf
    rw [show (ν + 1) * t = ν * t + t by ring, show (ν - 1) * t = ν * t - t by ring, cosh_add, cosh_sub]
    ring
  have hi : IntegrableOn (fun t => 2 * ν * kf ν x t - x * (kf (ν + 1) x t - kf (ν - 1) x t)) (Ioi 0) :=
    ((kf_int hx ν).const_mul _).sub (((kf_int hx (ν + 1)).sub (kf_int hx (ν - 1))).const_mul x)
  have hl : Tendsto (fun t => 2 * (exp (-x * cosh t) * sinh (ν * t))) atTop (𝓝 0) := by
    have h := (kf_tendsto hx ν).const_mul 2
    rw [mul_zero] at h
    refine squeeze_zero_norm (fun t => ?_) h
    rw [norm_eq_abs, abs_mul, abs_two, abs_mul, abs_of_pos (exp_pos _)]
    unfold kf
    have : |sinh (ν * t)| ≤ cosh (ν * t) := by
      rw [abs_le]
      have h1 := exp_pos (ν * t)
      have h2 := exp_pos (-(ν * t))
      rw [sinh_eq, cosh_eq]
      constructor <;> linarith
    gcongr
  have h := integral_Ioi_of_hasDerivAt_of_tendsto' hd hi hl
  simp only [mul_zero, sinh_zero, sub_zero] at h
  have hA : Integrable (fun t => 2 * ν * kf ν x t) (volume.restrict (Ioi 0)) := (kf_int hx ν).const_mul _
  have hB : Integrable (fun t => x * (kf (ν + 1) x t - kf (ν - 1) x t)) (volume.restrict (Ioi 0)) :=
    ((kf_int hx (ν + 1)).sub (kf_int hx (ν - 1))).const_mul x
  rw [integral_sub hA hB, integral_const_mul,
    integral_const_mul, integral_sub (kf_int hx _) (kf_int hx _), ← K_eq, ← K_eq, ← K_eq] at h
  linarith

/-- `K_ν' = -(K_{ν-1} + K_{ν+1})/2` -/
theorem K_deriv {x : ℝ} (hx : 0 < x) (ν : ℝ) : HasDerivAt (besselKR ν) (-((besselKR (ν - 1) x + besselKR (ν + 1) x) / 2)) x := by
  have hF : ∀ y t : ℝ, -cosh t * kf ν y t = -((kf (ν - 1) y t + kf (ν + 1) y t) / 2) := by
    intro y t
    unfold kf
    rw [show (ν + 1) * t = ν * t + t by ring, show (ν - 1) * t = ν * t - t by ring, cosh_add, cosh_sub]
    ring
  have h := hasDerivAt_integral_of_dominated_loc_of_deriv_le (μ := volume.restrict (Ioi (0:ℝ))) (F := fun y t => kf ν y t)
    (F' := fun y t => -cosh t * kf ν y t) (x₀ := x) (s := Ioi (x / 2)) (bound := fun t => (kf (ν - 1) (x / 2) t + kf (ν + 1) (x / 2) t) / 2)
    (Ioi_mem_nhds (by linarith))
    (by filter_upwards with y using (kf_cont ν y).aestronglyMeasurable)
    (kf_int hx ν)
    (by
      have : Continuous fun t => -cosh t * kf ν x t := continuous_cosh.neg.mul (kf_cont ν x)
      exact this.aestronglyMeasurable)
    (by
      filter_upwards with t y hy
      rw [hF, norm_neg, norm_of_nonneg (by have := kf_pos (ν - 1) y t; have := kf_pos (ν + 1) y t; positivity)]
      have : ∀ μ, kf μ y t ≤ kf μ (x / 2) t := by
        intro μ
        unfold kf
        have h1 := cosh_pos t
        have h2 : exp (-y * cosh t) ≤ exp (-(x / 2) * cosh t) := by
          apply exp_le_exp.2
          have : x / 2 * cosh t ≤ y * cosh t := mul_le_mul_of_nonneg_right (le_of_lt hy) h1.le
          linarith
        exact mul_le_mul_of_nonneg_right h2 (cosh_pos _).le
      linarith [this (ν - 1), this (ν + 1)])
    (((kf_int (by linarith) _).add (kf_int (by linarith) _)).div_const 2)
    (by
      filter_upwards with t y _
      have h1 : HasDerivAt (fun y : ℝ => exp (-y * cosh t)) (exp (-y * cosh t) * (-1 * cosh t)) y :=
        ((hasDerivAt_neg y).mul_const (cosh t)).exp
      refine (h1.mul_const (cosh (ν * t))).congr_deriv ?_
      unfold kf; ring)
  refine h.2.congr_deriv ?_
  simp only [hF]
  rw [integral_neg, integral_div, integral_add (kf_int hx _) (kf_int hx _)]
  rfl

/-- `K_{1/2}(x) = √(π/(2x)) exp(-x)` -/
theorem K_half {x : ℝ} (hx : 0 < x) : besselKR (1 / 2) x = √(π / (2 * x)) * exp (-x) := by
  have e : ∀ t : ℝ, kf (1 / 2) x t = exp (-x) * (((fun v : ℝ => exp (-(2 * x) * v ^ 2)) ∘ fun t => sinh (1 / 2 * t)) t * (cosh (1 / 2 * t) * (1 / 2 * 1)) * 2) := by
    intro t
    unfold kf
    have h2 := cosh_two_mul (1 / 2 * t)
    rw [cosh_sq, show 2 * (1 / 2 * t) = t by ring] at h2
    simp only [Function.comp_apply]
    rw [h2, show -x * (sinh (1 / 2 * t) ^ 2 + 1 + sinh (1 / 2 * t) ^ 2) = -x + -(2 * x) * sinh (1 / 2 * t) ^ 2 by ring, exp_add]
    ring
  have hi := (kf_int hx (1 / 2)).const_mul (exp x / 2)
  have hi2 : IntegrableOn (fun t => ((fun v : ℝ => exp (-(2 * x) * v ^ 2)) ∘ fun t => sinh (1 / 2 * t)) t * (cosh (1 / 2 * t) * (1 / 2 * 1))) (Ioi 0) := by
    refine hi.congr ?_
    filter_upwards with t
    rw [e]
    have : exp x * exp (-x) = 1 := by rw [← exp_add]; simp
    linear_combination ((fun v : ℝ => exp (-(2 * x) * v ^ 2)) ∘ fun t => sinh (1 / 2 * t)) t * (cosh (1 / 2 * t) * (1 / 2 * 1)) * this
  have hs := integral_comp_mul_deriv_Ioi (f := fun t => sinh (1 / 2 * t)) (f' := fun t => cosh (1 / 2 * t) * (1 / 2 * 1)) (g := fun v => exp (-(2 * x) * v ^ 2)) (a := 0)
    (by fun_prop)
    (by
      refine tendsto_atTop_mono' _ ?_ (tendsto_id.const_mul_atTop (by norm_num : (0:ℝ) < 1 / 2))
      filter_upwards [eventually_ge_atTop 0] with t ht
      exact self_le_sinh_iff.2 (by simp only [id]; positivity))
    (fun t _ => (((hasDerivAt_id t).const_mul (1 / 2 : ℝ)).sinh).hasDerivWithinAt)
    (by fun_prop) ((integrable_exp_neg_mul_sq (by linarith)).integrableOn) ((integrableOn_Ici_iff_integrableOn_Ioi).2 hi2)
  rw [K_eq]
  simp only [e]
  rw [integral_const_mul, integral_mul_const, hs]
  simp only [mul_zero, sinh_zero]
  rw [integral_gaussian_Ioi]
  ring

/-- `K_0 ≤ K_{1/2} ≤ K_1 ≤ K_0 + K_{1/2}/(2x)` -/
theorem K_sandwich {x : ℝ} (hx : 0 < x) : besselKR 0 x ≤ besselKR (1 / 2) x ∧ besselKR (1 / 2) x ≤ besselKR 1 x ∧
    besselKR 1 x - besselKR 0 x ≤ besselKR (1 / 2) x / (2 * x) := by
  refine ⟨K_mono hx (by norm_num), K_mono hx (by norm_num [abs_of_pos]), ?_⟩
  have hr := K_rec hx (1 / 2)
  rw [show (1 / 2 - 1 : ℝ) = -(1 / 2) by norm_num, K_neg, show (1 / 2 + 1 : ℝ) = 3 / 2 by norm_num] at hr
  have h : besselKR 1 x - besselKR 0 x ≤ (besselKR (3 / 2) x - besselKR (1 / 2) x) / 2 := by
    rw [K_eq, K_eq, K_eq, K_eq, ← integral_sub (kf_int hx _) (kf_int hx _), ← integral_sub (kf_int hx _) (kf_int hx _), ← integral_div]
    refine setIntegral_mono_on ((kf_int hx _).sub (kf_int hx _)) (((kf_int hx _).sub (kf_int hx _)).div_const 2) measurableSet_Ioi ?_
    intro t _
    unfold kf
    rw [zero_mul, cosh_zero, one_mul, show 3 / 2 * t = t + 1 / 2 * t by ring, cosh_add]
    have h2 := cosh_two_mul (1 / 2 * t)
    have h3 := sinh_two_mul (1 / 2 * t)
    rw [cosh_sq, show 2 * (1 / 2 * t) = t by ring] at h2
    rw [show 2 * (1 / 2 * t) = t by ring] at h3
    have h4 := one_le_cosh (1 / 2 * t)
    have h5 := cosh_sq (1 / 2 * t)
    have key : cosh t - 1 ≤ (cosh t * cosh (1 / 2 * t) + sinh t * sinh (1 / 2 * t) - cosh (1 / 2 * t)) / 2 := by
      rw [h2, h3]
      nlinarith [mul_nonneg (sq_nonneg (sinh (1 / 2 * t))) (sub_nonneg.2 h4)]
    have := mul_le_mul_of_nonneg_left key (exp_pos (-x * cosh t)).le
    linarith
  refine h.trans (le_of_eq ?_)
  rw [show besselKR (3 / 2) x - besselKR (1 / 2) x = besselKR (1 / 2) x / x by rw [eq_div_iff hx.ne']; linarith]
  field_simp

end Bes
end Verif
