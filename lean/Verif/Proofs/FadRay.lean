import Verif.SpecFaddeeva
import Verif.SpecFun
import Verif.Proofs.ErfcxReal
import Mathlib.Analysis.SpecialFunctions.Gaussian.GaussianIntegral
import Mathlib.Analysis.Calculus.ParametricIntegral
import Mathlib.MeasureTheory.Integral.IntegralEqImproper
import Mathlib.MeasureTheory.Integral.IntervalIntegral.FundThmCalculus
import Mathlib.Analysis.Complex.RealDeriv

/-! `w(z) = (2/√π) ∫₀^∞ e^(-s² + 2izs) ds`, and its expansion in inverse powers of `z` in the upper half-plane. -/

namespace Verif
namespace Fad
open Complex MeasureTheory Set Filter Topology

noncomputable def ker (q : ℂ) (s : ℝ) : ℂ := Complex.exp (-(s:ℂ)^2 + q * s)

theorem ker_norm (q : ℂ) (s : ℝ) : ‖ker q s‖ = Real.exp (-s^2 + q.re * s) := by
  unfold ker
  rw [Complex.norm_exp]
  congr 1
  have : (-(s:ℂ)^2 + q * s) = (((-s^2 : ℝ)) : ℂ) + q * s := by push_cast; ring
  rw [this, Complex.add_re, Complex.ofReal_re, Complex.mul_re, Complex.ofReal_re, Complex.ofReal_im]; ring

theorem ker_cont (q : ℂ) : Continuous (ker q) := by unfold ker; fun_prop

theorem gb_int (n : ℕ) {b : ℝ} (hb : 0 < b) : IntegrableOn (fun s : ℝ => s^n * Real.exp (-b * s^2)) (Ioi 0) := by
  have := integrableOn_rpow_mul_exp_neg_mul_sq hb (s := (n:ℝ)) (by have : (0:ℝ) ≤ n := Nat.cast_nonneg n; linarith)
  simpa only [Real.rpow_natCast] using this

theorem ker_le (q : ℂ) (s : ℝ) {K : ℝ} (hK : |q.re| ≤ K) : ‖ker q s‖ ≤ Real.exp (K^2/2) * Real.exp (-(1/2) * s^2) := by
  rw [ker_norm, ← Real.exp_add]
  apply Real.exp_le_exp.2
  have : q.re^2 ≤ K^2 := sq_le_sq' (by linarith [abs_le.1 hK]) (abs_le.1 hK).2
  nlinarith [sq_nonneg (s - q.re)]

theorem ker_int (n : ℕ) (q : ℂ) : IntegrableOn (fun s : ℝ => (s:ℂ)^n * ker q s) (Ioi 0) := by
  refine Integrable.mono' (g := fun s : ℝ => Real.exp (|q.re|^2/2) * (s^n * Real.exp (-(1/2) * s^2))) ((gb_int n (by norm_num)).const_mul _)
    (Continuous.aestronglyMeasurable (by have := ker_cont q; fun_prop)) ?_
  refine (ae_restrict_iff' measurableSet_Ioi).2 (ae_of_all _ fun s hs => ?_)
  rw [norm_mul, norm_pow, Complex.norm_real, Real.norm_eq_abs, abs_of_pos hs]
  have := mul_le_mul_of_nonneg_left (ker_le q s le_rfl) (pow_nonneg (le_of_lt hs) n)
  linarith

theorem ker_deriv (n : ℕ) (q : ℂ) (s : ℝ) :
    HasDerivAt (fun s : ℝ => (s:ℂ)^n * ker q s) ((n:ℂ) * ((s:ℂ)^(n-1) * ker q s) + q * ((s:ℂ)^n * ker q s) - 2 * ((s:ℂ)^(n+1) * ker q s)) s := by
  have h1 : HasDerivAt (fun s : ℂ => s^n * Complex.exp (-s^2 + q * s)) ((n * (s:ℂ)^(n-1)) * Complex.exp (-(s:ℂ)^2 + q * s) + (s:ℂ)^n * (Complex.exp (-(s:ℂ)^2 + q * s) * (-(2 * (s:ℂ)) + q))) (s:ℂ) := by
    refine (hasDerivAt_pow n (s:ℂ)).mul (HasDerivAt.cexp ?_)
    refine HasDerivAt.add ?_ ?_
    · exact (hasDerivAt_pow 2 (s:ℂ)).neg.congr_deriv (by simp)
    · simpa using (hasDerivAt_id (s:ℂ)).const_mul q
  refine h1.comp_ofReal.congr_deriv ?_
  unfold ker
  ring

/-- moments -/
noncomputable def mo (n : ℕ) (q : ℂ) : ℂ := ∫ s in Ioi (0:ℝ), (s:ℂ)^n * ker q s

theorem mo_rec (n : ℕ) (q : ℂ) : (n:ℂ) * mo (n-1) q + q * mo n q - 2 * mo (n+1) q = -((0:ℂ)^n) := by
  have i1 := (ker_int (n-1) q).const_mul (n:ℂ)
  have i2 := (ker_int n q).const_mul q
  have i3 := (ker_int (n+1) q).const_mul 2
  have hi : IntegrableOn (fun s : ℝ => (n:ℂ) * ((s:ℂ)^(n-1) * ker q s) + q * ((s:ℂ)^n * ker q s) - 2 * ((s:ℂ)^(n+1) * ker q s)) (Ioi 0) := (i1.add i2).sub i3
  have ht := tendsto_zero_of_hasDerivAt_of_integrableOn_Ioi (a := (0:ℝ)) (fun s _ => ker_deriv n q s) hi (ker_int n q)
  have h := integral_Ioi_of_hasDerivAt_of_tendsto' (a := (0:ℝ)) (fun s _ => ker_deriv n q s) hi ht
  have i12 : Integrable (fun s : ℝ => (n:ℂ) * ((s:ℂ)^(n-1) * ker q s) + q * ((s:ℂ)^n * ker q s)) (volume.restrict (Ioi 0)) := i1.add i2
  rw [integral_sub i12 i3, integral_add i1 i2, integral_const_mul, integral_const_mul, integral_const_mul] at h
  unfold mo
  rw [h]
  simp [ker]

theorem mo_le (n : ℕ) {q : ℂ} (hq : q.re ≤ 0) : ‖mo n q‖ ≤ ∫ s in Ioi (0:ℝ), s^n * Real.exp (-1 * s^2) := by
  unfold mo
  refine norm_integral_le_of_norm_le (gb_int n one_pos) ?_
  refine (ae_restrict_iff' measurableSet_Ioi).2 (ae_of_all _ fun s hs => ?_)
  rw [norm_mul, norm_pow, Complex.norm_real, Real.norm_eq_abs, abs_of_pos hs, ker_norm]
  refine mul_le_mul_of_nonneg_left (Real.exp_le_exp.2 ?_) (pow_nonneg (le_of_lt hs) n)
  have := mul_nonneg (neg_nonneg.2 hq) (le_of_lt hs)
  linarith

theorem mo0_zero : mo 0 0 = ((Real.sqrt Real.pi / 2 : ℝ) : ℂ) := by
  have := integral_gaussian_Ioi 1
  unfold mo ker
  rw [div_one] at this
  rw [← this, ← integral_complex_ofReal]
  congr 1
  funext s
  push_cast
  simp

theorem mo_deriv (z : ℂ) (t : ℝ) : HasDerivAt (fun t : ℝ => mo 0 (2 * I * (t * z))) (2 * I * z * mo 1 (2 * I * (t * z))) t := by
  set B : ℝ := 2 * ‖z‖ * (|t| + 1) with hB
  have dom : ∀ s ∈ Ioi (0:ℝ), ∀ u ∈ Metric.ball t 1, ‖2 * I * z * ((s:ℂ)^1 * ker (2 * I * (u * z)) s)‖ ≤ 2 * ‖z‖ * Real.exp (B^2/2) * (s^1 * Real.exp (-(1/2) * s^2)) := by
    intro s hs u hu
    have hu' : |u| ≤ |t| + 1 := by
      rw [Metric.mem_ball, Real.dist_eq] at hu
      have := abs_sub_abs_le_abs_sub u t
      linarith
    have hre : |(2 * I * ((u:ℂ) * z)).re| ≤ B := by
      refine (Complex.abs_re_le_norm _).trans ?_
      rw [norm_mul, norm_mul, norm_mul, Complex.norm_I, Complex.norm_real, Real.norm_eq_abs, Complex.norm_ofNat, hB]
      have := mul_le_mul_of_nonneg_left hu' (norm_nonneg z)
      nlinarith
    have k := ker_le (2 * I * ((u:ℂ) * z)) s hre
    rw [norm_mul, norm_mul, norm_mul, norm_mul, Complex.norm_I, norm_pow, Complex.norm_real, Real.norm_eq_abs, abs_of_pos hs, Complex.norm_ofNat]
    have hs' : 0 ≤ s := le_of_lt hs
    calc 2 * 1 * ‖z‖ * (s^1 * ‖ker (2 * I * ((u:ℂ) * z)) s‖) ≤ 2 * 1 * ‖z‖ * (s^1 * (Real.exp (B^2/2) * Real.exp (-(1/2) * s^2))) := by gcongr
      _ = _ := by ring
  have h := hasDerivAt_integral_of_dominated_loc_of_deriv_le (μ := volume.restrict (Ioi (0:ℝ))) (F := fun (u : ℝ) (s : ℝ) => (s:ℂ)^0 * ker (2 * I * (u * z)) s)
    (F' := fun (u : ℝ) (s : ℝ) => 2 * I * z * ((s:ℂ)^1 * ker (2 * I * (u * z)) s)) (x₀ := t) (s := Metric.ball t 1)
    (bound := fun s => 2 * ‖z‖ * Real.exp (B^2/2) * (s^1 * Real.exp (-(1/2) * s^2))) (Metric.ball_mem_nhds t one_pos)
    (Eventually.of_forall fun u => (ker_int 0 (2 * I * (u * z))).aestronglyMeasurable) (ker_int 0 _)
    ((ker_int 1 _).const_mul _).aestronglyMeasurable
    ((ae_restrict_iff' measurableSet_Ioi).2 (ae_of_all _ dom)) ((gb_int 1 (by norm_num)).const_mul _)
    (ae_of_all _ fun s u _ => by
      have h1 : HasDerivAt (fun u : ℂ => s^0 * Complex.exp (-(s:ℂ)^2 + 2 * I * (u * z) * s)) ((s:ℂ)^0 * (Complex.exp (-(s:ℂ)^2 + 2 * I * ((u:ℂ) * z) * s) * (2 * I * z * s))) (u:ℂ) := by
        refine (HasDerivAt.cexp ?_).const_mul _
        have : HasDerivAt (fun u : ℂ => -(s:ℂ)^2 + 2 * I * (u * z) * s) (2 * I * (1 * z) * s) (u:ℂ) :=
          ((((hasDerivAt_id (u:ℂ)).mul_const z).const_mul (2 * I)).mul_const (s:ℂ)).const_add _
        refine this.congr_deriv (by ring)
      refine h1.comp_ofReal.congr_deriv ?_
      unfold ker
      ring)
  refine h.2.congr_deriv ?_
  rw [integral_const_mul]
  rfl

/-- the ray representation -/
theorem w_ray (z : ℂ) : faddeevaW z = (kap : ℂ) * mo 0 (2 * I * z) := by
  have r1 : ∀ q : ℂ, 2 * mo 1 q = 1 + q * mo 0 q := by
    intro q
    have := mo_rec 0 q
    simp at this
    linear_combination -this
  have hd : ∀ t : ℝ, HasDerivAt (fun t : ℝ => Complex.exp ((t * z)^2) * mo 0 (2 * I * (t * z))) (I * (z * Complex.exp ((t * z)^2))) t := by
    intro t
    have h1 : HasDerivAt (fun t : ℂ => Complex.exp ((t * z)^2)) (Complex.exp (((t:ℂ) * z)^2) * (2 * (t * z) * z)) (t:ℂ) := by
      refine HasDerivAt.cexp ?_
      have := ((hasDerivAt_id (t:ℂ)).mul_const z).pow 2
      exact this.congr_deriv (by simp)
    refine (h1.comp_ofReal.mul (mo_deriv z t)).congr_deriv ?_
    have r := r1 (2 * I * (t * z))
    have i2 : I * I = -1 := Complex.I_mul_I
    linear_combination Complex.exp (((t:ℂ) * z)^2) * I * z * r + 2 * Complex.exp (((t:ℂ) * z)^2) * t * z^2 * mo 0 (2 * I * (t * z)) * i2
  have c1 : Continuous fun t : ℝ => I * (z * Complex.exp ((t * z)^2)) := by fun_prop
  have h := intervalIntegral.integral_eq_sub_of_hasDerivAt (a := 0) (b := 1) (fun t _ => hd t) (c1.intervalIntegrable _ _)
  rw [intervalIntegral.integral_const_mul] at h
  simp only [ofReal_one, ofReal_zero, zero_mul, one_mul, mul_zero] at h
  rw [mo0_zero] at h
  have e0 : Complex.exp ((0:ℂ)^2) = 1 := by simp
  rw [e0, one_mul] at h
  have ee : Complex.exp (-z^2) * Complex.exp (z^2) = 1 := by rw [← Complex.exp_add]; simp
  have sp : (Real.sqrt Real.pi : ℝ) ≠ 0 := (Real.sqrt_pos.2 Real.pi_pos).ne'
  have sp' : ((Real.sqrt Real.pi : ℝ) : ℂ) ≠ 0 := by exact_mod_cast sp
  have kk : (kap : ℂ) * ((Real.sqrt Real.pi : ℝ) : ℂ) = 2 := by
    have : kap * Real.sqrt Real.pi = 2 := by unfold kap; field_simp
    exact_mod_cast this
  have k2 : 2 * I / ((Real.sqrt Real.pi : ℝ) : ℂ) = (kap : ℂ) * I := by
    rw [div_eq_iff sp']; linear_combination -I * kk
  unfold faddeevaW
  rw [k2]
  push_cast at h
  linear_combination (kap : ℂ) * Complex.exp (-z^2) * h + (kap : ℂ) * mo 0 (2 * I * z) * ee - Complex.exp (-z^2) / 2 * kk

end Fad
end Verif
