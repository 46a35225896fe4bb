import Verif.SpecFaddeeva
import Verif.SpecFun
import Verif.Proofs.ErfcxReal
import Mathlib.Analysis.SpecialFunctions.Integrals.Basic
import Mathlib.MeasureTheory.Integral.IntervalIntegral.FundThmCalculus
import Mathlib.Analysis.Complex.RealDeriv
import Mathlib.Analysis.Real.Pi.Bounds

/-! The Maclaurin polynomials of `w`. -/

namespace Verif
namespace Fad
open Complex

/-- coefficients of Dawson's integral -/
noncomputable def da : ℕ → ℝ
  | 0 => 1
  | k+1 => -2 * da k / (2 * k + 3)

/-- Maclaurin polynomial of Dawson's integral, degree `2k+1` -/
noncomputable def dp : ℕ → ℂ → ℂ
  | 0, z => z
  | k+1, z => dp k z + (da (k+1) : ℂ) * z^(2*k+3)

theorem dp_zero (k : ℕ) : dp k 0 = 0 := by
  induction k with
  | zero => rfl
  | succ k ih => simp [dp, ih]

theorem dp_deriv (k : ℕ) (z : ℂ) :
    HasDerivAt (fun z => Complex.exp (z^2) * dp k z) (Complex.exp (z^2) * (1 + 2 * (da k : ℂ) * z^(2*k+2))) z := by
  have he : HasDerivAt (fun z : ℂ => Complex.exp (z^2)) (Complex.exp (z^2) * (2 * z)) z := by
    simpa using ((hasDerivAt_pow 2 z).cexp)
  induction k with
  | zero =>
    have := he.mul (hasDerivAt_id z)
    refine this.congr_deriv ?_
    simp [da]; ring
  | succ k ih =>
    have h2 := he.mul ((hasDerivAt_pow (2*k+3) z).const_mul (da (k+1) : ℂ))
    have h3 := ih.add h2
    have e : (fun z => Complex.exp (z^2) * dp (k+1) z) = ((fun z => Complex.exp (z^2) * dp k z) + ((fun z : ℂ => Complex.exp (z^2)) * fun z => (da (k+1) : ℂ) * z^(2*k+3))) := by
      funext z; simp [dp]; ring
    rw [e]
    refine h3.congr_deriv ?_
    have c : (da (k+1) : ℂ) * (2 * k + 3) = -2 * (da k : ℂ) := by
      have h : da (k+1) * (2 * k + 3) = -2 * da k := by
        simp only [da]; field_simp
      exact_mod_cast h
    have p1 : z^(2*(k+1)+2) = z^(2*k+3) * z := by ring
    have p2 : (2*k+3-1) = 2*k+2 := by omega
    rw [p1, p2]
    push_cast
    linear_combination Complex.exp (z^2) * z^(2*k+2) * c

/-- integral along the segment -/
theorem dp_integral (k : ℕ) (z : ℂ) :
    (∫ s in (0:ℝ)..1, z * Complex.exp ((s * z)^2)) = Complex.exp (z^2) * dp k z - ∫ s in (0:ℝ)..1, z * Complex.exp ((s * z)^2) * (2 * (da k : ℂ) * (s * z)^(2*k+2)) := by
  have hd : ∀ s : ℝ, HasDerivAt (fun s : ℝ => Complex.exp ((s * z)^2) * dp k (s * z)) (z * Complex.exp ((s * z)^2) + z * Complex.exp ((s * z)^2) * (2 * (da k : ℂ) * (s * z)^(2*k+2))) s := by
    intro s
    have h1 : HasDerivAt (fun s : ℂ => s * z) z (s : ℂ) := by simpa using (hasDerivAt_id (s:ℂ)).mul_const z
    have h2 := HasDerivAt.comp (s : ℂ) (dp_deriv k ((s:ℂ) * z)) h1
    have h3 := h2.comp_ofReal
    refine h3.congr_deriv ?_
    ring
  have c1 : Continuous fun s : ℝ => z * Complex.exp ((s * z)^2) := by fun_prop
  have c2 : Continuous fun s : ℝ => z * Complex.exp ((s * z)^2) * (2 * (da k : ℂ) * (s * z)^(2*k+2)) := by fun_prop
  have := intervalIntegral.integral_eq_sub_of_hasDerivAt (a := 0) (b := 1) (fun s _ => hd s) ((c1.add c2).intervalIntegrable _ _)
  rw [intervalIntegral.integral_add (c1.intervalIntegrable _ _) (c2.intervalIntegrable _ _)] at this
  simp only [ofReal_one, ofReal_zero, zero_mul, one_mul, dp_zero, mul_zero, sub_zero] at this
  linear_combination this

/-- truncation error of the odd part -/
theorem odd_err (k : ℕ) (z : ℂ) :
    ‖faddeevaW z - (Complex.exp (-z^2) + (kap : ℂ) * I * dp k z)‖ ≤ kap * (Real.exp (2 * ‖z‖^2) * (2 * |da k| * ‖z‖^(2*k+3))) := by
  have nE : ∀ u : ℂ, ‖Complex.exp u‖ ≤ Real.exp ‖u‖ := fun u => Complex.norm_exp_le_exp_norm u
  have kk : (2 * I / ((Real.sqrt Real.pi : ℝ) : ℂ)) = (kap : ℂ) * I := by
    unfold kap; push_cast; ring
  have e : faddeevaW z - (Complex.exp (-z^2) + (kap : ℂ) * I * dp k z) =
      -((kap : ℂ) * I * (Complex.exp (-z^2) * ∫ s in (0:ℝ)..1, z * Complex.exp ((s * z)^2) * (2 * (da k : ℂ) * (s * z)^(2*k+2)))) := by
    unfold faddeevaW
    rw [kk, dp_integral k z]
    have : Complex.exp (-z^2) * Complex.exp (z^2) = 1 := by rw [← Complex.exp_add]; simp
    linear_combination (kap : ℂ) * I * dp k z * this
  rw [e, norm_neg, norm_mul, norm_mul, Complex.norm_I, mul_one, Complex.norm_real, Real.norm_eq_abs, abs_of_pos kap_pos, norm_mul]
  refine mul_le_mul_of_nonneg_left ?_ kap_pos.le
  have hI : ‖∫ s in (0:ℝ)..1, z * Complex.exp ((s * z)^2) * (2 * (da k : ℂ) * (s * z)^(2*k+2))‖ ≤ Real.exp (‖z‖^2) * (2 * |da k| * ‖z‖^(2*k+3)) := by
    have := intervalIntegral.norm_integral_le_of_norm_le_const (a := 0) (b := 1) (f := fun s : ℝ => z * Complex.exp ((s * z)^2) * (2 * (da k : ℂ) * (s * z)^(2*k+2))) (C := Real.exp (‖z‖^2) * (2 * |da k| * ‖z‖^(2*k+3))) (by
      intro s hs
      rw [Set.uIoc_of_le zero_le_one] at hs
      have ns : ‖(s:ℂ) * z‖ ≤ ‖z‖ := by
        rw [norm_mul, Complex.norm_real, Real.norm_eq_abs, abs_of_pos hs.1]
        exact mul_le_of_le_one_left (norm_nonneg _) hs.2
      rw [norm_mul, norm_mul, norm_mul, norm_mul, norm_pow, Complex.norm_real, Real.norm_eq_abs]
      have a1 : ‖Complex.exp (((s:ℂ) * z)^2)‖ ≤ Real.exp (‖z‖^2) := by
        refine (nE _).trans (Real.exp_le_exp.2 ?_)
        rw [norm_pow]; exact pow_le_pow_left₀ (norm_nonneg _) ns 2
      have a2 : ‖(s:ℂ) * z‖^(2*k+2) ≤ ‖z‖^(2*k+2) := pow_le_pow_left₀ (norm_nonneg _) ns _
      have a3 : ‖(2:ℂ)‖ = 2 := by simp
      rw [a3]
      calc ‖z‖ * ‖Complex.exp (((s:ℂ) * z)^2)‖ * (2 * |da k| * ‖(s:ℂ) * z‖^(2*k+2)) ≤ ‖z‖ * Real.exp (‖z‖^2) * (2 * |da k| * ‖z‖^(2*k+2)) := by
            refine mul_le_mul (mul_le_mul_of_nonneg_left a1 (norm_nonneg _)) (mul_le_mul_of_nonneg_left a2 (by positivity)) (by positivity) (by positivity)
        _ = _ := by ring)
    simpa using this
  calc ‖Complex.exp (-z^2)‖ * _ ≤ Real.exp (‖z‖^2) * (Real.exp (‖z‖^2) * (2 * |da k| * ‖z‖^(2*k+3))) := by
        refine mul_le_mul ?_ hI (norm_nonneg _) (Real.exp_pos _).le
        have := nE (-z^2)
        rwa [norm_neg, norm_pow] at this
    _ = _ := by rw [← mul_assoc, ← Real.exp_add]; congr 2; ring

/-- truncation error of the Maclaurin polynomial of `w` of degree `2k+1` -/
theorem mac_err (k : ℕ) (z : ℂ) (hz : ‖z‖ ≤ 1/4) :
    ‖faddeevaW z - ((∑ m ∈ Finset.range (k+1), (-z^2)^m / (m.factorial : ℂ)) + (kap : ℂ) * I * dp k z)‖ ≤ 2.6 * |da k| * ‖z‖^(2*k+3) + (‖z‖^2)^(k+1) * (((k+2 : ℕ) : ℝ) * (((k+1).factorial * (k+1) : ℕ) : ℝ)⁻¹) := by
  have h1 := odd_err k z
  have z2 : ‖-z^2‖ = ‖z‖^2 := by rw [norm_neg, norm_pow]
  have z1 : ‖z‖^2 ≤ 1/16 := (pow_le_pow_left₀ (norm_nonneg _) hz 2).trans (by norm_num)
  have h2 := Complex.exp_bound (x := -z^2) (by rw [z2]; linarith) (n := k+1) (by omega)
  rw [z2] at h2
  have h3 : Real.exp (2 * ‖z‖^2) ≤ 1.143 := by
    have := Real.exp_bound' (x := 2 * ‖z‖^2) (by positivity) (by linarith) (n := 3) (by norm_num)
    simp [Finset.sum_range_succ, Nat.factorial] at this
    refine this.trans ?_
    have p : (0:ℝ) ≤ ‖z‖^2 := by positivity
    nlinarith [mul_nonneg p p, mul_nonneg p (mul_nonneg p p), mul_nonneg p (sub_nonneg.2 z1), mul_nonneg (mul_nonneg p p) (sub_nonneg.2 z1)]
  have kb : kap ≤ 1.13 := by
    unfold kap
    rw [div_le_iff₀ (Real.sqrt_pos.2 Real.pi_pos)]
    have : (1.77:ℝ) ≤ Real.sqrt Real.pi := Real.le_sqrt_of_sq_le (by have := Real.pi_gt_d2; norm_num at this ⊢; linarith)
    norm_num at this ⊢
    linarith
  have h4 : kap * (Real.exp (2 * ‖z‖^2) * (2 * |da k| * ‖z‖^(2*k+3))) ≤ 2.6 * |da k| * ‖z‖^(2*k+3) := by
    have q : kap * Real.exp (2 * ‖z‖^2) ≤ 1.13 * 1.143 := mul_le_mul kb h3 (Real.exp_pos _).le (by norm_num)
    have := mul_le_mul_of_nonneg_right q (show 0 ≤ 2 * |da k| * ‖z‖^(2*k+3) by positivity)
    have p : 0 ≤ |da k| * ‖z‖^(2*k+3) := by positivity
    calc _ = kap * Real.exp (2 * ‖z‖^2) * (2 * |da k| * ‖z‖^(2*k+3)) := by ring
      _ ≤ 1.13 * 1.143 * (2 * |da k| * ‖z‖^(2*k+3)) := this
      _ = (1.13 * 1.143 * 2) * (|da k| * ‖z‖^(2*k+3)) := by ring
      _ ≤ 2.6 * (|da k| * ‖z‖^(2*k+3)) := mul_le_mul_of_nonneg_right (by norm_num) p
      _ = _ := by ring
  have e : faddeevaW z - ((∑ m ∈ Finset.range (k+1), (-z^2)^m / (m.factorial : ℂ)) + (kap : ℂ) * I * dp k z) =
      (faddeevaW z - (Complex.exp (-z^2) + (kap : ℂ) * I * dp k z)) + (Complex.exp (-z^2) - ∑ m ∈ Finset.range (k+1), (-z^2)^m / (m.factorial : ℂ)) := by ring
  rw [e]
  refine (norm_add_le _ _).trans (add_le_add (h1.trans h4) (h2.trans (le_of_eq ?_)))
  push_cast
  ring

end Fad
end Verif
