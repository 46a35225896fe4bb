import Verif.SpecFaddeeva
import Verif.SpecFun
import Mathlib.Analysis.SpecialFunctions.Integrals.Basic

/-! `w` on the two axes. -/

namespace Verif
open Complex

/-- on the real axis `w(x) = e^(-x²) + (2i/√π) D(x)` -/
theorem faddeevaW_real (x : ℝ) : faddeevaW x = ((Real.exp (-x^2) : ℝ) : ℂ) + ((2 / Real.sqrt Real.pi * dawsonR x : ℝ) : ℂ) * I := by
  have h : (∫ s in (0:ℝ)..1, (x:ℂ) * Complex.exp ((s * x)^2)) = ((∫ t in (0:ℝ)..x, Real.exp (t^2) : ℝ) : ℂ) := by
    have e : ∀ s : ℝ, (x:ℂ) * Complex.exp ((s * x)^2) = ((x * Real.exp ((s * x)^2) : ℝ) : ℂ) := by intro s; push_cast; rfl
    simp_rw [e]
    rw [intervalIntegral.integral_ofReal]
    congr 1
    rw [intervalIntegral.integral_const_mul, ← smul_eq_mul, intervalIntegral.smul_integral_comp_mul_right (fun t => Real.exp (t^2)) x]
    simp
  unfold faddeevaW dawsonR
  rw [h]
  push_cast
  ring

/-- on the imaginary axis `w(iy) = e^(y²) erfc(y)` -/
theorem faddeevaW_imag (y : ℝ) : faddeevaW (y * I) = ((erfcxR y : ℝ) : ℂ) := by
  have h : (∫ s in (0:ℝ)..1, (y * I : ℂ) * Complex.exp ((s * (y * I))^2)) = I * ((∫ t in (0:ℝ)..y, Real.exp (-t^2) : ℝ) : ℂ) := by
    have e : ∀ s : ℝ, (y * I : ℂ) * Complex.exp ((s * (y * I))^2) = I * ((y * Real.exp (-(s * y)^2) : ℝ) : ℂ) := by
      intro s
      have : ((s:ℂ) * (y * I))^2 = -((s:ℂ) * y)^2 := by rw [← mul_assoc, mul_pow, I_sq]; ring
      rw [this]; push_cast; ring
    simp_rw [e]
    rw [intervalIntegral.integral_const_mul, intervalIntegral.integral_ofReal]
    congr 2
    rw [intervalIntegral.integral_const_mul, ← smul_eq_mul, intervalIntegral.smul_integral_comp_mul_right (fun t => Real.exp (-t^2)) y]
    simp
  unfold faddeevaW erfcxR erfcR erfR
  rw [h]
  have e2 : -((y:ℂ) * I)^2 = (y:ℂ)^2 := by rw [mul_pow, I_sq]; ring
  rw [e2]
  push_cast
  have : (2 * I / ((Real.sqrt Real.pi : ℝ) : ℂ)) * (I * ((∫ t in (0:ℝ)..y, Real.exp (-t^2) : ℝ) : ℂ)) = -(2 / ((Real.sqrt Real.pi : ℝ) : ℂ) * ((∫ t in (0:ℝ)..y, Real.exp (-t^2) : ℝ) : ℂ)) := by
    linear_combination (2 / ((Real.sqrt Real.pi : ℝ) : ℂ) * ((∫ t in (0:ℝ)..y, Real.exp (-t^2) : ℝ) : ℂ)) * I_mul_I
  rw [this]
  ring

end Verif
