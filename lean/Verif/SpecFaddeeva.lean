import Mathlib.Analysis.SpecialFunctions.Complex.Log
import Mathlib.MeasureTheory.Integral.IntervalIntegral.Basic
import Mathlib.Analysis.SpecialFunctions.ExpDeriv

/-! Specification of the Faddeeva function (Abramowitz & Stegun 7.1.3). -/

namespace Verif

/-- `w(z) = e^(-z²) (1 + (2i/√π) ∫₀ᶻ e^(t²) dt)`, the integral taken along the segment from 0 to `z` -/
noncomputable def faddeevaW (z : ℂ) : ℂ :=
  Complex.exp (-z^2) * (1 + 2 * Complex.I / (Real.sqrt Real.pi : ℝ) * ∫ s in (0:ℝ)..1, z * Complex.exp ((s * z)^2))

end Verif
