import Mathlib.Analysis.SpecialFunctions.Gaussian.GaussianIntegral

/-!
# The mathematical functions, as integrals

The definitions the accuracy theorems compare the code with.
-/

namespace Verif

/-- error function `erf(x) = 2/√π ∫₀ˣ e^(-t²) dt` -/
noncomputable def erfR (x : ℝ) : ℝ := 2 / Real.sqrt Real.pi * ∫ t in (0:ℝ)..x, Real.exp (-t^2)
/-- complementary error function -/
noncomputable def erfcR (x : ℝ) : ℝ := 1 - erfR x
/-- scaled complementary error function `e^(x²) erfc(x)` -/
noncomputable def erfcxR (x : ℝ) : ℝ := Real.exp (x^2) * erfcR x
/-- Dawson's integral `e^(-x²) ∫₀ˣ e^(t²) dt` -/
noncomputable def dawsonR (x : ℝ) : ℝ := Real.exp (-x^2) * ∫ t in (0:ℝ)..x, Real.exp (t^2)

end Verif
