import Mathlib.Analysis.SpecialFunctions.Gamma.Basic
import Mathlib.MeasureTheory.Integral.IntervalIntegral.Basic

/-!
# The incomplete gamma functions

The definitions the theorems about `gammp` and `gammq` compare the code with (DLMF 8.2.1-8.2.4).
-/

namespace Verif

/-- the lower incomplete gamma function `γ(a,x) = ∫₀ˣ t^(a-1) e^(-t) dt` -/
noncomputable def lowerGamma (a x : ℝ) : ℝ := ∫ t in (0:ℝ)..x, t^(a-1) * Real.exp (-t)

/-- the upper incomplete gamma function `Γ(a,x) = ∫ₓ^∞ t^(a-1) e^(-t) dt` -/
noncomputable def upperGamma (a x : ℝ) : ℝ := ∫ t in Set.Ioi x, t^(a-1) * Real.exp (-t)

/-- the regularised lower incomplete gamma function `P(a,x) = γ(a,x)/Γ(a)` -/
noncomputable def regP (a x : ℝ) : ℝ := lowerGamma a x / Real.Gamma a

/-- the regularised upper incomplete gamma function `Q(a,x) = Γ(a,x)/Γ(a)` -/
noncomputable def regQ (a x : ℝ) : ℝ := upperGamma a x / Real.Gamma a

end Verif
