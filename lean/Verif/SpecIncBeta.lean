import Mathlib.Analysis.SpecialFunctions.Pow.Real
import Mathlib.MeasureTheory.Integral.IntervalIntegral.Basic

/-!
# The beta functions

The definitions the theorems about `beta` and `betai` compare the code with (DLMF 5.12.1, 8.17.1, 8.17.2).
-/

namespace Verif

/-- the incomplete beta function `B_x(a,b) = ∫₀ˣ t^(a-1) (1-t)^(b-1) dt` -/
noncomputable def incBeta (a b x : ℝ) : ℝ := ∫ t in (0:ℝ)..x, t^(a-1) * (1-t)^(b-1)

/-- Euler's beta function `B(a,b) = ∫₀¹ t^(a-1) (1-t)^(b-1) dt` -/
noncomputable def eulerBeta (a b : ℝ) : ℝ := incBeta a b 1

/-- the regularised incomplete beta function `I_x(a,b) = B_x(a,b)/B(a,b)` -/
noncomputable def regBeta (a b x : ℝ) : ℝ := incBeta a b x / eulerBeta a b

end Verif
