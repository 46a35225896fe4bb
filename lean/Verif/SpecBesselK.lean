import Mathlib.MeasureTheory.Integral.Bochner.Set
import Mathlib.Analysis.SpecialFunctions.Trigonometric.DerivHyp
import Mathlib.MeasureTheory.Measure.Lebesgue.Basic

/-!
# The modified Bessel function of the second kind, as an integral

The definition the accuracy theorems for `Kn` compare the code with (DLMF 10.32.9).
-/

namespace Verif

/-- modified Bessel function of the second kind `K_ν(x) = ∫_0^∞ exp(-x cosh t) cosh(νt) dt`, for `x > 0` -/
noncomputable def besselKR (ν x : ℝ) : ℝ := ∫ t in Set.Ioi (0:ℝ), Real.exp (-x * Real.cosh t) * Real.cosh (ν * t)

end Verif
