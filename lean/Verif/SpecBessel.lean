import Mathlib.Analysis.SpecialFunctions.Exponential
import Mathlib.Topology.Algebra.InfiniteSum.Basic

/-!
# The Bessel functions of integer order, as power series

The definitions the accuracy theorems compare the code with (DLMF 10.2.2 and 10.25.2).
-/

namespace Verif

/-- Bessel function of the first kind `J_n(x) = ∑ (-1)^k / (k! (k+n)!) (x/2)^(2k+n)` -/
noncomputable def besselJR (n : ℕ) (x : ℝ) : ℝ := ∑' k : ℕ, (-1) ^ k / (k.factorial * (k + n).factorial : ℝ) * (x / 2) ^ (2 * k + n)

/-- modified Bessel function of the first kind `I_n(x) = ∑ 1 / (k! (k+n)!) (x/2)^(2k+n)` -/
noncomputable def besselIR (n : ℕ) (x : ℝ) : ℝ := ∑' k : ℕ, 1 / (k.factorial * (k + n).factorial : ℝ) * (x / 2) ^ (2 * k + n)

end Verif
