import Verif.SpecBessel
import Mathlib.NumberTheory.Harmonic.EulerMascheroni
import Mathlib.Analysis.SpecialFunctions.Log.Basic
import Mathlib.Analysis.SpecialFunctions.Trigonometric.Basic

/-!
# The Bessel function of the second kind of integer order

The definition the accuracy theorems for `Yn` compare the code with (DLMF 10.8.1, with `ψ(m+1) = H_m - γ`, DLMF 5.4.14).
-/

namespace Verif

/-- the digamma function at a positive integer, `ψ(m+1) = 1 + 1/2 + … + 1/m - γ` -/
noncomputable def digammaNat (m : ℕ) : ℝ := harmonic m - Real.eulerMascheroniConstant

/-- Bessel function of the second kind, for `x > 0`:
`Y_n(x) = 2/π ln(x/2) J_n(x) - 1/π ∑_{k<n} (n-k-1)!/k! (x/2)^(2k-n) - 1/π ∑_k (ψ(k+1) + ψ(n+k+1)) (-1)^k/(k!(n+k)!) (x/2)^(2k+n)` -/
noncomputable def besselYR (n : ℕ) (x : ℝ) : ℝ :=
  2 / Real.pi * Real.log (x / 2) * besselJR n x
  - 1 / Real.pi * ∑ k ∈ Finset.range n, ((n - k - 1).factorial / k.factorial : ℝ) * ((x / 2) ^ (2 * k) / (x / 2) ^ n)
  - 1 / Real.pi * ∑' k : ℕ, (digammaNat k + digammaNat (n + k)) * ((-1) ^ k / (k.factorial * (n + k).factorial : ℝ)) * (x / 2) ^ (2 * k + n)

end Verif
