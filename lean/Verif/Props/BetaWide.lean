import Verif.Props.BetaAcc
import Verif.Proofs.BetaWide

/-!
# Accuracy of `beta` (src/beta.rs) over a wide range: C77
-/

namespace Verif
open F64 Bcf

/-- C77 in binary64: for `10⁻¹¹ ≤ z, w ≤ 10⁸`, `beta(z,w)` is finite and is Euler's integral to
`2.5e-8 + 2e-12 (1/z + 1/w) + 3.2e-13 (z+w+7) ln(z+w+7)`, relative (plus one subnormal step).
The last two terms are the rounding errors of logarithms of that size, magnified by the exponential.
Missing: smaller arguments, where the bound degenerates (`beta_overflows`), and larger ones. -/
theorem beta_accurate_wide_partial [Libm F64] (L : LibmUlp) {z w : F64} (hz : 1 / 10^11 ≤ z.val) (hz1 : z.val ≤ 10^8) (hw : 1 / 10^11 ≤ w.val) (hw1 : w.val ≤ 10^8) :
    ∃ v, Returns (beta z w) v ∧ v.isFin = true ∧
      |v.val - eulerBeta z.val w.val| ≤
        (2.5 / 10^8 + 2 / 10^12 * (1 / z.val + 1 / w.val) + 3.2 / 10^13 * ((z.val + w.val + 7) * Real.log (z.val + w.val + 7))) * eulerBeta z.val w.val
          + 1 / 2^1074 := by
  have z0 : 0 < z.val := lt_of_lt_of_le (by norm_num) hz
  have w0 : 0 < w.val := lt_of_lt_of_le (by norm_num) hw
  have fz : z.isFin = true := isFin_of_abs (b := 10^8) (by rw [abs_of_pos z0]; exact hz1) (by norm_num)
  have fw : w.isFin = true := isFin_of_abs (b := 10^8) (by rw [abs_of_pos w0]; exact hw1) (by norm_num)
  obtain ⟨f, h⟩ := beta_val2 L hz hz1 hw hw1
  refine ⟨_, ?_, f, h⟩
  unfold Returns beta
  have e1 : (0.0 : F64) <ᶠ z := pos_iff.2 ⟨isFin_notNaN fz, z0⟩
  have e2 : (0.0 : F64) <ᶠ w := pos_iff.2 ⟨isFin_notNaN fw, w0⟩
  rw [e1, e2]; rfl

/-- the hypotheses of `beta_accurate_wide_partial` are met by `z = 2`, `w = 12345678` and the correctly rounded functions -/
example : ∃ _ : Libm F64, LibmUlp ∧ 1 / 10^11 ≤ (2.0:F64).val ∧ (2.0:F64).val ≤ 10^8 ∧ 1 / 10^11 ≤ (F64.ofNat 12345678).val ∧ (F64.ofNat 12345678).val ≤ 10^8 := by
  have h := (ofNat_val (n := 12345678) (by norm_num)).2
  exact ⟨idealLibm, ideal_ulp, by rw [lit2.2]; norm_num, by rw [lit2.2]; norm_num, by rw [h]; norm_num, by rw [h]; norm_num⟩

end Verif
