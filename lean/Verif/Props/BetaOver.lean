import Verif.Props.BetaAcc
import Verif.Props.IncGamma
import Mathlib.Analysis.SpecialFunctions.Integrals.Basic

/-!
# `beta` with a tiny argument (src/beta.rs): a refutation of C77
-/

namespace Verif
open F64

/-- `B(z,1) = 1/z` -/
theorem eulerBeta_one {z : ℝ} (h : 0 < z) : eulerBeta z 1 = 1 / z := by
  unfold eulerBeta incBeta
  have : ∀ t : ℝ, t^(z-1) * (1-t)^((1:ℝ)-1) = t^(z-1) := by intro t; simp
  simp only [this]
  rw [integral_rpow (Or.inl (by linarith))]
  have : z - 1 + 1 = z := by ring
  rw [this, Real.one_rpow, Real.zero_rpow h.ne', sub_zero]

/-- C77 is false of the code: `beta(z,w) = +∞` for every `0 < z ≤ 2^-54` and every `1e-15 ≤ w ≤ 1e200`, because `ln_gamma(z)` is `+∞` there.
The true value is about `1/z`: it is exactly `1/z` at `w = 1`. -/
theorem beta_overflows [Libm F64] (L : LibmSpec) {z w : F64} (h1 : 0 < z.val) (h2 : z.val ≤ 2^(-54:ℤ)) (hw : 1 / 10^15 ≤ w.val) (hw1 : w.val ≤ 10^200) :
    Returns (beta z w) inf ∧ eulerBeta z.val 1 = 1 / z.val := by
  refine ⟨?_, eulerBeta_one h1⟩
  have t : (2:ℝ)^(-54:ℤ) < 1 / 10^15 := by norm_num
  have w0 : 0 < w.val := lt_of_lt_of_le (by norm_num) hw
  have zs : z.val ≤ 1 := h2.trans (by norm_num)
  have fz : z.isFin = true := isFin_of_abs (b := 1) (by rw [abs_of_pos h1]; exact zs) (by norm_num)
  have fw : w.isFin = true := isFin_of_abs (b := 10^200) (by rw [abs_of_pos w0]; exact hw1) le_rfl
  have v3 : (10:ℝ)^201 ≤ (1e300 : F64).val := by
    rw [lit_1e300.2]
    have hh : (10:ℝ)^300 < HUGE := by
      rw [HUGE_eq]
      calc (10:ℝ)^300 = (10^3)^100 := by rw [← pow_mul]
        _ ≤ (2^10)^100 := pow_le_pow_left₀ (by norm_num) (by norm_num) 100
        _ = 2^1000 := by rw [← pow_mul]
        _ < 2^1024 := pow_lt_pow_right₀ (by norm_num) (by norm_num)
    have := RN_err' (x := 10^300) (by rw [abs_of_pos (by positivity)]; exact hh)
    have := (abs_le.1 this).1
    rw [abs_of_pos (by positivity)] at this
    have h : (1:ℝ) / 2^1075 ≤ 1 := (div_le_one (by positivity)).2 (one_le_pow₀ (by norm_num))
    have e3 : (10:ℝ)^300 = 10^201 * 10^99 := by rw [← pow_add]
    have o : (1:ℝ) ≤ 10^201 := one_le_pow₀ (by norm_num)
    generalize (1:ℝ)/2^1075 = e at *
    generalize RN (10^300) = r at *
    rw [e3] at this
    generalize (10:ℝ)^201 = w at *
    norm_num at this
    linarith only [this, h, o]
  have gw : (lnGamma w).isFin = true := ln_gamma_finite_partial L w (t.trans_le hw) (hw1.trans (le_trans (by norm_num) v3))
  obtain ⟨n, s⟩ := add_spec fz fw
  have s1 : w.val ≤ (z + w).val := by
    rw [s]
    calc w.val = RN w.val := (RN_val (isFin_notNaN fw)).symm
      _ ≤ _ := RN_mono (by linarith)
  have s2 : (z + w).val ≤ (1e300 : F64).val := by
    rw [s, ← RN_val (isFin_notNaN lit_1e300.1)]
    refine RN_mono (le_trans ?_ v3)
    have : (1:ℝ) ≤ 10^200 := one_le_pow₀ (by norm_num)
    have e : (10:ℝ)^201 = 10 * 10^200 := by rw [pow_succ']
    rw [e]; linarith
  have gs : (lnGamma (z + w)).isFin = true := ln_gamma_finite_partial L _ (t.trans_le (hw.trans s1)) s2
  have gz : lnGamma z = inf := ln_gamma_overflows L z h1 h2
  unfold Returns beta
  have e1 : (0.0 : F64) <ᶠ z := pos_iff.2 ⟨isFin_notNaN fz, h1⟩
  have e2 : (0.0 : F64) <ᶠ w := pos_iff.2 ⟨isFin_notNaN fw, w0⟩
  have a1 : inf + lnGamma w = inf := add_inf_left inf_isInf (isFin_notNaN gw) (by rw [isFin_notInf gw]; simp)
  have a2 : inf - lnGamma (z + w) = inf := by
    rw [F64.sub_eq]
    exact add_inf_left inf_isInf (by simpa using isFin_notNaN gs) (by
      have : (-lnGamma (z+w)).isFin = true := by simpa using gs
      rw [isFin_notInf this]; simp)
  rw [e1, e2, gz, a1, a2, L.exp_inf]; rfl

/-- the hypotheses of `beta_overflows` are met by `z = 1e-20`, `w = 2` and the correctly rounded functions -/
example : ∃ _ : Libm F64, LibmSpec ∧ 0 < (1e-20 : F64).val ∧ (1e-20 : F64).val ≤ 2^(-54:ℤ) ∧ 1 / 10^15 ≤ (2.0:F64).val ∧ (2.0:F64).val ≤ 10^200 := by
  have := val_le_of_sv (x := (1e-20 : F64)) 1 (2^54) (by norm_num) (by decide +kernel)
  refine ⟨idealLibm, ideal_spec, by have := (lt_iff.1 (by decide +kernel : F64.lt 0.0 (1e-20 : F64) = true)).2.2; rwa [zero_val] at this, this.trans (by norm_num), ?_, ?_⟩
  · rw [lit2.2]; norm_num
  · rw [lit2.2]; norm_num

end Verif
