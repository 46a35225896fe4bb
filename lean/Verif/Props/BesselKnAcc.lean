import Verif.Proofs.BesselKF4

/-!
# C75: `Kn` approximates the modified Bessel function of the second kind (src/bessel.rs)

`besselKR ν x` (`Verif.SpecBesselK`) is the real function, defined as an integral. `Kn_exact_accurate` is about the code run
in exact arithmetic (`α := ℝ`): it bounds the error of the coefficient tables, of the choice of the formulas and of the
recurrence. `Kn_accurate_partial` is about the code in binary64; `LibmUlp` says that `exp` and `ln` are accurate to one unit
in the last place.
-/

namespace Verif
open Bes Real F64

/-- C75: the relative error is at most `9·10^-13` for every order and every `x > 0` -/
theorem Kn_exact_accurate (n : ℕ) {x : ℝ} (hx : 0 < x) : |Kn n x - besselKR n x| ≤ 9e-13 * besselKR n x := by
  have up : ∀ k : ℕ, |(upPlus (2.0 / x) (k0 x) (k1 x) k).1 - besselKR k x| ≤ 9e-13 * besselKR k x ∧
      |(upPlus (2.0 / x) (k0 x) (k1 x) k).2 - besselKR (k + 1) x| ≤ 9e-13 * besselKR (k + 1) x := by
    intro k
    induction k with
    | zero => simp only [upPlus, Nat.cast_zero, zero_add]; exact ⟨k0_exact hx, k1_exact hx⟩
    | succ k ih =>
      obtain ⟨h1, h2⟩ := ih
      refine ⟨by simpa [upPlus] using h2, ?_⟩
      have hr := K_rec hx ((k:ℝ) + 1)
      rw [show (k:ℝ) + 1 - 1 = k by ring] at hr
      simp only [upPlus]
      generalize (upPlus (2.0 / x) (k0 x) (k1 x) k).1 = s1 at h1
      generalize (upPlus (2.0 / x) (k0 x) (k1 x) k).2 = s2 at h2
      have e0 : (Arith.ofNat (k + 1) : ℝ) = (k:ℝ) + 1 := by
        show ((k + 1 : ℕ) : ℝ) = _
        push_cast; rfl
      have e1 : (2.0:ℝ) = 2 := by norm_num
      rw [e0, e1]
      push_cast
      have e2 : besselKR ((k:ℝ) + 1 + 1) x = ((k:ℝ) + 1) * (2 / x) * besselKR (k + 1) x + besselKR k x := by
        field_simp; linarith
      have hc : 0 ≤ ((k:ℝ) + 1) * (2 / x) := by positivity
      rw [e2]
      generalize ((k:ℝ) + 1) * (2 / x) = c at hc
      have e3 : c * s2 + s1 - (c * besselKR (k + 1) x + besselKR k x) = c * (s2 - besselKR (k + 1) x) + (s1 - besselKR k x) := by ring
      rw [e3]
      refine (abs_add_le _ _).trans ?_
      rw [abs_mul, abs_of_nonneg hc]
      have := mul_le_mul_of_nonneg_left h2 hc
      linarith
  unfold Kn
  rcases n with _ | _ | n
  · simpa using k0_exact hx
  · simpa using k1_exact hx
  · have := (up (n + 1)).2
    simp only [Nat.add_eq_zero_iff, one_ne_zero, and_false, if_false, Nat.reduceEqDiff, Nat.add_one_sub_one]
    push_cast at *
    simpa [add_assoc] using this

variable [Libm F64]

/-- C75 in binary64: wherever the result is below `2^1000` and `x` is between `2^-960` and 680, `Kn(n, x)` is a finite number
with a relative error of at most `10^-12` plus `5n` half units in the last place, for every order `n : u32`.
Missing for the full property: `x > 680`, where `exp(-x)` loses digits to underflow, and values at the edge of overflow. -/
theorem Kn_accurate_partial (L : LibmUlp) {n : ℕ} (hn : n < 2 ^ 32) {x : F64} (h0 : 1 / 2 ^ 960 ≤ x.val) (h1 : x.val ≤ 680)
    (hK : besselKR n x.val ≤ 2 ^ 1000) :
    (Kn n x).isFin = true ∧ |(Kn n x).val - besselKR n x.val| ≤ (1e-12 + 5 * n / 2 ^ 53) * besselKR n x.val := by
  have hx : 0 < x.val := lt_of_lt_of_le (by positivity) h0
  have hp := K_pos hx n
  have fin : ∀ {ε : ℝ}, Rel (Kn n x) (besselKR n x.val) ε → ε ≤ 1e-12 + 5 * n / 2 ^ 53 →
      (Kn n x).isFin = true ∧ |(Kn n x).val - besselKR n x.val| ≤ (1e-12 + 5 * n / 2 ^ 53) * besselKR n x.val := by
    intro ε h he
    exact ⟨h.fin, (h.mono he).err⟩
  rcases n with _ | _ | n
  · refine fin (ε := 9.7e-13) ?_ (by norm_num)
    have := BesX.k0_acc L (le_trans (one_div_le_one_div_of_le (by positivity) (pow_le_pow_right₀ (by norm_num) (by norm_num))) h0) h1
    simpa [Kn] using this
  · refine fin (ε := 9.7e-13) ?_ (by norm_num)
    have := BesX.k1_acc L h0 h1
    simpa [Kn] using this
  · have h := (upK L h0 h1 (n + 1) (by omega) (by push_cast at *; exact hK)).2
    refine fin (ε := (1 + 9.7e-13) * om ^ (4 * (n + 1)) - 1) ?_ ?_
    · unfold Kn
      simp only [Nat.add_eq_zero_iff, one_ne_zero, and_false, if_false, Nat.reduceEqDiff, Nat.add_one_sub_one]
      push_cast at *
      exact h
    · have h4 : ((4 * (n + 1) : ℕ) : ℝ) ≤ 1e12 := by
        have : 4 * (n + 1) ≤ 2 ^ 35 := by omega
        have h : ((4 * (n + 1) : ℕ) : ℝ) ≤ ((2 ^ 35 : ℕ) : ℝ) := by exact_mod_cast this
        refine h.trans (by norm_num)
      have := om_le h4
      have hn0 : (0:ℝ) ≤ n := Nat.cast_nonneg n
      generalize om ^ (4 * (n + 1)) = w at *
      push_cast at *
      norm_num at *
      linarith

example : (letI := idealLibm; |(Kn 3 (2.0 : F64)).val - besselKR 3 2| ≤ 1.1e-12 * besselKR 3 2) := by
  let _ := idealLibm
  have e : (2.0 : F64).val = 2 := by rw [val_of_int (x := (2.0 : F64)) 2 (by decide +kernel)]; norm_num
  have hx : (0:ℝ) < 2 := by norm_num
  have r1 := K_rec hx 1
  have r2 := K_rec hx 2
  norm_num at r1 r2
  obtain ⟨s1, s2, s3⟩ := K_sandwich hx
  have hh : besselKR (1 / 2) 2 ≤ 1 := by
    rw [K_half hx]
    have a1 : √(π / (2 * 2)) ≤ 1 := by
      rw [Real.sqrt_le_left (by norm_num)]; have := Real.pi_lt_four; linarith
    have a2 : rexp (-2) ≤ 1 := Real.exp_le_one_iff.2 (by norm_num)
    exact mul_le_one₀ a1 (Real.exp_pos _).le a2
  have hk : besselKR 3 2 ≤ 16 := by
    have : besselKR (1 / 2) 2 / (2 * 2) ≤ 1 := by linarith
    linarith
  have h := (Kn_accurate_partial ideal_ulp (n := 3) (by norm_num) (x := (2.0 : F64)) (by
    rw [e, div_le_iff₀ (by positivity)]
    have : (1:ℝ) ≤ 2 ^ 960 := one_le_pow₀ (by norm_num)
    generalize (2:ℝ) ^ 960 = w at *
    linarith) (by rw [e]; norm_num) (by
      rw [e]; push_cast
      refine hk.trans ?_
      exact le_trans (by norm_num : (16:ℝ) ≤ 2 ^ 4) (pow_le_pow_right₀ (by norm_num) (by norm_num)))).2
  rw [e] at h
  push_cast at h
  refine h.trans (mul_le_mul_of_nonneg_right (by norm_num) (K_pos hx 3).le)

/-- the hypothesis of the theorem is met, and the bound is not vacuous: it pins `K_0(1)` to twelve digits -/
example : |Kn 0 (1:ℝ) - besselKR 0 1| ≤ 9e-13 * besselKR 0 1 := by
  have := Kn_exact_accurate 0 (x := 1) one_pos
  simpa using this

end Verif
