import Verif.Proofs.BesselIn2
import Verif.Props.BesselAcc

/-!
# C73: `In(n, ·)` for `n ≥ 2` (src/bessel.rs) in exact arithmetic

`besselIR n` (`Verif.SpecBessel`) is the modified Bessel function `I_n`.  The program runs a downward recurrence from the
order `m = 2(n + ⌊√(200n)⌋) - 1`.  That order depends on `n` only, so the result is accurate while `|x|` stays below the
starting order (`In_exact_accurate_partial`) and is wrong for large arguments (`In_exact_large_wrong`).
-/

namespace Verif
open Bes Real
variable [Cfg]

/-- C73, exact arithmetic.  `m` is the order from which the program starts; for `2 ≤ n ≤ 2·10⁹` and `|x| ≤ m - 20` the
value has relative error at most `6.2·10^-13`; the program's cut-off to zero costs at most `2^-1021`.
Missing for the full property: larger `|x|`, where the code is wrong (`In_exact_large_wrong`), and larger `n`, where the
starting order overflows. -/
theorem In_exact_accurate_partial (n m : ℕ) (x : ℝ) (h2 : 2 ≤ n) (hn : n ≤ 2000000000)
    (hm : m + 1 = 2 * (n + Nat.sqrt (200 * n))) (hx : |x| ≤ m - 20) : ∃ v, In n x = .ok v ∧
      |v - besselIR n x| ≤ 6.2e-13 * |besselIR n x| + 1 / 2 ^ 1021 ∧
      (8 / 2 ^ 1022 < x * x → |v - besselIR n x| ≤ 6.2e-13 * |besselIR n x|) := by
  have key : 8 / 2 ^ 1022 < x * x → ∃ v, In n x = .ok v ∧ |v - besselIR n x| ≤ 6.2e-13 * |besselIR n x| := by
    intro h0
    obtain ⟨b, hb⟩ := downward_exists (-1) x m
    refine ⟨_, In_rescaling n m x h2 hn h0 hm b hb, ?_⟩
    have hx0 : x ≠ 0 := by
      rintro rfl
      rw [mul_zero] at h0
      exact absurd h0 (not_lt.2 (by positivity))
    have hax := abs_pos.2 hx0
    have s20 := sqrt200 h2
    have hM := miller_I (n := n) (t := m - 20) hx0 hb (by omega) (by omega) (by omega) (by rw [Nat.cast_sub (by omega)]; exact_mod_cast hx)
    rw [show m - (m - 20) = 20 by omega] at hM
    have p0 := I_pos 0 hax
    have pn := I_pos n hax
    have hi : abs (i0 x - besselIR 0 |x|) ≤ 3e-13 * besselIR 0 |x| := by
      obtain ⟨v, hv, hv2, -⟩ := I0_exact_accurate x
      have e : v = i0 x := by injection hv with h; exact h.symm
      rw [I0_abs] at p0 ⊢
      rw [abs_of_pos p0, e] at hv2
      exact hv2
    have hc := in_combine (by positivity) p0.le hM hi
    rw [div_mul_cancel₀ _ p0.ne'] at hc
    have hfin : abs (b n / b 0 * i0 x - besselIR n |x|) ≤ 6.2e-13 * besselIR n |x| :=
      hc.trans (mul_le_mul_of_nonneg_right (by norm_num) pn.le)
    rw [I_parity n x]
    split_ifs
    · rw [neg_one_mul, neg_one_mul, ← neg_sub', abs_neg, abs_neg, abs_of_pos pn]; exact hfin
    · rw [one_mul, one_mul, abs_of_pos pn]; exact hfin
  by_cases h0 : 8 / 2 ^ 1022 < x * x
  · obtain ⟨v, hv, hv2⟩ := key h0
    exact ⟨v, hv, hv2.trans (le_add_of_nonneg_right (by positivity)), fun _ => hv2⟩
  · refine ⟨0, ?_, ?_, fun h => absurd h h0⟩
    · unfold In
      rw [if_neg (by omega), if_neg (by omega), if_pos (by
        show decide (x * x ≤ 8.0 * (1 / 2 ^ 1022 : ℝ)) = true
        rw [decide_eq_true_eq]
        refine (not_lt.1 h0).trans_eq ?_
        rw [show (8.0 : ℝ) = 8 by norm_num, mul_one_div])]
      norm_num
    · have h0' := not_lt.1 h0
      have hw : besselIR n |x| ≤ 1 / 2 ^ 1021 := by
        rcases eq_or_ne x 0 with rfl | hx0
        · rw [besselIR_eq, abs_zero, zero_div, zero_pow (by omega), zero_mul]; positivity
        · have hs : |x| * |x| = x * x := abs_mul_abs_self x
          have := I_tiny h2 (abs_pos.2 hx0) (by
            rw [hs]; refine h0'.trans ?_
            rw [div_le_one (by positivity)]
            calc (8:ℝ) = 2 ^ 3 := by norm_num
              _ ≤ 2 ^ 1022 := pow_le_pow_right₀ (by norm_num) (by norm_num))
          rw [hs] at this
          refine this.trans ?_
          have e : (8:ℝ) / 2 ^ 1022 = 4 * (1 / 2 ^ 1021) := by rw [show (1022:ℕ) = 1021 + 1 from rfl, pow_succ]; field_simp; norm_num
          rw [e] at h0'
          linarith
      have hp : |besselIR n x| = abs (besselIR n |x|) := by
        rw [I_parity n x, abs_mul]
        split_ifs <;> simp
      have hnn : 0 ≤ besselIR n |x| := by
        rcases eq_or_ne x 0 with rfl | hx0
        · rw [besselIR_eq, abs_zero, zero_div, zero_pow (by omega), zero_mul]
        · exact (I_pos n (abs_pos.2 hx0)).le
      rw [zero_sub, abs_neg, hp, abs_of_nonneg hnn]
      have : 0 ≤ 6.2e-13 * besselIR n |x| := by positivity
      linarith

/-- C73: the restriction on `|x|` is needed.  For every `x ≥ 690` the value for order 3 is at least 1.9 percent too large;
it even exceeds `I_0(x)`. -/
theorem In_exact_large_wrong (x : ℝ) (hx : 690 ≤ x) : ∃ v, In 3 x = .ok v ∧ 1.019 * besselIR 3 x ≤ v ∧ besselIR 0 x < v := by
  obtain ⟨b, hb⟩ := downward_exists (-1) x 53
  have hsq : Nat.sqrt (200 * 3) = 24 := (Nat.eq_sqrt.2 (by decide)).symm
  have hx0 : 0 < x := by linarith
  have h0 : 8 / 2 ^ 1022 < x * x := small_lt_one.trans_le (by nlinarith)
  refine ⟨_, In_rescaling 3 53 x (by decide) (by decide) h0 (by rw [hsq]) b hb, ?_⟩
  rw [if_neg (by intro h; linarith [h.1]), one_mul]
  have hr := in3_ratio hx hb
  have hb0 : 0 < b 0 := down_pos hx0.ne' hb 53 0 (by norm_num)
  have hr2 : 1.02 ≤ b 3 / b 0 := by rw [le_div_iff₀ hb0]; exact hr
  have p0 := I_pos 0 hx0
  have p3 := I_pos 3 hx0
  have h3 : besselIR 3 x ≤ besselIR 0 x := (I_anti 2 hx0.le).trans ((I_anti 1 hx0.le).trans (I_anti 0 hx0.le))
  have hi : (1 - 3e-13) * besselIR 0 x ≤ i0 x := by
    have := (abs_le.1 (i0_right (x := x) (by rw [abs_of_pos hx0]; linarith))).1
    linarith
  have hv : 1.02 * ((1 - 3e-13) * besselIR 0 x) ≤ b 3 / b 0 * i0 x :=
    mul_le_mul hr2 hi (mul_nonneg (by norm_num) p0.le) (by linarith)
  norm_num at *
  constructor <;> linarith

/-- order 5, argument 40: the starting order is 71 -/
example : ∃ v, In 5 (40:ℝ) = .ok v ∧ |v - besselIR 5 40| ≤ 6.2e-13 * |besselIR 5 40| := by
  have hsq : Nat.sqrt (200 * 5) = 31 := (Nat.eq_sqrt.2 (by decide)).symm
  obtain ⟨v, hv, -, h⟩ := In_exact_accurate_partial 5 71 40 (by decide) (by decide) (by rw [hsq]) (by rw [abs_of_pos] <;> norm_num)
  exact ⟨v, hv, h (small_lt_one.trans_le (by norm_num))⟩

end Verif
