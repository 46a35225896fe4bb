import Verif.Spec
import Verif.Proofs.Factorial

/-!
# Properties of `factorial` (src/utils.rs): C05–C07

`Nat.factorial` is Mathlib's factorial.  `n + 60 ≤ usize::MAX` leaves out the 60 largest arguments, for which the block counter
`k += m` can overflow (`factorial_max_panics`).
-/

namespace Verif
open F64

/-! ## C05 -/

/-- C05: in exact arithmetic the blocked product is the factorial, for every `n`. -/
theorem factorial_exact [Cfg] (n : Nat) (hn : n + 60 ≤ USIZE_MAX) :
    Returns (factorial (α := ℝ) n) (Nat.factorial n : ℝ) := by
  have h := rf_real (1.0 : ℝ) n (by
    intro k _ hk
    have := rfM_real_bounds (n := n) (by omega)
    omega)
  unfold factorial Returns
  rw [h, ← Finset.prod_range_add_one_eq_factorial, Nat.cast_prod]
  congr 1
  refine Finset.prod_congr rfl fun i _ => ?_
  push_cast; norm_num [add_comm]

/-- C05: in exact arithmetic `rising_factorial(z, n)`, from which `factorial` is built, is `z(z+1)…(z+n-1)`. -/
theorem rising_factorial_exact [Cfg] (z : ℝ) (n : Nat) (hn : n + 60 ≤ USIZE_MAX) :
    Returns (risingFactorial z n) (∏ i ∈ Finset.range n, (z + i)) := by
  exact rf_real z n (by
    intro k _ hk
    have := rfM_real_bounds (n := n) (by omega)
    omega)

/-- C05 fails at `usize::MAX` (with overflow checks): the block counter overflows and the call panics. -/
theorem factorial_max_panics [Cfg] (hc : Cfg.checks = true) : Panics (factorial (α := F64) USIZE_MAX) := by
  unfold factorial risingFactorial
  have hm : rfM F64 USIZE_MAX = 60 := by decide +kernel
  rw [hm]
  refine rfLoop_over hc (1.0 : F64) USIZE_MAX 60 (by norm_num) ⟨18446744073709551600, by decide, by decide, by decide⟩
    (USIZE_MAX + 1) 0 1.0 (dvd_zero _) (by decide) (by decide)

example : (170 : Nat) + 60 ≤ USIZE_MAX ∧ (10^18 : Nat) + 60 ≤ USIZE_MAX := by decide

/-! ## C06 -/

/-- C06: relative error at most `2^-50` for every `n ≤ 170`. -/
theorem factorial_accurate [Cfg] (n : Nat) (hn : n ≤ 170) :
    ∃ v : F64, Returns (factorial n) v ∧ v.isFin = true ∧ |v.val - Nat.factorial n| ≤ Nat.factorial n * 2^(-50 : ℤ) := by
  obtain ⟨v, h1, h2, h3⟩ := factTable_correct (n := n) (by omega)
  have h := List.all_eq_true.1 factTable_err n (List.mem_range.2 (by omega))
  rw [← h3, Bool.and_eq_true, decide_eq_true_iff, decide_eq_true_iff] at h
  refine ⟨v, h1, isFin_iff.2 h.2, ?_⟩
  rw [val_pos_form h2]
  have hle := h.1
  generalize Nat.factorial n = F at *
  have h4 := (Nat.cast_le (α := ℝ)).2 hle
  rw [Nat.cast_mul, Nat.cast_mul, Nat.cast_pow, Nat.cast_pow, Nat.cast_ofNat, Nat.cast_natAbs] at h4
  rw [Int.cast_abs, Int.cast_sub, Int.cast_mul, Int.cast_pow, Int.cast_ofNat, Int.cast_natCast, Int.cast_natCast] at h4
  have hU := U_pos
  generalize (2:ℝ)^1074 = U at *
  have e : (iv v.mag : ℝ) / U - F = ((iv v.mag : ℝ) - F * U) / U := by
    rw [sub_div, mul_div_cancel_right₀ _ hU.ne']
  rw [e, abs_div, abs_of_pos hU, div_le_iff₀ hU]
  have e2 : (2:ℝ)^(-50:ℤ) = (2^50)⁻¹ := by rw [zpow_neg, zpow_ofNat]
  rw [e2, mul_right_comm, ← div_eq_mul_inv, le_div_iff₀ (by positivity)]
  exact h4

/-- C06: `factorial(n)` is exactly `n!` for `n ≤ 22`. -/
theorem factorial_small [Cfg] (n : Nat) (hn : n ≤ 22) :
    ∃ v : F64, Returns (factorial n) v ∧ v.isFin = true ∧ v.val = Nat.factorial n := by
  obtain ⟨v, h1, h2, h3⟩ := factTable_correct (n := n) (by omega)
  have h := List.all_eq_true.1 factTable_err n (List.mem_range.2 (by omega))
  rw [← h3, Bool.and_eq_true, decide_eq_true_iff, decide_eq_true_iff] at h
  refine ⟨v, h1, isFin_iff.2 h.2, ?_⟩
  have h' := List.all_eq_true.1 factTable_exact n (List.mem_range.2 (by omega))
  rw [← h3, decide_eq_true_iff] at h'
  rw [val_pos_form h2, h', Nat.cast_mul, Nat.cast_pow, Nat.cast_ofNat, mul_div_cancel_right₀ _ U_pos.ne']

/-- C06: `factorial(n)` is `+∞` for every `n ≥ 171`. -/
theorem factorial_inf [Cfg] (n : Nat) (h1 : 171 ≤ n) (hn : n + 60 ≤ USIZE_MAX) : Returns (factorial n) F64.inf := by
  obtain ⟨v, hv, hnan, hge, hlow⟩ := factorial_f64_lower n hn
  rw [min_eq_left (prod_ge h1)] at hlow
  unfold Returns
  rw [hv]
  congr 1
  refine eq_of_val_ne ?_ (by linarith)
  rw [inf_val]
  exact le_antisymm (by rw [← RN_val hnan]; exact RN_le_inf _) hlow

/-! ## C07 -/

/-- C07: `1 ≤ factorial(n) ≤ factorial(n+1)` and never NaN. -/
theorem factorial_mono [Cfg] (n : Nat) (hn : n + 61 ≤ USIZE_MAX) :
    ∃ v w : F64, Returns (factorial n) v ∧ Returns (factorial (n+1)) w ∧
      v.isNaN = false ∧ w.isNaN = false ∧ 1 ≤ v.val ∧ v.val ≤ w.val := by
  obtain ⟨v, v1, v2, v3, _⟩ := factorial_f64_lower n (by omega)
  obtain ⟨w, w1, w2, w3, _⟩ := factorial_f64_lower (n+1) (by omega)
  refine ⟨v, w, v1, w1, v2, w2, v3, ?_⟩
  rcases Nat.lt_or_ge n 170 with h | h
  · obtain ⟨v', a1, a2, a3⟩ := factTable_correct (n := n) (by omega)
    obtain ⟨w', b1, b2, b3⟩ := factTable_correct (n := n+1) (by omega)
    rw [v1] at a1; rw [w1] at b1
    cases a1; cases b1
    have h' := List.all_eq_true.1 factTable_mono n (List.mem_range.2 h)
    rw [decide_eq_true_iff, ← a3, ← b3] at h'
    rw [val_pos_form a2, val_pos_form b2]
    exact ivU_mono.2 h'
  · have := factorial_inf (n+1) (by omega) (by omega)
    unfold Returns at this
    rw [w1] at this
    cases this
    rw [inf_val, ← RN_val v2]; exact RN_le_inf _

end Verif
