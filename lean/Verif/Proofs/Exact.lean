import Verif.Proofs.Interval
import Verif.Proofs.Inst
import Verif.Spec

/-!
# Exact floating-point operations

Finite values as `m·2^e`; exactness of `z-1` and `z+1` away from zero; the difference of two
finite numbers is zero only if they are equal; `fract` vanishes exactly at the integers.
-/

namespace Verif
open F64

/-- Every finite magnitude is `m·2^k` with a 53-bit `m`, normalised unless `k = 0`. -/
theorem iv_decomp (n : Nat) : ∃ m k : Nat, iv n = m * 2^k ∧ m < 2^53 ∧ (k = 0 ∨ 2^52 ≤ m) := by
  rw [iv_def]
  have hm : n % 2^52 < 2^52 := Nat.mod_lt _ (by norm_num)
  split
  · exact ⟨n % 2^52, 0, by simp, by omega, Or.inl rfl⟩
  · exact ⟨2^52 + n % 2^52, n / 2^52 - 1, rfl, by omega, Or.inr (by omega)⟩

/-- `|x| = m·2^e` for every `f64`. -/
theorem val_decomp (a : F64) : ∃ (m : ℕ) (e : ℤ), |a.val| = (m:ℝ) * 2^e ∧ m < 2^53 ∧ -1074 ≤ e ∧ (e = -1074 ∨ 2^52 ≤ m) := by
  obtain ⟨m, k, h1, h2, h3⟩ := iv_decomp a.mag
  refine ⟨m, (k:ℤ) - 1074, ?_, h2, by omega, ?_⟩
  · rw [abs_val, h1, Nat.cast_mul, Nat.cast_pow, Nat.cast_ofNat, zpow_sub₀ (by norm_num), zpow_natCast, zpow_ofNat, mul_div_assoc]
  · rcases h3 with h | h
    · left; omega
    · right; exact h

theorem RN_sub_one_aux {m : ℕ} {e : ℤ} (hm : m < 2^53) (he : -1074 ≤ e) (hn : e = -1074 ∨ 2^52 ≤ m)
    (h1 : 1 ≤ (m:ℝ) * 2^e) (h2 : (m:ℝ) * 2^e < 2^53) : RN ((m:ℝ) * 2^e - 1) = (m:ℝ) * 2^e - 1 := by
  rcases le_or_gt 0 e with h0 | h0
  · obtain ⟨k, rfl⟩ := Int.eq_ofNat_of_zero_le h0
    have e1 : (m:ℝ) * 2^((k:ℕ):ℤ) - 1 = ((m * 2^k - 1 : ℤ) : ℝ) := by
      rw [zpow_natCast]; push_cast; ring
    rw [e1]
    refine RN_int _ ?_
    have h3 : (m:ℝ) * 2^k < 2^53 := by rwa [zpow_natCast] at h2
    have h4 : (1:ℝ) ≤ (m:ℝ) * 2^k := by rwa [zpow_natCast] at h1
    have h3' : m * 2^k < 2^53 := by exact_mod_cast h3
    have h4' : 1 ≤ m * 2^k := by exact_mod_cast h4
    have h5 : ((m * 2^k : ℕ) : ℤ) = (m:ℤ) * 2^k := by push_cast; ring
    rw [abs_le]; rw [← h5]; constructor <;> omega
  · obtain ⟨k, hk⟩ := Int.eq_ofNat_of_zero_le (by omega : 0 ≤ -e)
    have hek : e = -(k:ℤ) := by omega
    subst hek
    have hp : (0:ℝ) < 2^k := by positivity
    have e1 : (m:ℝ) * 2^(-(k:ℤ)) - 1 = ((m - 2^k : ℤ) : ℝ) * 2^(-(k:ℤ)) := by
      rw [zpow_neg, zpow_natCast]; push_cast
      field_simp
    have h4 : (2:ℝ)^k ≤ m := by
      rw [zpow_neg, zpow_natCast, ← div_eq_mul_inv, le_div_iff₀ hp, one_mul] at h1
      exact h1
    have h4' : 2^k ≤ m := by exact_mod_cast h4
    rw [e1]
    have h5 : ((2^k : ℕ) : ℤ) = (2:ℤ)^k := by push_cast; ring
    refine RN_dyadic _ _ ?_ he ?_
    · have h6 : 0 < 2^k := by positivity
      rw [abs_le]; rw [← h5]; generalize 2^k = K at *; constructor <;> omega
    · rw [← e1, abs_of_nonneg (by linarith)]
      have := HUGE_ge
      have h6 : (2:ℝ)^53 ≤ 10^200 := by norm_num
      linarith

/-- `z - 1` is exact for `1 ≤ z < 2^53`. -/
theorem RN_sub_one {a : F64} (h1 : 1 ≤ a.val) (h2 : a.val < 2^53) : RN (a.val - 1) = a.val - 1 := by
  obtain ⟨m, e, h, hm, he, hn⟩ := val_decomp a
  rw [abs_of_nonneg (by linarith)] at h
  rw [h] at h1 h2 ⊢
  exact RN_sub_one_aux hm he hn h1 h2

/-- `z + 1` is exact for `-2^53 < z ≤ -1`. -/
theorem RN_add_one {a : F64} (h1 : a.val ≤ -1) (h2 : -2^53 < a.val) : RN (a.val + 1) = a.val + 1 := by
  have h := RN_sub_one (a := -a) (by rw [val_neg]; linarith) (by rw [val_neg]; linarith)
  rw [val_neg] at h
  have e : a.val + 1 = -(-a.val - 1) := by ring
  rw [e, RN_neg, h]

theorem tiny_val : (⟨false, 1, by decide⟩ : F64).val = 1 / 2^1074 := by
  rw [val_pos_form rfl]
  have : iv 1 = 1 := by decide +kernel
  simp only [this, Nat.cast_one]

/-- a non-zero multiple of the smallest subnormal does not round to zero -/
theorem RN_units_eq_zero {i : ℤ} (h : RN ((i:ℝ) / 2^1074) = 0) : i = 0 := by
  by_contra hi
  have hU := U_pos
  rcases lt_or_gt_of_ne hi with hneg | hpos
  · have h1 : (1:ℝ) ≤ ((-i : ℤ):ℝ) := by exact_mod_cast (by omega : (1:ℤ) ≤ -i)
    have h2 : (⟨false, 1, by decide⟩ : F64).val ≤ RN (-((i:ℝ) / 2^1074)) := by
      refine le_RN_of_le (by decide) ?_
      rw [tiny_val, ← neg_div]
      apply div_le_div_of_nonneg_right _ hU.le
      rw [Int.cast_neg] at h1; exact h1
    rw [RN_neg, h, tiny_val] at h2
    have : (0:ℝ) < 1 / 2^1074 := by positivity
    linarith
  · have h1 : (1:ℝ) ≤ (i:ℝ) := by exact_mod_cast (by omega : (1:ℤ) ≤ i)
    have h2 : (⟨false, 1, by decide⟩ : F64).val ≤ RN ((i:ℝ) / 2^1074) := by
      refine le_RN_of_le (by decide) ?_
      rw [tiny_val]
      exact div_le_div_of_nonneg_right h1 hU.le
    rw [h, tiny_val] at h2
    have : (0:ℝ) < 1 / 2^1074 := by positivity
    linarith

/-- gradual underflow: a sum of two finite numbers rounds to zero only if it is zero -/
theorem RN_add_eq_zero {a b : F64} : RN (a.val + b.val) = 0 ↔ a.val + b.val = 0 := by
  constructor
  · intro h
    have e : a.val + b.val = ((a.sv + b.sv : ℤ) : ℝ) / 2^1074 := by
      unfold F64.val; rw [Int.cast_add, add_div]
    rw [e] at h ⊢
    rw [RN_units_eq_zero h]; simp
  · intro h; rw [h, RN_zero]

theorem RN_sub_eq_zero {a b : F64} : RN (a.val - b.val) = 0 ↔ a.val = b.val := by
  have h := RN_add_eq_zero (a := a) (b := -b)
  rw [val_neg, ← sub_eq_add_neg] at h
  rw [h, sub_eq_zero]

/-- a rounded sum of floats has the strict sign of the exact sum -/
theorem RN_add_pos {a b : F64} (h : 0 < a.val + b.val) : 0 < RN (a.val + b.val) :=
  lt_of_le_of_ne (RN_nonneg h.le) fun e => h.ne' (RN_add_eq_zero.1 e.symm)

theorem zero_val : (0.0 : F64).val = 0 := by
  rw [val_eq_zero]; decide +kernel
theorem one_val : (1.0 : F64).val = 1 := by
  have := val_of_int (x := (1.0 : F64)) 1 (by decide +kernel)
  rw [this]; norm_num
theorem zero_fin : (0.0 : F64).isFin = true := by decide +kernel
theorem one_fin : (1.0 : F64).isFin = true := by decide +kernel

/-- `x == 0.0` -/
theorem eq_zero_iff {a : F64} : F64.eq a 0.0 = true ↔ a.isZero = true := by
  rw [eq_iff, zero_val, val_eq_zero]
  constructor
  · exact fun h => h.2.2
  · exact fun h => ⟨isFin_notNaN (isZero_fin h), isFin_notNaN zero_fin, h⟩

theorem trunc_val_eq_iff {a : F64} (ha : a.isFin = true) : a.val = (trunc a).val ↔ ∃ i : ℤ, a.val = i := by
  rw [(trunc_spec ha).2.2]
  constructor
  · intro h
    rcases hn : a.neg with _ | _
    · rw [hn] at h; exact ⟨⌊|a.val|⌋₊, by rw [h]; simp⟩
    · rw [hn] at h; exact ⟨-⌊|a.val|⌋₊, by rw [h]; simp⟩
  · rintro ⟨i, hi⟩
    have h1 : |a.val| = (i.natAbs : ℝ) := by rw [hi, Nat.cast_natAbs, Int.cast_abs]
    have h2 := sgn_abs_val a
    rw [h1] at h2
    rw [h1, Nat.floor_natCast, h2]

/-- `fract(z) == 0.0` exactly for the finite integers -/
theorem fract_eq_zero {a : F64} : F64.eq (F64.fract a) 0.0 = true ↔ a.IsInt := by
  rcases cases3 a with h | h | h
  · have hf : F64.fract a = nan := by
      show a - trunc a = nan
      exact sub_nan_left h
    rw [hf]
    constructor
    · intro hc; exact absurd hc (by decide +kernel)
    · intro hc; have := isFin_notNaN hc.1; rw [h] at this; cases this
  · have ht : trunc a = a := by unfold trunc; rw [isInf_notFin h]; rfl
    have hf : F64.fract a = nan := by
      show a - trunc a = nan
      rw [ht, sub_eq]
      refine add_inf_nan h ?_ ?_
      · rw [isInf_iff] at h ⊢; exact h
      · show a.neg ≠ !a.neg
        cases a.neg <;> decide
    rw [hf]
    constructor
    · intro hc; exact absurd hc (by decide +kernel)
    · intro hc; have := isInf_notFin h; rw [hc.1] at this; cases this
  · have hs := sub_spec h (trunc_spec h).1
    have hf : F64.fract a = a - trunc a := rfl
    rw [hf, eq_iff, zero_val, hs.2, RN_sub_eq_zero, trunc_val_eq_iff h]
    unfold F64.IsInt
    constructor
    · exact fun hc => ⟨h, hc.2.2⟩
    · exact fun hc => ⟨hs.1, isFin_notNaN zero_fin, hc.2⟩

end Verif
