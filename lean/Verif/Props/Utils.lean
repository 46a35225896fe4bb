import Verif.Spec
import Verif.Proofs.Utils

/-!
# Properties of src/utils.rs: C01–C04
-/

namespace Verif
open F64

/-! ## C01 `frexp` -/

/-- C01 (restricted to normal numbers; missing: subnormal numbers, for which the claim is false, see
`frexp_subnormal_wrong`). -/
theorem frexp_exact_partial (x : F64) (hx : x.Normal) :
    1/2 ≤ |(F64.frexp x).1.val| ∧ |(F64.frexp x).1.val| < 1 ∧ (F64.frexp x).1.isFin = true ∧
    x.val = (F64.frexp x).1.val * (2:ℝ)^(F64.frexp x).2 ∧ (F64.frexp x).1.neg = x.neg := by
  obtain ⟨hf, hn⟩ := hx
  have hm := normal_iff.1 hn
  have hmag := isFin_iff.1 hf
  have hz : x.isZero = false := by
    rw [← val_ne_zero]; intro h; rw [h, abs_zero] at hn
    exact absurd hn (not_le.2 (by positivity))
  have hfr : x.mag % 2^52 < 2^52 := Nat.mod_lt _ (by decide)
  rw [frexp_eq hz]
  have hv := val_normal hm
  have hmv := val_enc x.neg 0x3fe (x.mag % 2^52) (by decide) hfr (by omega)
  have hc : (2:ℝ)^((0x3fe:ℤ) - 1075) = 1 / 2^53 := by norm_num [zpow_neg]
  have hb1 : (2^52 : ℝ) ≤ ((2^52 + x.mag % 2^52 : ℕ) : ℝ) := by
    have : 2^52 ≤ 2^52 + x.mag % 2^52 := by omega
    exact_mod_cast this
  have hb2 : ((2^52 + x.mag % 2^52 : ℕ) : ℝ) < 2^53 := by
    have : 2^52 + x.mag % 2^52 < 2^53 := by omega
    exact_mod_cast this
  have habs : |(⟨x.neg, 0x3fe * 2^52 + x.mag % 2^52, by omega⟩ : F64).val| = ((2^52 + x.mag % 2^52 : ℕ) : ℝ) / 2^53 := by
    rw [hmv, abs_mul, abs_mul, abs_of_pos (zpow_pos (by norm_num : (0:ℝ) < 2) _), Nat.abs_cast]
    have : |(if x.neg = true then (-1:ℝ) else 1)| = 1 := by split <;> simp
    rw [this, one_mul]
    show _ * (2:ℝ)^((0x3fe:ℤ) - 1075) = _
    rw [hc]; ring
  refine ⟨?_, ?_, ?_, ?_, rfl⟩
  · rw [habs, le_div_iff₀ (by positivity)]; norm_num at hb1 ⊢
  · rw [habs, div_lt_one (by positivity)]; exact hb2
  · rw [isFin_iff]; show 0x3fe * 2^52 + x.mag % 2^52 < INFMAG; simp only [INFMAG]; omega
  · rw [hv, hmv, mul_assoc _ ((2:ℝ)^_) ((2:ℝ)^_), ← zpow_add₀ (by norm_num)]
    congr 2
    push_cast; ring

/-- the hypothesis is met: `1.5` and the largest finite number are normal -/
example : (1.5 : F64).Normal := ⟨by decide +kernel, normal_iff.2 (by decide +kernel)⟩
example : (⟨true, 0x7fefffffffffffff, by decide⟩ : F64).Normal := ⟨by decide +kernel, normal_iff.2 (by decide +kernel)⟩

/-- C01: `frexp(±0) = (0, 0)` -/
theorem frexp_zero (x : F64) (hx : x.val = 0) : F64.frexp x = (0.0, 0) := by
  unfold F64.frexp
  rw [if_pos (eq_zero_iff.2 (val_eq_zero.1 hx))]

/-- C01 fails for every non-zero subnormal number: the two results do not multiply back to `x`. -/
theorem frexp_subnormal_wrong (x : F64) (h0 : x.val ≠ 0) (hs : |x.val| < (2:ℝ)^(-1022 : ℤ)) :
    (F64.frexp x).1.val * (2:ℝ)^(F64.frexp x).2 ≠ x.val := by
  have hm : x.mag < 2^52 := by
    by_contra h; exact absurd (normal_iff.2 (not_lt.1 h)) (not_le.2 hs)
  have hz : x.isZero = false := val_ne_zero.1 h0
  have hfr : x.mag % 2^52 < 2^52 := Nat.mod_lt _ (by decide)
  rw [frexp_eq hz, val_enc x.neg 0x3fe (x.mag % 2^52) (by decide) hfr (by omega)]
  intro h
  have h2 := congrArg (fun r : ℝ => |r|) h
  simp only at h2
  rw [abs_val, iv_small hm, abs_mul, abs_mul, abs_mul, Nat.abs_cast,
    abs_of_pos (zpow_pos (by norm_num : (0:ℝ) < 2) _), abs_of_pos (zpow_pos (by norm_num : (0:ℝ) < 2) _)] at h2
  have : |(if x.neg = true then (-1:ℝ) else 1)| = 1 := by split <;> simp
  rw [this, one_mul, mul_assoc, ← zpow_add₀ (by norm_num)] at h2
  have e1 : x.mag / 2^52 = 0 := by omega
  have e2 : x.mag % 2^52 = x.mag := by omega
  simp only [e1, e2] at h2
  have e3 : (((0x3fe : ℕ) : ℤ) - 1075 + (((0 : ℕ) : ℤ) - 1022)) = -1 + -((1074 : ℕ) : ℤ) := by norm_num
  rw [e3, zpow_add₀ (by norm_num), zpow_neg, zpow_neg, zpow_natCast, div_eq_mul_inv] at h2
  have h3 : ((2^52 + x.mag : ℕ) : ℝ) * (2:ℝ)⁻¹ = x.mag := by
    have hu : (0:ℝ) < (2^1074)⁻¹ := inv_pos.2 U_pos
    rw [zpow_one, ← mul_assoc] at h2
    exact mul_right_cancel₀ hu.ne' h2
  have h4 : ((2^52 + x.mag : ℕ) : ℝ) = ((2 * x.mag : ℕ) : ℝ) := by
    push_cast at h3 ⊢; linarith
  have h5 := Nat.cast_injective h4
  omega

/-- such numbers exist: the smallest positive `f64` -/
example : ∃ x : F64, x.isFin = true ∧ x.val ≠ 0 ∧ |x.val| < (2:ℝ)^(-1022 : ℤ) :=
  ⟨⟨false, 1, by decide⟩, by decide, val_ne_zero.2 (by decide),
    not_le.1 (fun h => absurd (normal_iff.1 h) (by decide))⟩

/-! ## C02 `ldexp` -/

/-- C02 (first half; the second half, "an infinity only on overflow", is false, see `ldexp_underflow_wrong`):
for normal `x` and `x·2^k` the result is exact. -/
theorem ldexp_exact_partial (x : F64) (k : ℤ) (hx : x.Normal)
    (h1 : (2:ℝ)^(-1022 : ℤ) ≤ |x.val * (2:ℝ)^k|) (h2 : |x.val * (2:ℝ)^k| < HUGE) :
    (F64.ldexp x k).val = x.val * (2:ℝ)^k ∧ (F64.ldexp x k).isFin = true ∧ (F64.ldexp x k).neg = x.neg := by
  obtain ⟨hf, hn⟩ := hx
  by_cases hk : k = 0
  · subst hk
    have : F64.ldexp x 0 = x := by unfold F64.ldexp; simp
    rw [this]; simp [hf]
  have hm := normal_iff.1 hn
  have hmag := isFin_iff.1 hf
  have hz : x.isZero = false := by
    rw [← val_ne_zero]; intro h; rw [h, abs_zero] at hn
    exact absurd hn (not_le.2 (by positivity))
  have hfr : x.mag % 2^52 < 2^52 := Nat.mod_lt _ (by decide)
  have hv := val_normal hm
  have habs : |x.val * (2:ℝ)^k| = ((2^52 + x.mag % 2^52 : ℕ) : ℝ) * (2:ℝ)^(((x.mag / 2^52 : ℕ):ℤ) + k - 1075) := by
    rw [hv, abs_mul, abs_mul, abs_mul, abs_of_pos (zpow_pos (by norm_num : (0:ℝ) < 2) _),
      abs_of_pos (zpow_pos (by norm_num : (0:ℝ) < 2) _), Nat.abs_cast]
    have : |(if x.neg = true then (-1:ℝ) else 1)| = 1 := by split <;> simp
    rw [this, one_mul, mul_assoc, ← zpow_add₀ (by norm_num)]
    congr 2; ring
  have hb1 : ((2:ℝ)^(52:ℤ)) ≤ ((2^52 + x.mag % 2^52 : ℕ) : ℝ) := by
    have : 2^52 ≤ 2^52 + x.mag % 2^52 := by omega
    exact_mod_cast this
  have hb2 : ((2^52 + x.mag % 2^52 : ℕ) : ℝ) < (2:ℝ)^(53:ℤ) := by
    have : 2^52 + x.mag % 2^52 < 2^53 := by omega
    exact_mod_cast this
  have hlo : 1 ≤ ((x.mag / 2^52 : ℕ):ℤ) + k := by
    rw [habs] at h1
    have h3 : (2:ℝ)^(-1022:ℤ) < (2:ℝ)^(53 + (((x.mag / 2^52 : ℕ):ℤ) + k - 1075)) := by
      rw [zpow_add₀ (by norm_num : (2:ℝ) ≠ 0)]
      exact lt_of_le_of_lt h1 (mul_lt_mul_of_pos_right hb2 (zpow_pos (by norm_num) _))
    have := (zpow_lt_zpow_iff_right₀ (by norm_num : (1:ℝ) < 2)).1 h3
    omega
  have hhi : ((x.mag / 2^52 : ℕ):ℤ) + k ≤ 0x7fe := by
    rw [habs, HUGE_eq, ← zpow_natCast] at h2
    have h3 : (2:ℝ)^(52 + (((x.mag / 2^52 : ℕ):ℤ) + k - 1075)) < (2:ℝ)^((1024:ℕ):ℤ) := by
      rw [zpow_add₀ (by norm_num : (2:ℝ) ≠ 0)]
      exact lt_of_le_of_lt (mul_le_mul_of_nonneg_right hb1 (zpow_pos (by norm_num) _).le) h2
    have := (zpow_lt_zpow_iff_right₀ (by norm_num : (1:ℝ) < 2)).1 h3
    omega
  rw [ldexp_eq hz hk (by omega) (by omega)]
  have hE : ((((x.mag / 2^52 : ℕ):ℤ) + k).toNat : ℤ) = ((x.mag / 2^52 : ℕ):ℤ) + k := Int.toNat_of_nonneg (by omega)
  refine ⟨?_, ?_, rfl⟩
  · rw [val_enc _ _ _ (by omega) hfr, hv, hE, mul_assoc _ ((2:ℝ)^_) ((2:ℝ)^_), ← zpow_add₀ (by norm_num)]
    congr 2; ring
  · rw [isFin_iff]
    show (((x.mag / 2^52 : ℕ):ℤ) + k).toNat * 2^52 + x.mag % 2^52 < INFMAG
    simp only [INFMAG]; omega

/-- the hypotheses are met: `ldexp(1.5, -512)` -/
example : (1.5 : F64).Normal ∧ (2:ℝ)^(-1022 : ℤ) ≤ |(1.5:F64).val * (2:ℝ)^(-512:ℤ)| ∧
    |(1.5:F64).val * (2:ℝ)^(-512:ℤ)| < HUGE := by
  have hn : (1.5 : F64).Normal := ⟨by decide +kernel, normal_iff.2 (by decide +kernel)⟩
  have hv : (1.5 : F64).val = 3/2 := by
    have : (1.5 : F64) = ⟨false, 0x3ff * 2^52 + 2^51, by decide⟩ := by decide +kernel
    rw [this, val_enc _ _ _ (by decide) (by decide)]; norm_num
  refine ⟨hn, ?_, ?_⟩
  · rw [hv, abs_mul, abs_of_pos (zpow_pos (by norm_num : (0:ℝ) < 2) _)]
    have h2 : (2:ℝ)^(-1022:ℤ) ≤ (2:ℝ)^(-512:ℤ) := zpow_le_zpow_right₀ (by norm_num) (by norm_num)
    have h3 : (0:ℝ) < (2:ℝ)^(-512:ℤ) := zpow_pos (by norm_num) _
    rw [abs_of_pos (by norm_num)]; linarith
  · rw [hv, abs_mul, abs_of_pos (zpow_pos (by norm_num : (0:ℝ) < 2) _), abs_of_pos (by norm_num)]
    have h2 : (2:ℝ)^(-512:ℤ) ≤ (2:ℝ)^(0:ℤ) := zpow_le_zpow_right₀ (by norm_num) (by norm_num)
    rw [zpow_zero] at h2
    have := HUGE_ge
    have h4 : (10:ℝ) ≤ 10^200 := by
      calc (10:ℝ) = 10^1 := by norm_num
        _ ≤ 10^200 := pow_le_pow_right₀ (by norm_num) (by norm_num)
    linarith

/-- C02, second half, is false: for normal `x`, whenever `|x·2^k| < 2^-1023` (a deep underflow) `ldexp` returns an *infinity*. -/
theorem ldexp_underflow_wrong (x : F64) (k : ℤ) (hx : x.Normal) (h : |x.val * (2:ℝ)^k| < (2:ℝ)^(-1023 : ℤ)) :
    (F64.ldexp x k).isInf = true := by
  obtain ⟨hf, hn⟩ := hx
  have hm := normal_iff.1 hn
  have hz : x.isZero = false := by
    rw [← val_ne_zero]; intro h; rw [h, abs_zero] at hn
    exact absurd hn (not_le.2 (by positivity))
  have hfr : x.mag % 2^52 < 2^52 := Nat.mod_lt _ (by decide)
  have hv := val_normal hm
  have habs : |x.val * (2:ℝ)^k| = ((2^52 + x.mag % 2^52 : ℕ) : ℝ) * (2:ℝ)^(((x.mag / 2^52 : ℕ):ℤ) + k - 1075) := by
    rw [hv, abs_mul, abs_mul, abs_mul, abs_of_pos (zpow_pos (by norm_num : (0:ℝ) < 2) _),
      abs_of_pos (zpow_pos (by norm_num : (0:ℝ) < 2) _), Nat.abs_cast]
    have : |(if x.neg = true then (-1:ℝ) else 1)| = 1 := by split <;> simp
    rw [this, one_mul, mul_assoc, ← zpow_add₀ (by norm_num)]
    congr 2; ring
  have hb1 : ((2:ℝ)^(52:ℤ)) ≤ ((2^52 + x.mag % 2^52 : ℕ) : ℝ) := by
    have : 2^52 ≤ 2^52 + x.mag % 2^52 := by omega
    exact_mod_cast this
  have hlo : ((x.mag / 2^52 : ℕ):ℤ) + k < 0 := by
    rw [habs] at h
    have h3 : (2:ℝ)^(52 + (((x.mag / 2^52 : ℕ):ℤ) + k - 1075)) < (2:ℝ)^(-1023:ℤ) := by
      rw [zpow_add₀ (by norm_num : (2:ℝ) ≠ 0)]
      exact lt_of_le_of_lt (mul_le_mul_of_nonneg_right hb1 (zpow_pos (by norm_num) _).le) h
    have := (zpow_lt_zpow_iff_right₀ (by norm_num : (1:ℝ) < 2)).1 h3
    omega
  have hk : k ≠ 0 := by rintro rfl; omega
  rw [ldexp_out hz hk (by omega)]
  exact sinf_isInf _

/-- an instance: `ldexp(1.0, -1024)` is `+inf` -/
example : F64.ldexp 1.0 (-1024) = F64.inf := by decide +kernel
/-- the boundary `2^-1023`, where the result is a zero, and an overflow that yields NaN instead of an infinity -/
example : F64.ldexp 1.0 (-1023) = F64.zero := by decide +kernel
theorem ldexp_overflow_nan : (F64.ldexp 1.5 1024).isNaN = true := by decide +kernel

/-! ## C03 -/

/-- C03, for every value of the type except `-0.0` (whose sign is lost): also subnormals, infinities and NaN come back bit for bit. -/
theorem ldexp_frexp (x : F64) (h : x ≠ F64.nzero) : F64.ldexp (F64.frexp x).1 (F64.frexp x).2 = x := by
  have hx := x.isLt
  by_cases hz : x.isZero = true
  · have hx0 : x = F64.zero := by
      have h1 := isZero_cases hz
      cases hn : x.neg
      · rw [h1, hn]; rfl
      · exact absurd (by rw [h1, hn]; rfl) h
    rw [frexp_zero x (val_eq_zero.2 hz), hx0]; decide +kernel
  · rw [Bool.not_eq_true] at hz
    rw [frexp_eq hz]
    by_cases hk : ((x.mag / 2^52 : ℕ):ℤ) - 1022 = 0
    · unfold F64.ldexp
      rw [if_pos (by rw [Bool.or_eq_true]; right; exact decide_eq_true hk)]
      refine ext' ?_ ?_
      · rfl
      show 0x3fe * 2^52 + x.mag % 2^52 = x.mag
      omega
    · have hd : (0x3fe * 2^52 + x.mag % 2^52) / 2^52 = 0x3fe := by omega
      have hm : (0x3fe * 2^52 + x.mag % 2^52) % 2^52 = x.mag % 2^52 := by omega
      rw [ldexp_eq (by rw [← Bool.not_eq_true, isZero_iff]; show ¬ (0x3fe * 2^52 + x.mag % 2^52 = 0); omega) hk
        (by show 0 ≤ (((0x3fe * 2^52 + x.mag % 2^52) / 2^52 : ℕ) : ℤ) + _; rw [hd]; omega)
        (by show (((0x3fe * 2^52 + x.mag % 2^52) / 2^52 : ℕ) : ℤ) + _ ≤ _; rw [hd]; omega)]
      refine ext' ?_ ?_
      · rfl
      show ((((0x3fe * 2^52 + x.mag % 2^52) / 2^52 : ℕ) : ℤ) + (((x.mag / 2^52 : ℕ):ℤ) - 1022)).toNat * 2^52 +
        (0x3fe * 2^52 + x.mag % 2^52) % 2^52 = x.mag
      rw [hd, hm]; omega

/-- the exception is real: the sign of `-0.0` is lost -/
theorem ldexp_frexp_nzero : F64.ldexp (F64.frexp F64.nzero).1 (F64.frexp F64.nzero).2 = F64.zero := by decide +kernel

/-! ## C04 `sign` -/

/-- C04: `sign(a, b)` is `a` with the sign bit of `b`, for all bit patterns. -/
theorem sign_spec (a b : F64) : (sign a b).mag = a.mag ∧ (sign a b).neg = b.neg := by
  unfold sign
  show ((if (!b.neg) = true then a.abs else -a.abs) : F64).mag = a.mag ∧
    ((if (!b.neg) = true then a.abs else -a.abs) : F64).neg = b.neg
  cases b.neg <;> exact ⟨rfl, rfl⟩

/-- C04, as values: `|sign(a,b)| = |a|` and the result is ≥ 0 / ≤ 0 according to the sign bit of `b` -/
theorem sign_val (a b : F64) : |(sign a b).val| = |a.val| ∧
    (b.neg = false → 0 ≤ (sign a b).val) ∧ (b.neg = true → (sign a b).val ≤ 0) := by
  obtain ⟨h1, h2⟩ := sign_spec a b
  refine ⟨by rw [abs_val, abs_val, h1], fun h => ?_, fun h => ?_⟩
  · rw [← h2] at h; exact val_nonneg_of_neg h
  · rw [← h2] at h; exact val_nonpos_of_neg h

example : sign (3.0 : F64) (F64.nzero) = -3.0 := by decide +kernel

end Verif
