import Verif.Proofs.Bits

/-! Helper lemmas for src/utils.rs -/

namespace Verif
namespace F64

/-- the value of an encoding with non-zero exponent field -/
theorem val_enc (s : Bool) (E f : Nat) (hE : 1 ≤ E) (hf : f < 2^52) (h : E * 2^52 + f < 2^63) :
    (⟨s, E * 2^52 + f, h⟩ : F64).val = (if s then -1 else 1) * ((2^52 + f : ℕ) : ℝ) * (2:ℝ)^((E:ℤ) - 1075) := by
  rw [val_eq]
  have e : E * 2^52 + f = (E - 1) * 2^52 + (2^52 + f) := by
    obtain ⟨k, rfl⟩ : ∃ k, E = k + 1 := ⟨E - 1, by omega⟩
    simp only [Nat.add_sub_cancel]; ring
  have e2 : iv (E * 2^52 + f) = (2^52 + f) * 2^(E-1) := by
    rw [e]; exact iv_eq (Or.inr (by omega)) (by omega)
  have e3 : ((iv (E * 2^52 + f) : ℕ) : ℝ) / 2^1074 = ((2^52 + f : ℕ) : ℝ) * (2:ℝ)^((E:ℤ) - 1075) := by
    rw [e2, Nat.cast_mul, Nat.cast_pow, Nat.cast_ofNat, mul_div_assoc]
    congr 1
    rw [← zpow_natCast, ← zpow_natCast, ← zpow_sub₀ (by norm_num)]
    congr 1
    have : ((E - 1 : ℕ) : ℤ) = (E:ℤ) - 1 := by omega
    rw [this]; push_cast; ring
  show (if s = true then _ else _) = _
  rw [e3]
  cases s
  · rw [if_neg (by simp), if_neg (by simp), one_mul]
  · rw [if_pos rfl, if_pos rfl, mul_assoc, neg_one_mul]

theorem val_normal {x : F64} (hm : 2^52 ≤ x.mag) :
    x.val = (if x.neg then -1 else 1) * ((2^52 + x.mag % 2^52 : ℕ) : ℝ) * (2:ℝ)^(((x.mag / 2^52 : ℕ):ℤ) - 1075) := by
  have hlt := x.isLt
  have hd : (x.mag / 2^52) * 2^52 + x.mag % 2^52 = x.mag := by omega
  have hxe : (⟨x.neg, (x.mag / 2^52) * 2^52 + x.mag % 2^52, by omega⟩ : F64) = x := ext' rfl hd
  have := val_enc x.neg (x.mag / 2^52) (x.mag % 2^52) (by omega) (by omega) (by omega)
  rw [hxe] at this
  exact this

theorem abs_ite_sgn (s : Bool) : |(if s = true then (-1:ℝ) else 1)| = 1 := by split <;> simp

/-- normal numbers: exponent field not zero -/
theorem normal_iff {x : F64} : (2:ℝ)^(-1022 : ℤ) ≤ |x.val| ↔ 2^52 ≤ x.mag := by
  rw [abs_val]
  have e : (2:ℝ)^(-1022 : ℤ) = (iv (2^52) : ℝ) / 2^1074 := by
    have : iv (2^52) = 2^52 := by
      have := iv_eq (k := 0) (m := 2^52) (Or.inl rfl) (by norm_num)
      simpa using this
    rw [this, Nat.cast_pow, Nat.cast_ofNat, ← zpow_natCast, ← zpow_natCast, ← zpow_sub₀ (by norm_num)]
    norm_num
  rw [e]
  exact ivU_mono

theorem one_val : (1.0 : F64).val = 1 := by
  have h : (1.0 : F64) = ⟨false, 0x3ff * 2^52 + 0, by decide⟩ := by decide +kernel
  rw [h, val_enc _ _ _ (by decide) (by decide)]
  norm_num

theorem zero_lit : (0.0 : F64) = zero := by decide +kernel

theorem mone_mul (a : F64) (ha : a.isFin = true) : (-1.0 : F64) * a = -a := by
  have h1 : (1.0:F64).isFin = true := by decide +kernel
  have hs : (1.0 * a : F64) = a := by
    obtain ⟨h, hv, hn⟩ := mul_spec h1 ha
    apply eq_of_val
    · rw [hv, one_val, one_mul, RN_val (isFin_notNaN ha)]
    · rw [hn]; have : (1.0:F64).neg = false := by decide +kernel
      rw [this]; cases a.neg <;> rfl
  rw [mul_neg_left]
  · rw [hs]
  · rw [hs]; exact isFin_notNaN ha

theorem one_mul' (a : F64) (ha : a.isFin = true) : (1.0 : F64) * a = a := by
  have h1 : (1.0:F64).isFin = true := by decide +kernel
  obtain ⟨h, hv, hn⟩ := mul_spec h1 ha
  apply eq_of_val
  · rw [hv, one_val, one_mul, RN_val (isFin_notNaN ha)]
  · rw [hn]; have : (1.0:F64).neg = false := by decide +kernel
    rw [this]; cases a.neg <;> rfl

theorem eq_zero_iff {x : F64} : F64.eq x 0.0 = true ↔ x.isZero = true := by
  rw [zero_lit, eq_iff]
  constructor
  · rintro ⟨h1, _, h3⟩
    rw [← val_eq_zero, h3, zero_val]
  · intro h
    exact ⟨isFin_notNaN (isZero_fin h), rfl, by rw [val_eq_zero.2 h, zero_val]⟩

/-- `frexp` in closed form -/
theorem frexp_eq {x : F64} (h : x.isZero = false) :
    frexp x = ((⟨x.neg, 0x3fe * 2^52 + x.mag % 2^52, by omega⟩ : F64), ((x.mag / 2^52 : ℕ) : Int) - 1022) := by
  unfold frexp
  have h0 : ¬ (x.eq 0.0 = true) := by rw [eq_zero_iff, h]; simp
  rw [if_neg h0]
  simp only [expField, mant_bits]
  have hfin : (⟨false, 0x3fe * 2^52 + x.mag % 2^52, by omega⟩ : F64).isFin = true := by
    rw [isFin_iff]; show 0x3fe * 2^52 + x.mag % 2^52 < INFMAG; simp only [INFMAG]; omega
  refine Prod.ext ?_ ?_
  · show (if (x.toBits >>> 63) ≠ 0#64 then -1.0 else 1.0) * _ = _
    by_cases hn : x.neg = true
    · rw [if_pos ((signBit x).2 hn), mone_mul _ hfin]
      apply ext'
      · rw [hn]; rfl
      · rfl
    · rw [if_neg (fun hh => hn ((signBit x).1 hh)), one_mul' _ hfin]
      apply ext'
      · show false = x.neg
        cases hx : x.neg
        · rfl
        · exact absurd hx hn
      · rfl
  · show (((x.mag / 2^52 : ℕ) : Int) - 1023) + 1 = ((x.mag / 2^52 : ℕ) : Int) - 1022
    omega

/-- `ldexp` in closed form -/
theorem ldexp_eq {x : F64} {k : Int} (h : x.isZero = false) (hk : k ≠ 0)
    (h1 : 0 ≤ (x.mag / 2^52 : ℕ) + k) (h2 : (x.mag / 2^52 : ℕ) + k ≤ 0x7ff) :
    ldexp x k = ⟨x.neg, ((x.mag / 2^52 : ℕ) + k).toNat * 2^52 + x.mag % 2^52, by omega⟩ := by
  unfold ldexp
  have h0 : ¬ ((x.eq 0.0 || decide (k = 0)) = true) := by
    simp only [Bool.or_eq_true, eq_zero_iff, h, decide_eq_true_eq, hk]; simp
  rw [if_neg h0]
  simp only [expField]
  rw [if_neg (by push Not; exact ⟨h1, h2⟩), ldexp_bits _ _ (by omega)]

theorem ldexp_out {x : F64} {k : Int} (h : x.isZero = false) (hk : k ≠ 0)
    (hr : ¬ (0 ≤ (x.mag / 2^52 : ℕ) + k ∧ (x.mag / 2^52 : ℕ) + k ≤ 0x7ff)) :
    ldexp x k = sinf x.neg := by
  unfold ldexp
  have h0 : ¬ ((x.eq 0.0 || decide (k = 0)) = true) := by
    simp only [Bool.or_eq_true, eq_zero_iff, h, decide_eq_true_eq, hk]; simp
  rw [if_neg h0]
  simp only [expField]
  rw [if_pos hr]
  by_cases hn : x.neg = true
  · rw [if_pos ((signBit x).2 hn), hn]; rfl
  · rw [if_neg (fun hh => hn ((signBit x).1 hh))]; rw [Bool.not_eq_true] at hn; rw [hn]; rfl

/-- without `i32` overflow, the checked model of `ldexp` is the plain one -/
theorem ldexpM_eq [Cfg] {x : F64} {k : Int} (h : -(2^31:ℤ) ≤ k) (h2 : k < 2^31 - 2048) : ldexpM x k = .ok (ldexp x k) := by
  unfold ldexpM ldexp
  split
  · rfl
  · have hx := x.isLt
    have hb : (((x.toBits >>> 52) &&& 0x7ff#64).toNat : ℤ) + k ≤ 2^31 - 1 := by rw [expField]; omega
    have hw : wrapS I32_MAX ((((x.toBits >>> 52) &&& 0x7ff#64).toNat : ℤ) + k) =
        .ok ((((x.toBits >>> 52) &&& 0x7ff#64).toNat : ℤ) + k) := by
      unfold wrapS
      rw [if_pos]
      simp only [I32_MAX]
      constructor
      · push_cast; omega
      · push_cast; omega
    simp only [hw]
    show (if _ then _ else _ : M F64) = _
    split <;> rfl

end F64
end Verif
