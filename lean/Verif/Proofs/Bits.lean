import Verif.Model.Utils
import Verif.F64.Ops

/-! Bit-field lemmas for `frexp`, `ldexp` and the cache keys. -/

namespace Verif
namespace F64

theorem toBits_toNat (x : F64) : x.toBits.toNat = (if x.neg then 2^63 else 0) + x.mag := by
  have := x.isLt
  unfold toBits
  rw [BitVec.toNat_ofNat]
  apply Nat.mod_eq_of_lt
  split <;> omega

theorem ofBits_toBits (x : F64) : ofBits x.toBits = x := by
  have := x.isLt
  apply ext'
  · show decide (2^63 ≤ x.toBits.toNat) = x.neg
    rw [toBits_toNat]
    cases h : x.neg
    · simp only [Bool.false_eq_true, if_false, decide_eq_false_iff_not]; omega
    · simp only [if_true, decide_eq_true_eq]; omega
  · show x.toBits.toNat % 2^63 = x.mag
    rw [toBits_toNat]
    split <;> omega

theorem toBits_ofBits (b : BitVec 64) : (ofBits b).toBits = b := by
  apply BitVec.eq_of_toNat_eq
  rw [toBits_toNat]
  have := b.isLt
  show (if decide (2^63 ≤ b.toNat) = true then 2^63 else 0) + b.toNat % 2^63 = b.toNat
  simp only [decide_eq_true_eq]
  split <;> omega

theorem toBits_injective : Function.Injective toBits := fun a b h => by
  rw [← ofBits_toBits a, h, ofBits_toBits]

theorem signBit (x : F64) : (x.toBits >>> 63) ≠ 0#64 ↔ x.neg = true := by
  have := x.isLt
  rw [ne_eq, ← BitVec.toNat_inj, BitVec.toNat_ushiftRight, Nat.shiftRight_eq_div_pow, toBits_toNat]
  cases h : x.neg
  · simp; omega
  · simp

theorem expField (x : F64) : ((x.toBits >>> 52) &&& 0x7ff#64).toNat = x.mag / 2^52 := by
  have := x.isLt
  rw [BitVec.toNat_and, BitVec.toNat_ushiftRight, Nat.shiftRight_eq_div_pow, toBits_toNat]
  have : (0x7ff#64).toNat = 2^11 - 1 := by decide
  rw [this, Nat.and_two_pow_sub_one_eq_mod]
  split <;> omega

theorem fracField (x : F64) : (x.toBits &&& 0xfffffffffffff#64).toNat = x.mag % 2^52 := by
  have := x.isLt
  rw [BitVec.toNat_and, toBits_toNat]
  have : (0xfffffffffffff#64).toNat = 2^52 - 1 := by decide
  rw [this, Nat.and_two_pow_sub_one_eq_mod]
  split <;> omega

theorem or_add (k f : Nat) (hf : f < 2^52) : f ||| (k * 2^52) = k * 2^52 + f := by
  rw [Nat.or_comm, Nat.mul_comm, ← Nat.two_pow_add_eq_or_of_lt hf]

theorem mant_bits (x : F64) :
    ofBits ((x.toBits &&& 0xfffffffffffff#64) ||| 0x3fe0000000000000#64) =
      ⟨false, 0x3fe * 2^52 + x.mag % 2^52, by omega⟩ := by
  have h : ((x.toBits &&& 0xfffffffffffff#64) ||| 0x3fe0000000000000#64).toNat = 0x3fe * 2^52 + x.mag % 2^52 := by
    rw [BitVec.toNat_or, fracField]
    have : (0x3fe0000000000000#64).toNat = 0x3fe * 2^52 := by decide
    rw [this, or_add _ _ (by omega)]
  apply ext'
  · show decide (2^63 ≤ _) = false
    rw [h]; simp only [decide_eq_false_iff_not]; omega
  · show _ % 2^63 = _
    rw [h]; apply Nat.mod_eq_of_lt; omega

theorem keep_bits (x : F64) :
    (x.toBits &&& 0x800fffffffffffff#64).toNat = (if x.neg then 2^63 else 0) + x.mag % 2^52 := by
  have hx := x.isLt
  have e : x.toBits &&& 0x800fffffffffffff#64 =
      (x.toBits &&& 0x8000000000000000#64) ||| (x.toBits &&& 0xfffffffffffff#64) := by
    rw [← BitVec.and_or_distrib_left]; rfl
  have e2 : (x.toBits &&& 0x8000000000000000#64).toNat = if x.neg then 2^63 else 0 := by
    have e3 : x.toBits &&& 0x8000000000000000#64 = (x.toBits >>> 63) <<< 63 := by
      apply BitVec.eq_of_getLsbD_eq
      intro i hi
      simp only [BitVec.getLsbD_and, BitVec.getLsbD_shiftLeft, BitVec.getLsbD_ushiftRight]
      have : (0x8000000000000000#64).getLsbD i = decide (i = 63) := by
        revert i; decide
      rw [this]
      by_cases h : i = 63
      · subst h; simp
      · have : i < 63 := by omega
        simp [h, this]
    rw [e3, BitVec.toNat_shiftLeft, BitVec.toNat_ushiftRight, Nat.shiftRight_eq_div_pow, toBits_toNat,
      Nat.shiftLeft_eq]
    split <;> omega
  rw [e, BitVec.toNat_or, fracField, e2]
  split
  · have := Nat.two_pow_add_eq_or_of_lt (i := 63) (b := x.mag % 2^52) (by omega) 1
    rw [Nat.mul_one] at this
    exact this.symm
  · simp

theorem ldexp_bits (x : F64) (k : Nat) (hk : k ≤ 0x7ff) :
    ofBits ((x.toBits &&& 0x800fffffffffffff#64) ||| (BitVec.ofNat 64 k <<< 52)) =
      ⟨x.neg, k * 2^52 + x.mag % 2^52, by omega⟩ := by
  have hsh : (BitVec.ofNat 64 k <<< 52).toNat = k * 2^52 := by
    rw [BitVec.toNat_shiftLeft, BitVec.toNat_ofNat, Nat.shiftLeft_eq]; omega
  have h : ((x.toBits &&& 0x800fffffffffffff#64) ||| (BitVec.ofNat 64 k <<< 52)).toNat =
      (if x.neg then 2^63 else 0) + (k * 2^52 + x.mag % 2^52) := by
    rw [BitVec.toNat_or, keep_bits, hsh]
    have hf : x.mag % 2^52 < 2^52 := by omega
    split
    · have e1 : 2^63 + x.mag % 2^52 = 2^63 ||| (x.mag % 2^52) := by
        have := Nat.two_pow_add_eq_or_of_lt (i := 63) (b := x.mag % 2^52) (by omega) 1
        rwa [Nat.mul_one] at this
      rw [e1, Nat.or_assoc, or_add _ _ hf]
      have := Nat.two_pow_add_eq_or_of_lt (i := 63) (b := k * 2^52 + x.mag % 2^52) (by omega) 1
      rw [Nat.mul_one] at this
      exact this.symm
    · rw [Nat.zero_add, Nat.zero_add, or_add _ _ hf]
  apply ext'
  · show decide (2^63 ≤ _) = x.neg
    rw [h]
    cases x.neg
    · simp only [Bool.false_eq_true, if_false, decide_eq_false_iff_not]; omega
    · simp only [if_true, decide_eq_true_eq]; omega
  · show _ % 2^63 = _
    rw [h]
    show _ = k * 2^52 + x.mag % 2^52
    split <;> omega

end F64
end Verif
