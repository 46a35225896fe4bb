import Verif.Proofs.BesselJn
import Verif.Proofs.BesselF4
import Verif.Proofs.BesselInF4

/-! The upward recurrence of `Jn` in binary64. -/

namespace Verif
namespace BesX
open Real F64 Bes

/-- rounding with a simple absolute bound -/
theorem rn_abs {y c : ℝ} (h : |y| ≤ c) (h1 : 1 ≤ c) (h2 : c ≤ 2 ^ 100) : |RN y - y| ≤ 1.01 * c / 2 ^ 53 := by
  have hH : |y| < HUGE := by
    rw [HUGE_eq]
    exact lt_of_le_of_lt (h.trans h2) (pow_lt_pow_right₀ (by norm_num) (by norm_num))
  refine (RN_err' hH).trans ?_
  have e : (1:ℝ) / 2 ^ 1075 ≤ 0.01 * 1 / 2 ^ 53 := by
    rw [div_le_div_iff₀ (by positivity) (by positivity)]
    have : (2:ℝ) ^ 1075 = 2 ^ 53 * 2 ^ 1022 := by rw [← pow_add]
    rw [this]
    have : (100:ℝ) ≤ 2 ^ 1022 := le_trans (by norm_num) (pow_le_pow_right₀ (by norm_num) (by norm_num : 7 ≤ 1022))
    generalize (2:ℝ) ^ 1022 = P at *
    norm_num
    linarith only [this]
  have e2 : |y| / 2 ^ 53 ≤ c / 2 ^ 53 := div_le_div_of_nonneg_right h (by positivity)
  have e3 : 0.01 * 1 / 2 ^ 53 ≤ 0.01 * c / 2 ^ 53 := div_le_div_of_nonneg_right (by norm_num; linarith) (by positivity)
  generalize (1:ℝ) / 2 ^ 1075 = w at *
  have e4 : 1.01 * c / 2 ^ 53 = c / 2 ^ 53 + 0.01 * c / 2 ^ 53 := by ring
  linarith

theorem up_coef {ax : F64} {k : ℕ} (hf : ax.isFin = true) (hk : k + 1 ≤ 2 ^ 32) (hX : ((k + 1 : ℕ) : ℝ) ≤ ax.val) :
    (F64.ofNat (k + 1) * (2.0 / ax)).isFin = true ∧ |(F64.ofNat (k + 1) * (2.0 / ax)).val - (k + 1 : ℕ) * (2 / ax.val)| ≤ 5 / 2 ^ 53 := by
  have hX0 : 0 < ax.val := lt_of_lt_of_le (by positivity) hX
  have hX1 : 1 ≤ ax.val := le_trans (by push_cast; linarith [(Nat.cast_nonneg k : (0:ℝ) ≤ k)]) hX
  obtain ⟨kf, kv⟩ := ofNat_val (n := k + 1) (hk.trans (by norm_num))
  have v2 : (2.0 : F64).val = 2 := by rw [val_of_int (x := (2.0 : F64)) 2 (by decide +kernel)]; norm_num
  have hd := (div_spec (a := (2.0 : F64)) (by decide +kernel) hf hX0.ne').2.1
  rw [v2] at hd
  have q0 : 0 < 2 / ax.val := by positivity
  have q1 : 2 / ax.val ≤ 2 := by rw [div_le_iff₀ hX0]; linarith
  have k0 : (1:ℝ) ≤ (k + 1 : ℕ) := by push_cast; linarith [(Nat.cast_nonneg k : (0:ℝ) ≤ k)]
  have k32 : ((k + 1 : ℕ):ℝ) ≤ 2 ^ 32 := by exact_mod_cast hk
  have kq : ((k + 1 : ℕ):ℝ) * (2 / ax.val) ≤ 2 := by
    rw [← mul_div_assoc, div_le_iff₀ hX0]; linarith
  have hH : |2 / ax.val| < HUGE := by
    rw [HUGE_eq, abs_of_pos q0]
    exact lt_of_le_of_lt q1 (by have := pow_lt_pow_right₀ (by norm_num : (1:ℝ) < 2) (by norm_num : 1 < 1024); simpa using this)
  have r1 := RN_err' hH
  rw [← hd, abs_of_pos q0] at r1
  have tf : (2.0 / ax).isFin = true := by
    refine isFin_of_abs (b := 3) ?_ (by norm_num)
    rw [hd]
    have := rn_abs (y := 2 / ax.val) (c := 2) (by rw [abs_of_pos q0]; exact q1) (by norm_num) (by norm_num)
    rw [abs_le] at this ⊢
    norm_num at this ⊢
    constructor <;> linarith [this.1, this.2]
  have w : ((k + 1 : ℕ):ℝ) * (1 / 2 ^ 1075) ≤ 0.01 / 2 ^ 53 := by
    have : (1:ℝ) / 2 ^ 1075 ≤ 1 / 2 ^ 100 := one_div_le_one_div_of_le (by positivity) (pow_le_pow_right₀ (by norm_num) (by norm_num))
    refine (mul_le_mul k32 this (by positivity) (by positivity)).trans (by norm_num)
  generalize (1:ℝ) / 2 ^ 1075 = η at *
  have r2 : |((k + 1 : ℕ):ℝ) * (2.0 / ax).val - (k + 1 : ℕ) * (2 / ax.val)| ≤ 2.01 / 2 ^ 53 := by
    rw [← mul_sub, abs_mul, abs_of_pos (by linarith)]
    refine (mul_le_mul_of_nonneg_left r1 (by linarith)).trans ?_
    rw [mul_add, ← mul_div_assoc]
    have : ((k + 1 : ℕ):ℝ) * (2 / ax.val) / 2 ^ 53 ≤ 2 / 2 ^ 53 := div_le_div_of_nonneg_right kq (by positivity)
    norm_num at this w ⊢
    linarith
  have hm := (mul_spec kf tf).2.1
  rw [kv] at hm
  have b1 : |((k + 1 : ℕ):ℝ) * (2.0 / ax).val| ≤ 2.1 := by
    have h0 : 0 ≤ ((k + 1 : ℕ):ℝ) * (2 / ax.val) := by positivity
    clear hm
    generalize ((k + 1 : ℕ):ℝ) * (2 / ax.val) = C at *
    generalize ((k + 1 : ℕ):ℝ) * (2.0 / ax).val = D at *
    rw [abs_le] at r2 ⊢
    norm_num at r2 ⊢
    constructor <;> linarith [r2.1, r2.2]
  have r3 := rn_abs b1 (by norm_num) (by norm_num)
  rw [← hm] at r3
  have r4 := abs_sub_le ((F64.ofNat (k + 1) * (2.0 / ax)).val) (((k + 1 : ℕ):ℝ) * (2.0 / ax).val) (((k + 1 : ℕ):ℝ) * (2 / ax.val))
  constructor
  · refine isFin_of_abs (b := 3) ?_ (by norm_num)
    rw [abs_le] at b1 r3 ⊢
    norm_num at b1 r3 ⊢
    constructor <;> linarith [r3.1, r3.2, b1.1, b1.2]
  · norm_num at r2 r3 r4 ⊢
    linarith

theorem up_step {ax a b : F64} {k : ℕ} {B : ℝ} (hf : ax.isFin = true) (hk : k + 1 ≤ 2 ^ 32) (hX : ((k + 1 : ℕ) : ℝ) ≤ ax.val)
    (ha : |a.val| ≤ B) (hb : |b.val| ≤ B) (B1 : 1 ≤ B) (B2 : B ≤ 2 ^ 60) :
    (F64.ofNat (k + 1) * (2.0 / ax) * b - a).isFin = true ∧
    |(F64.ofNat (k + 1) * (2.0 / ax) * b - a).val - ((k + 1 : ℕ) * (2 / ax.val) * b.val - a.val)| ≤ 12 * B / 2 ^ 53 := by
  obtain ⟨cf, cv⟩ := up_coef hf hk hX
  have hX0 : 0 < ax.val := lt_of_lt_of_le (by positivity) hX
  have kq : ((k + 1 : ℕ):ℝ) * (2 / ax.val) ≤ 2 := by
    rw [← mul_div_assoc, div_le_iff₀ hX0]; linarith
  have kq0 : 0 ≤ ((k + 1 : ℕ):ℝ) * (2 / ax.val) := by positivity
  generalize ((k + 1 : ℕ):ℝ) * (2 / ax.val) = C at *
  generalize F64.ofNat (k + 1) * (2.0 / ax) = c at *
  have B200 : B ≤ 10 ^ 200 := B2.trans (by norm_num)
  have af : a.isFin = true := isFin_of_abs ha B200
  have bf : b.isFin = true := isFin_of_abs hb B200
  have c1 : |c.val| ≤ 2.01 := by
    rw [abs_le] at cv ⊢; norm_num at cv ⊢; constructor <;> linarith [cv.1, cv.2]
  have hp := (mul_spec cf bf).2.1
  have m1 : |c.val * b.val| ≤ 2.01 * B := by
    rw [abs_mul]; exact mul_le_mul c1 hb (abs_nonneg _) (by norm_num)
  have r1 := rn_abs m1 (by norm_num; linarith) (by norm_num at B2 ⊢; linarith)
  rw [← hp] at r1
  have m2 : |(c * b).val| ≤ 2.02 * B := by
    rw [abs_le] at m1 r1 ⊢
    norm_num at m1 r1 ⊢
    constructor <;> linarith [m1.1, m1.2, r1.1, r1.2]
  have pf : (c * b).isFin = true := isFin_of_abs m2 (by norm_num at B2 ⊢; linarith)
  have hq := (sub_spec pf af).2
  have m3 : |(c * b).val - a.val| ≤ 3.02 * B := by
    rw [abs_le] at m2 ha ⊢
    norm_num at m2 ha ⊢
    constructor <;> linarith [m2.1, m2.2, ha.1, ha.2]
  have r2 := rn_abs m3 (by norm_num; linarith) (by norm_num at B2 ⊢; linarith)
  rw [← hq] at r2
  have r3 : |(c.val - C) * b.val| ≤ 5 / 2 ^ 53 * B := by
    rw [abs_mul]; exact mul_le_mul cv hb (abs_nonneg _) (by positivity)
  constructor
  · refine isFin_of_abs (b := 4 * B) ?_ (by norm_num at B2 ⊢; linarith)
    rw [abs_le] at m3 r2 ⊢
    norm_num at m3 r2 ⊢
    constructor <;> linarith [m3.1, m3.2, r2.1, r2.2]
  · have e : (c * b - a).val - (C * b.val - a.val) = ((c * b - a).val - ((c * b).val - a.val)) + ((c * b).val - c.val * b.val) + (c.val - C) * b.val := by ring
    rw [e]
    refine (abs_add_three _ _ _).trans ?_
    norm_num at r1 r2 r3 ⊢
    linarith

/-- the sequence computed by the upward recurrence -/
def upSeq (tox a b : F64) : ℕ → F64
  | 0 => a
  | k + 1 => (upMinus tox a b k).2

theorem upSeq_fst (tox a b : F64) : ∀ k, (upMinus tox a b k).1 = upSeq tox a b k
  | 0 => rfl
  | _ + 1 => rfl

theorem upSeq_succ (tox a b : F64) (k : ℕ) : upSeq tox a b (k + 2) = F64.ofNat (k + 1) * tox * upSeq tox a b (k + 1) - upSeq tox a b k := by
  rw [← upSeq_fst tox a b k]; rfl

theorem ratio_mono {X : ℝ} {k n : ℕ} (h : k ≤ n) (hn : (n:ℝ) ≤ X) : (X + 1) / (X - k + 1) ≤ (X + 1) / (X - n + 1) := by
  have h' : (k:ℝ) ≤ n := by exact_mod_cast h
  exact div_le_div_of_nonneg_left (by linarith [(Nat.cast_nonneg n : (0:ℝ) ≤ n)]) (by linarith) (by linarith)

theorem ratio_ge_one {X : ℝ} {n : ℕ} (hn : (n:ℝ) ≤ X) : 1 ≤ (X + 1) / (X - n + 1) := by
  rw [one_le_div (by linarith)]
  linarith [(Nat.cast_nonneg n : (0:ℝ) ≤ n)]

/-- no term of the recurrence exceeds `2.84ρ` -/
theorem up_bound {ax a b : F64} {n : ℕ} {ρ : ℝ} (hf : ax.isFin = true) (hn32 : n ≤ 2 ^ 32) (hX : (n:ℝ) ≤ ax.val) (ha : |a.val| ≤ 1) (hb : |b.val| ≤ 1)
    (hX1 : 1 ≤ ax.val) (hρ : ρ = (ax.val + 1) / (ax.val - n + 1)) (hs : n * ρ ≤ 2 ^ 45) :
    ∀ k, k ≤ n → |(upSeq (2.0 / ax) a b k).val| ≤ 2.84 * ρ := by
  have ρ1 : 1 ≤ ρ := hρ ▸ ratio_ge_one hX
  intro k
  induction k using Nat.strong_induction_on with
  | _ k ih =>
    intro hk
    rcases k with _ | _ | k
    · exact ha.trans (by norm_num; linarith)
    · exact hb.trans (by norm_num; linarith)
    · have hρ60 : 2.84 * ρ ≤ 2 ^ 60 := by
        have : (1:ℝ) ≤ n := by exact_mod_cast (by omega : 1 ≤ n)
        norm_num at hs ⊢
        nlinarith
      have hkX : ((k + 2 : ℕ):ℝ) ≤ ax.val := le_trans (by exact_mod_cast hk) hX
      have h := up_error (x := ax.val) (δ := 12 * (2.84 * ρ) / 2 ^ 53) (N := 1.42 * 1) (e := fun i => (upSeq (2.0 / ax) a b i).val) (n := k + 2)
        (by linarith) (by omega) hkX (EQ_zero_le ha hb) (by positivity) (by
          intro i hi
          show _root_.abs ((upSeq _ a b (i + 2)).val - _) ≤ _
          rw [upSeq_succ]
          refine (up_step hf (by omega) (le_trans (by exact_mod_cast (by omega)) hX) (ih i (by omega) (by omega)) (ih (i + 1) (by omega) (by omega)) (by norm_num; linarith) hρ60).2)
      refine h.trans ?_
      have h1 : (ax.val + 1) / (ax.val - (k + 2 : ℕ) + 1) ≤ ρ := hρ ▸ ratio_mono hk hX
      have h2 : ((k + 2 : ℕ):ℝ) * (12 * (2.84 * ρ) / 2 ^ 53) ≤ 1.42 := by
        have : ((k + 2 : ℕ):ℝ) * ρ ≤ n * ρ := mul_le_mul_of_nonneg_right (by exact_mod_cast hk) (by linarith)
        have e : ((k + 2 : ℕ):ℝ) * (12 * (2.84 * ρ) / 2 ^ 53) = ((k + 2 : ℕ):ℝ) * ρ * (12 * 2.84 / 2 ^ 53) := by ring
        rw [e]
        refine (mul_le_mul_of_nonneg_right (this.trans hs) (by positivity)).trans (by norm_num)
      calc _ ≤ ρ * (1.42 * 1 + 1.42) := mul_le_mul h1 (by linarith) (by positivity) (by linarith)
        _ = 2.84 * ρ := by ring

/-- the error of the upward recurrence -/
theorem up_acc {ax a b : F64} {n : ℕ} {ρ ε : ℝ} (hf : ax.isFin = true) (h1 : 1 ≤ n) (hn32 : n ≤ 2 ^ 32) (hX : (n:ℝ) ≤ ax.val) (ha : |a.val| ≤ 1) (hb : |b.val| ≤ 1)
    (hρ : ρ = (ax.val + 1) / (ax.val - n + 1)) (hs : n * ρ ≤ 2 ^ 45) (ea : |a.val - besselJR 0 ax.val| ≤ ε) (eb : |b.val - besselJR 1 ax.val| ≤ ε) :
    (upMinus (2.0 / ax) a b (n - 1)).2.isFin = true ∧
    |(upMinus (2.0 / ax) a b (n - 1)).2.val - besselJR n ax.val| ≤ ρ * (1.42 * ε + 35 * n * ρ / 2 ^ 53) := by
  have hn1 : (1:ℝ) ≤ n := by exact_mod_cast h1
  have hX1 : 1 ≤ ax.val := hn1.trans hX
  have hB := up_bound hf hn32 hX ha hb hX1 hρ hs
  have ρ1 : 1 ≤ ρ := hρ ▸ ratio_ge_one hX
  have hρ60 : 2.84 * ρ ≤ 2 ^ 60 := by norm_num at hs ⊢; nlinarith
  have e : (upMinus (2.0 / ax) a b (n - 1)).2 = upSeq (2.0 / ax) a b n := by
    obtain ⟨k, rfl⟩ : ∃ k, n = k + 1 := ⟨n - 1, by omega⟩
    rfl
  rw [e]
  refine ⟨isFin_of_abs (hB n le_rfl) (hρ60.trans (by norm_num)), ?_⟩
  have h := up_error (x := ax.val) (δ := 12 * (2.84 * ρ) / 2 ^ 53) (N := 1.42 * ε) (e := fun i => (upSeq (2.0 / ax) a b i).val - besselJR i ax.val) (n := n)
    (by linarith) h1 hX (EQ_zero_le ea eb) (by positivity) (by
      intro i hi
      have := (up_step (k := i) hf (by omega) (le_trans (by exact_mod_cast (by omega)) hX) (hB i (by omega)) (hB (i + 1) (by omega)) (by norm_num; linarith) hρ60).2
      show _root_.abs (((upSeq _ a b (i + 2)).val - besselJR (i + 2) ax.val) - _) ≤ _
      rw [upSeq_succ, J_rec i (by linarith : ax.val ≠ 0)]
      refine le_trans (le_of_eq ?_) this
      congr 1; ring)
  rw [← hρ] at h
  refine h.trans (mul_le_mul_of_nonneg_left (add_le_add_right ?_ _) (by linarith))
  rw [← mul_div_assoc]
  refine div_le_div_of_nonneg_right ?_ (by positivity)
  nlinarith [mul_nonneg (by linarith : (0:ℝ) ≤ n) (by linarith : (0:ℝ) ≤ ρ)]

end BesX
end Verif
