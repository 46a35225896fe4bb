import Verif.Proofs.Rel
import Verif.Proofs.Inst

/-! # Absolute error bounds for binary64 operations, with symbolic bounds -/

namespace Verif
open F64

/-- `a` is finite and within `e` of `A` -/
structure Ab (a : F64) (A e : ℝ) : Prop where
  fin : a.isFin = true
  err : |a.val - A| ≤ e

/-- `M` bounds a rounded quantity: neither tiny nor close to overflow -/
structure Cap (M : ℝ) : Prop where
  lo : 1 / 2^1022 ≤ M
  hi : M ≤ 2^1010

theorem Cap.pos {M : ℝ} (h : Cap M) : 0 < M := lt_of_lt_of_le (by positivity) h.lo

theorem cap_of {M : ℝ} (h1 : 1 / 2^100 ≤ M) (h2 : M ≤ 10^303) : Cap M := by
  refine ⟨le_trans ?_ h1, h2.trans ?_⟩
  · exact one_div_le_one_div_of_le (by positivity) (pow_le_pow_right₀ (by norm_num) (by norm_num))
  · calc (10:ℝ)^303 = (10^3)^101 := by rw [← pow_mul]
      _ ≤ (2^10)^101 := pow_le_pow_left₀ (by norm_num) (by norm_num) _
      _ = 2^1010 := by rw [← pow_mul]

theorem Ab.nonneg {a : F64} {A e : ℝ} (h : Ab a A e) : 0 ≤ e := (abs_nonneg _).trans h.err
theorem Ab.mono {a : F64} {A e d : ℝ} (h : Ab a A e) (hd : e ≤ d) : Ab a A d := ⟨h.fin, h.err.trans hd⟩
theorem ab_self {a : F64} (h : a.isFin = true) : Ab a a.val 0 := ⟨h, by simp⟩

theorem ab_round {a : F64} {x A e M : ℝ} (hv : a.val = RN x) (hx : |x - A| ≤ e) (hM : |A| + e ≤ M) (hc : Cap M) : Ab a A (e + M / 2^52) := by
  have hxM : |x| ≤ M := by
    have := abs_add_le (x - A) A
    rw [sub_add_cancel] at this
    linarith
  have hH : (2:ℝ)^1010 < HUGE := by rw [HUGE_eq]; exact pow_lt_pow_right₀ (by norm_num) (by norm_num)
  have hr := RN_err' (lt_of_le_of_lt (hxM.trans hc.hi) hH)
  have hw : (1:ℝ) / 2^1075 ≤ M / 2^53 := by
    have : (1:ℝ) / 2^1075 = 1 / 2^1022 / 2^53 := by rw [div_div, ← pow_add]
    rw [this]
    exact div_le_div_of_nonneg_right hc.lo (by positivity)
  have h2 : |RN x - x| ≤ M / 2^52 := by
    have h3 : |x| / 2^53 ≤ M / 2^53 := div_le_div_of_nonneg_right hxM (by positivity)
    have h4 : M / 2^52 = M / 2^53 + M / 2^53 := by ring
    rw [h4]; linarith
  constructor
  · rw [isFin_iff_val, hv]
    have h5 : |RN x| ≤ |RN x - x| + |x| := by
      have := abs_add_le (RN x - x) x
      rwa [sub_add_cancel] at this
    have h6 : M / 2^52 ≤ M := div_le_self hc.pos.le (by norm_num)
    have h7 : |RN x| ≤ 2^1011 := by
      have e1 : (2:ℝ)^1011 = 2^1010 + 2^1010 := by rw [pow_succ]; ring
      have := hc.hi
      rw [e1]
      clear e1 hw hr hH
      generalize (2:ℝ)^1010 = y at *
      linarith
    exact lt_of_le_of_lt h7 (by rw [HUGE_eq]; exact pow_lt_pow_right₀ (by norm_num) (by norm_num))
  · rw [hv]
    exact (abs_sub_le _ x _).trans (by linarith)

theorem ab_add {a b : F64} {A B d e M : ℝ} (ha : Ab a A d) (hb : Ab b B e) (hM : |A + B| + (d + e) ≤ M) (hc : Cap M) : Ab (a + b) (A + B) (d + e + M / 2^52) := by
  refine ab_round (add_spec ha.fin hb.fin).2 ?_ hM hc
  rw [show a.val + b.val - (A + B) = (a.val - A) + (b.val - B) by ring]
  exact (abs_add_le _ _).trans (add_le_add ha.err hb.err)

theorem ab_sub {a b : F64} {A B d e M : ℝ} (ha : Ab a A d) (hb : Ab b B e) (hM : |A - B| + (d + e) ≤ M) (hc : Cap M) : Ab (a - b) (A - B) (d + e + M / 2^52) := by
  refine ab_round (sub_spec ha.fin hb.fin).2 ?_ hM hc
  rw [show a.val - b.val - (A - B) = (a.val - A) - (b.val - B) by ring]
  exact (abs_sub _ _).trans (add_le_add ha.err hb.err)

theorem ab_mul {a b : F64} {A B d e M P Q : ℝ} (ha : Ab a A d) (hb : Ab b B e) (hA : |A| ≤ P) (hB : |B| ≤ Q) (hM : P * Q + (d * Q + P * e + d * e) ≤ M) (hc : Cap M) :
    Ab (a * b) (A * B) (d * Q + P * e + d * e + M / 2^52) := by
  have hd := ha.nonneg
  have he := hb.nonneg
  have hP := (abs_nonneg A).trans hA
  have hQ := (abs_nonneg B).trans hB
  refine ab_round (mul_spec ha.fin hb.fin).2.1 ?_ (le_trans ?_ hM) hc
  · rw [show a.val * b.val - A * B = (a.val - A) * B + A * (b.val - B) + (a.val - A) * (b.val - B) by ring]
    refine (abs_add_le _ _).trans (add_le_add ((abs_add_le _ _).trans (add_le_add ?_ ?_)) ?_)
    · rw [abs_mul]; exact mul_le_mul ha.err hB (abs_nonneg _) hd
    · rw [abs_mul]; exact mul_le_mul hA hb.err (abs_nonneg _) hP
    · rw [abs_mul]; exact mul_le_mul ha.err hb.err (abs_nonneg _) hd
  · rw [abs_mul]
    have := mul_le_mul hA hB (abs_nonneg _) hP
    linarith

/-- quotient: the divisor has a relative error of at most one half -/
theorem ab_div {a b : F64} {A B d e M : ℝ} (ha : Ab a A d) (hb : Ab b B e) (hB : 0 < B) (he : e ≤ B / 2) (hM : |A| / B + 2 * (d + |A| * (e / B)) / B ≤ M) (hc : Cap M) :
    Ab (a / b) (A / B) (2 * (d + |A| * (e / B)) / B + M / 2^52) := by
  have hd := ha.nonneg
  have k := abs_le.1 hb.err
  have hb2 : B / 2 ≤ b.val := by linarith
  have hb0 : 0 < b.val := by linarith
  refine ab_round (div_spec ha.fin hb.fin hb0.ne').2.1 ?_ (by rw [abs_div, abs_of_pos hB]; exact hM) hc
  have e1 : a.val / b.val - A / B = ((a.val - A) - A * ((b.val - B) / B)) / b.val := by field_simp; ring
  rw [e1, abs_div, abs_of_pos hb0, div_le_div_iff₀ hb0 hB]
  have h1 : |a.val - A - A * ((b.val - B) / B)| ≤ d + |A| * (e / B) := by
    refine (abs_sub _ _).trans (add_le_add ha.err ?_)
    rw [abs_mul, abs_div, abs_of_pos hB]
    exact mul_le_mul_of_nonneg_left (div_le_div_of_nonneg_right hb.err hB.le) (abs_nonneg _)
  have h0 : 0 ≤ d + |A| * (e / B) := (abs_nonneg _).trans h1
  calc _ ≤ (d + |A| * (e / B)) * B := mul_le_mul_of_nonneg_right h1 hB.le
    _ = 2 * (d + |A| * (e / B)) * (B / 2) := by ring
    _ ≤ _ := mul_le_mul_of_nonneg_left hb2 (by positivity)

theorem ab_neg {a : F64} {A e : ℝ} (h : Ab a A e) : Ab (-a) (-A) e := by
  refine ⟨by rw [isFin_neg]; exact h.fin, ?_⟩
  rw [val_neg, show -a.val - -A = -(a.val - A) by ring, abs_neg]; exact h.err

/-- literals -/
theorem ab_lit (m k : ℕ) {M : ℝ} (hM : (m:ℝ) / 10^k ≤ M) (hc : Cap M) : Ab (OfScientific.ofScientific m true k : F64) ((m:ℝ) / 10^k) (M / 2^52) := by
  have e : (OfScientific.ofScientific m true k : F64) = F64.mk' false (m * 2^1074) (10^k) := if_pos rfl
  have v : (F64.mk' false (m * 2^1074) (10^k)).val = RN ((m:ℝ) / 10^k) := by
    rw [F64.mk'_val _ _ _ (by positivity)]
    congr 1
    have : (0:ℝ) < 2^1074 := by positivity
    rw [Nat.cast_mul, Nat.cast_pow, Nat.cast_pow, Nat.cast_ofNat, Nat.cast_ofNat]
    generalize (2:ℝ)^1074 = u at *
    simp only [Bool.false_eq_true, if_false, one_mul]
    field_simp
  rw [e]
  have := ab_round (a := F64.mk' false (m * 2^1074) (10^k)) (x := (m:ℝ) / 10^k) (A := (m:ℝ) / 10^k) (e := 0) (M := M) v (by simp) (by rw [add_zero, abs_of_nonneg (by positivity)]; exact hM) hc
  rwa [zero_add] at this

/-- small integers are exact -/
theorem ab_int {a : F64} {A : ℝ} (hf : a.isFin = true) (h : a.val = A) : Ab a A 0 := ⟨hf, by rw [h]; simp⟩

/-- logarithm of a value with relative error at most one half -/
theorem ab_ln [Libm F64] (L : LibmUlp) {a : F64} {A r P : ℝ} (hA : 0 < A) (h : Ab a A (r * A)) (hr : r ≤ 1/2) (hP : |Real.log A| ≤ P) :
    Ab (Libm.ln a) (Real.log A) (2 * r + (P + 2 * r) / 2^52 + 1 / 2^1074) := by
  have k := abs_le.1 h.err
  have hr0 : 0 ≤ r := nonneg_of_mul_nonneg_left h.nonneg hA
  have ha0 : A / 2 ≤ a.val := by nlinarith
  have ha : 0 < a.val := by linarith
  have hl : |Real.log a.val - Real.log A| ≤ 2 * r := by
    rw [← Real.log_div ha.ne' hA.ne', abs_le]
    have h1 : a.val / A ≤ 1 + r := by rw [div_le_iff₀ hA]; linarith
    have h2 : 1 - r ≤ a.val / A := by rw [le_div_iff₀ hA]; linarith
    have hq : 0 < a.val / A := by positivity
    constructor
    · have := Real.one_sub_inv_le_log_of_pos hq
      have h3 : (a.val / A)⁻¹ ≤ 1 + 2 * r := by
        rw [inv_le_comm₀ hq (by linarith)]
        refine le_trans ?_ h2
        rw [inv_le_iff_one_le_mul₀ (by linarith)]
        nlinarith
      linarith
    · have := Real.log_le_sub_one_of_pos hq
      linarith
  have hn := L.ln_num a h.fin ha
  refine ⟨?_, ?_⟩
  · rw [isFin_iff_val]
    refine lt_of_le_of_lt hn.2 (lt_of_lt_of_le ?_ HUGE_ge)
    norm_num
  · have h3 : |Real.log a.val| ≤ P + 2 * r := by
      have := abs_add_le (Real.log a.val - Real.log A) (Real.log A)
      rw [sub_add_cancel] at this
      linarith
    have h4 := L.ln_ulp a h.fin ha
    have h5 : |Real.log a.val| / 2^52 ≤ (P + 2 * r) / 2^52 := div_le_div_of_nonneg_right h3 (by positivity)
    refine (abs_sub_le _ (Real.log a.val) _).trans ?_
    generalize (1:ℝ) / 2^1074 = w at *
    linarith

end Verif
