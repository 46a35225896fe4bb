import Verif.Proofs.BesselKF2

/-! Accuracy of `k0`, `k1` in binary64 for `2^-960 ≤ x ≤ 1`. -/

namespace Verif
namespace BesX
open FlErr F64
variable [Libm F64]

omit [Libm F64] in
theorem k_left_le {x : F64} (hf : x.isFin = true) (hx : x.val ≤ 1) : (x ≤ᶠ (1.0 : F64)) = true := by
  show F64.le x 1.0 = true
  rw [le_iff, Verif.one_val]
  exact ⟨isFin_notNaN hf, by decide +kernel, hx⟩

omit [Libm F64] in
theorem k_left_leR {x : ℝ} (hx : x ≤ 1) : (x ≤ᶠ (1.0 : ℝ)) = true := by
  show decide (x ≤ (1.0:ℝ)) = true
  rw [decide_eq_true_eq]; norm_num; exact hx

theorem ln_acc (L : LibmUlp) {x : F64} (hf : x.isFin = true) (h0 : 1 / 2 ^ 1074 ≤ x.val) (h1 : x.val ≤ 1) :
    (Libm.ln x).isFin = true ∧ |(Libm.ln x).val - Real.log x.val| ≤ |Real.log x.val| / 2 ^ 52 + 1 / 2 ^ 1074 ∧ |Real.log x.val| ≤ 1000 := by
  have hx : 0 < x.val := lt_of_lt_of_le (by positivity) h0
  have h2 := L.ln_ulp x hf hx
  have h3 : |Real.log x.val| ≤ 1000 := by
    rw [abs_of_nonpos (Real.log_nonpos hx.le h1)]
    have := Real.log_le_log (by positivity) h0
    rw [Real.log_div (by norm_num) (by positivity), Real.log_one, Real.log_pow] at this
    have h4 := Real.log_two_lt_d9
    norm_num at this h4 ⊢
    linarith
  refine ⟨fin_of_abs (c := 1010) (by norm_num) ?_, h2, h3⟩
  have h5 := abs_sub_abs_le_abs_sub (Libm.ln x).val (Real.log x.val)
  have w : (1:ℝ) / 2 ^ 1074 ≤ 1 := by rw [div_le_one (by positivity)]; exact one_le_pow₀ (by norm_num)
  have h6 : |Real.log x.val| / 2 ^ 52 ≤ 1000 / 2 ^ 52 := by gcongr
  generalize (1:ℝ) / 2 ^ 1074 = w' at *
  norm_num at h6
  linarith

theorem k0_acc_left (L : LibmUlp) {x : F64} (h0 : 1 / 2 ^ 1074 ≤ x.val) (h1 : x.val ≤ 1) : Rel (k0 x) (besselKR 0 x.val) 9.3e-13 := by
  have hx : 0 < x.val := lt_of_lt_of_le (by positivity) h0
  have hf : x.isFin = true := fin_of_abs (c := 2) (by norm_num) (by rw [abs_of_pos hx]; linarith)
  obtain ⟨l1, l2, l3⟩ := ln_acc L hf h0 h1
  obtain ⟨a1, a2, a3⟩ := lrel hf hx.le h1 k0a_pc
  obtain ⟨p1, p2⟩ := lrel hf hx.le h1 k0p_pc
  obtain ⟨q1, q2⟩ := lrel hf hx.le h1 k0q_pc
  obtain ⟨t1, t2⟩ := k_term p1 p2 q1 q2 l1 l2 l3
  have e1 : k0 x = evF (envF x) k0aE - evF (envF x) k0pE * Libm.ln x / evF (envF x) k0qE := by
    unfold k0
    simp only [k_left_le hf h1, k0aE, k0pE, k0qE, evF, polyE_F' (K0Px_F (envF x)) (by decide), polyE_F' (K0Qx_F (envF x)) (by decide),
      polyE_F' (K0PIx_F (envF x)) (by decide), polyE_F' (K0QIx_F (envF x)) (by decide)]
    rw [if_pos trivial]
    simp only [envF, if_true]
  have e2 : k0 x.val = evR (envR x.val) k0aE - evR (envR x.val) k0pE * Real.log x.val / evR (envR x.val) k0qE := by
    unfold k0
    simp only [k_left_leR h1, k0aE, k0pE, k0qE, evR, polyE_R' (K0Px_R (envR x.val)) (by decide), polyE_R' (K0Qx_R (envR x.val)) (by decide),
      polyE_R' (K0PIx_R (envR x.val)) (by decide), polyE_R' (K0QIx_R (envR x.val)) (by decide)]
    rw [if_pos trivial]
    simp only [envR, if_true]
    norm_num
    rfl
  have hlog : Real.log x.val ≤ 0 := Real.log_nonpos hx.le h1
  have hT : evR (envR x.val) k0pE * Real.log x.val / evR (envR x.val) k0qE ≤ 0 :=
    div_nonpos_of_nonpos_of_nonneg (mul_nonpos_of_nonneg_of_nonpos p1.pos.le hlog) q1.pos.le
  have hk := Bes.K0_ge hx h1
  have hx0 := Bes.k0_exact hx
  have hT2 : |evR (envR x.val) k0pE * Real.log x.val / evR (envR x.val) k0qE| ≤ 50000 := by
    have bp := p1.bounds
    have bq := q1.bounds
    have P2 : evR (envR x.val) k0pE ≤ 3 := by norm_num at bp p2 ⊢; linarith [bp.1, p2.2]
    have Q1 : 0.06 ≤ evR (envR x.val) k0qE := by norm_num at bq q2 ⊢; linarith [bq.2, q2.1]
    rw [abs_div, abs_mul, abs_of_pos p1.pos, abs_of_pos q1.pos, div_le_iff₀ q1.pos]
    have : evR (envR x.val) k0pE * |Real.log x.val| ≤ 3 * 1000 := mul_le_mul P2 l3 (abs_nonneg _) (by norm_num)
    norm_num at Q1 ⊢
    linarith
  generalize evR (envR x.val) k0pE * Real.log x.val / evR (envR x.val) k0qE = T at *
  generalize evF (envF x) k0pE * Libm.ln x / evF (envF x) k0qE = t at *
  generalize evF (envF x) k0aE = a at *
  generalize evR (envR x.val) k0aE = A at *
  have hA := a1.pos
  have ba := a1.bounds
  have hA2 : A ≤ 3 := by norm_num at ba a3 ⊢; linarith [ba.1, a3]
  rw [abs_of_nonpos hT] at t2 hT2
  have s : |(a.val - t.val) - (A - T)| ≤ 2.2e-14 * |A - T| + 1e-30 := by
    rw [abs_of_pos (show 0 < A - T by linarith), show (a.val - t.val) - (A - T) = (a.val - A) - (t.val - T) by ring]
    refine (abs_sub _ _).trans ?_
    have := a1.err
    norm_num at *
    linarith
  obtain ⟨f2, r2⟩ := ae_round s (by rw [abs_of_pos (by linarith)]; norm_num; linarith) (by norm_num) (by norm_num) (by norm_num) (by norm_num)
  rw [← (sub_spec a1.fin t1).2, ← e1] at f2 r2
  rw [← e2] at r2
  refine ⟨isFin_iff_val.2 f2, Bes.K_pos hx 0, (abs_sub_le _ (k0 x.val) _).trans ?_⟩
  have w' : (1:ℝ) / 2 ^ 1075 ≤ 1e-40 := by
    have : (1:ℝ) / 2 ^ 1075 ≤ 1 / 2 ^ 140 := one_div_le_one_div_of_le (by positivity) (pow_le_pow_right₀ (by norm_num) (by norm_num))
    exact this.trans (by norm_num)
  have hk2 : 0.421 ≤ besselKR 0 x.val := by
    have : 0 ≤ 0.6019 * -Real.log x.val := by
      have : 0 ≤ -Real.log x.val := by linarith
      positivity
    linarith
  have hp0 : 0 < k0 x.val := by rw [e2]; linarith
  rw [abs_of_pos hp0] at r2
  have h4 := abs_le.1 hx0
  generalize (1:ℝ) / 2 ^ 1075 = w2 at *
  generalize |(k0 x).val - k0 x.val| = z at *
  generalize |k0 x.val - besselKR 0 x.val| = z' at *
  clear s t2 e2 e1 hk hT hT2 a1 ba l2 l3
  norm_num at *
  linarith [h4.2]

theorem k1_acc_left (L : LibmUlp) {x : F64} (h0 : 1 / 2 ^ 960 ≤ x.val) (h1 : x.val ≤ 1) : Rel (k1 x) (besselKR 1 x.val) 9.7e-13 := by
  have hx : 0 < x.val := lt_of_lt_of_le (by positivity) h0
  have hf : x.isFin = true := fin_of_abs (c := 2) (by norm_num) (by rw [abs_of_pos hx]; linarith)
  obtain ⟨l1, l2, l3⟩ := ln_acc L hf (le_trans (one_div_le_one_div_of_le (by positivity) (pow_le_pow_right₀ (by norm_num) (by norm_num))) h0) h1
  obtain ⟨a1, a2, a3⟩ := labs hf hx.le h1 k1a_pc
  obtain ⟨p1, p2⟩ := lrel hf hx.le h1 k1p_pc
  obtain ⟨q1, q2⟩ := lrel hf hx.le h1 k1q_pc
  obtain ⟨t1, t2⟩ := k_term p1 p2 q1 q2 l1 l2 l3
  have e1 : k1 x = x * (evF (envF x) k1aE + evF (envF x) k1pE * Libm.ln x / evF (envF x) k1qE) + 1.0 / x := by
    unfold k1
    simp only [k_left_le hf h1, k1aE, k1pE, k1qE, evF, polyE_F' (K1Px_F (envF x)) (by decide), polyE_F' (K1Qx_F (envF x)) (by decide),
      polyE_F' (K1PIx_F (envF x)) (by decide), polyE_F' (K1QIx_F (envF x)) (by decide)]
    rw [if_pos trivial]
    simp only [envF, if_true]
  have e2 : k1 x.val = x.val * (evR (envR x.val) k1aE + evR (envR x.val) k1pE * Real.log x.val / evR (envR x.val) k1qE) + 1 / x.val := by
    unfold k1
    simp only [k_left_leR h1, k1aE, k1pE, k1qE, evR, polyE_R' (K1Px_R (envR x.val)) (by decide), polyE_R' (K1Qx_R (envR x.val)) (by decide),
      polyE_R' (K1PIx_R (envR x.val)) (by decide), polyE_R' (K1QIx_R (envR x.val)) (by decide)]
    rw [if_pos trivial]
    simp only [envR, if_true]
    have e3 : (Libm.ln x.val : ℝ) = Real.log x.val := rfl
    rw [e3]
    norm_num
  have hlog : Real.log x.val ≤ 0 := Real.log_nonpos hx.le h1
  have hT : evR (envR x.val) k1pE * Real.log x.val / evR (envR x.val) k1qE ≤ 0 :=
    div_nonpos_of_nonpos_of_nonneg (mul_nonpos_of_nonneg_of_nonpos p1.pos.le hlog) q1.pos.le
  have hk := Bes.xK1_ge hx h1
  have hx0 := Bes.k1_exact hx
  have hT2 : |evR (envR x.val) k1pE * Real.log x.val / evR (envR x.val) k1qE| ≤ 50000 := by
    have bp := p1.bounds
    have bq := q1.bounds
    have P2 : evR (envR x.val) k1pE ≤ 3 := by norm_num at bp p2 ⊢; linarith [bp.1, p2.2]
    have Q1 : 0.06 ≤ evR (envR x.val) k1qE := by norm_num at bq q2 ⊢; linarith [bq.2, q2.1]
    rw [abs_div, abs_mul, abs_of_pos p1.pos, abs_of_pos q1.pos, div_le_iff₀ q1.pos]
    have : evR (envR x.val) k1pE * |Real.log x.val| ≤ 3 * 1000 := mul_le_mul P2 l3 (abs_nonneg _) (by norm_num)
    norm_num at Q1 ⊢
    linarith
  generalize evR (envR x.val) k1pE * Real.log x.val / evR (envR x.val) k1qE = T at *
  generalize evF (envF x) k1pE * Libm.ln x / evF (envF x) k1qE = t at *
  generalize evF (envF x) k1aE = a at *
  generalize evR (envR x.val) k1aE = A at *
  clear p1 p2 q1 q2 l1 l2 l3
  have w' : (1:ℝ) / 2 ^ 1075 ≤ 1e-40 := by
    have : (1:ℝ) / 2 ^ 1075 ≤ 1 / 2 ^ 140 := one_div_le_one_div_of_le (by positivity) (pow_le_pow_right₀ (by norm_num) (by norm_num))
    exact this.trans (by norm_num)
  have hA : |A| ≤ 0.51 := by
    have := abs_sub_abs_le_abs_sub A a.val
    rw [abs_sub_comm] at this
    norm_num at *; linarith
  have hA' := abs_le.1 hA
  have hTY : |T| ≤ |A + T| + 0.51 := by
    have := abs_sub_abs_le_abs_sub T (-A)
    rw [abs_neg, sub_neg_eq_add, add_comm T A] at this
    linarith
  -- the bracket
  have s : |(a.val + t.val) - (A + T)| ≤ 2.2e-14 * |A + T| + 1.3e-14 := by
    rw [show (a.val + t.val) - (A + T) = (a.val - A) + (t.val - T) by ring]
    refine (abs_add_le _ _).trans ?_
    clear hA hA'
    generalize |A + T| = z at *
    norm_num at *
    linarith
  have hY : |A + T| ≤ 60000 := (abs_add_le _ _).trans (by linarith)
  obtain ⟨f2, r2⟩ := ae_round s (hY.trans (by norm_num)) (by norm_num) (by norm_num) (by norm_num) (by norm_num)
  rw [← (add_spec a1 t1).2] at f2 r2
  have f2' : (a + t).isFin = true := isFin_iff_val.2 f2
  -- times x
  have s2 : |x.val * (a + t).val - x.val * (A + T)| ≤ 2.22e-14 * |x.val * (A + T)| + 1.32e-14 := by
    rw [← mul_sub, abs_mul, abs_mul, abs_of_pos hx]
    have r3 : |(a + t).val - (A + T)| ≤ 2.22e-14 * |A + T| + 1.32e-14 := by
      have h0 := abs_nonneg (A + T)
      clear s hTY hY
      generalize |A + T| = z at *
      generalize (1:ℝ) / 2 ^ 1075 = w2 at *
      norm_num at *
      linarith
    have := mul_le_mul_of_nonneg_left r3 hx.le
    have h5 : x.val * 1.32e-14 ≤ 1.32e-14 := by norm_num at *; linarith
    linarith
  have hxY : |x.val * (A + T)| ≤ 60000 := by
    rw [abs_mul, abs_of_pos hx]
    calc x.val * |A + T| ≤ 1 * 60000 := mul_le_mul h1 hY (abs_nonneg _) (by norm_num)
      _ = _ := by norm_num
  obtain ⟨f3, r3⟩ := ae_round s2 (hxY.trans (by norm_num)) (by norm_num) (by norm_num) (by norm_num) (by norm_num)
  rw [← (mul_spec hf f2').2.1] at f3 r3
  have f3' : (x * (a + t)).isFin = true := isFin_iff_val.2 f3
  -- 1/x
  have i1 : 1 ≤ 1 / x.val := by rw [le_div_iff₀ hx]; linarith
  have i2 : 1 / x.val ≤ 2 ^ 960 := by
    rw [div_le_iff₀ hx]
    rw [div_le_iff₀ (by positivity)] at h0
    linarith
  have m960 : (2:ℝ) * 2 ^ 960 ≤ 2 ^ 1000 := by
    rw [← pow_succ']; exact pow_le_pow_right₀ (by norm_num) (by norm_num)
  have hd : Rel ((1.0 : F64) / x) (1 / x.val) (0 + (1 + 0) / 2 ^ 53) := by
    have := (div_spec (a := (1.0 : F64)) (by decide +kernel) hf hx.ne').2.1
    rw [Verif.one_val] at this
    refine rel_round this (mid_of (le_trans (by norm_num) i1) (i2.trans ?_)) (by norm_num) (by simp)
    exact pow_le_pow_right₀ (by norm_num) (by norm_num)
  -- the sum
  have kx : 0.6019 / x.val ≤ besselKR 1 x.val := by rw [div_le_iff₀ hx]; linarith
  have h4 := abs_le.1 hx0
  have kl : 0.6018 * (1 / x.val) ≤ k1 x.val := by
    have e : 0.6019 / x.val = 0.6019 * (1 / x.val) := by ring
    rw [e] at kx
    have h5 := h4.1
    clear s s2 r2 r3 hd e2 e1 hx0 h4 i2 h0 hk w'
    generalize 1 / x.val = y at *
    norm_num at *
    linarith
  have hxl : |x.val * (A + T)| ≤ 1 / x.val := by
    rw [abs_le]
    constructor
    · have : 0 < k1 x.val := lt_of_lt_of_le (by positivity) kl
      rw [e2] at this; linarith
    · have h6 : x.val * (A + T) ≤ x.val * 0.51 := mul_le_mul_of_nonneg_left (by linarith [hA'.2]) hx.le
      norm_num at *; linarith
  have ku : k1 x.val ≤ 2 * (1 / x.val) := by
    rw [e2]; linarith [(abs_le.1 hxl).2]
  have s3 : |((x * (a + t)).val + ((1.0 : F64) / x).val) - k1 x.val| ≤ 6e-14 * k1 x.val := by
    rw [e2] at kl ⊢
    rw [show ((x * (a + t)).val + ((1.0 : F64) / x).val) - (x.val * (A + T) + 1 / x.val) = ((x * (a + t)).val - x.val * (A + T)) + (((1.0 : F64) / x).val - 1 / x.val) by ring]
    refine (abs_add_le _ _).trans ?_
    have hde := hd.err
    clear s s2 r2 hd e2 e1 hx0 h4 kx ku hY hxY
    generalize |x.val * (A + T)| = z at *
    generalize x.val * (A + T) = z2 at *
    generalize 1 / x.val = y at *
    generalize (1:ℝ) / 2 ^ 1075 = w2 at *
    clear h0 i2 m960
    norm_num at *
    linarith
  have hr := rel_round (a := k1 x) (A := k1 x.val) (by rw [e1]; exact (add_spec f3' hd.fin).2) (mid_of (le_trans (le_trans (by norm_num) (mul_le_mul_of_nonneg_left i1 (by norm_num))) kl) (ku.trans (le_trans (mul_le_mul_of_nonneg_left i2 (by norm_num)) m960))) (by norm_num) s3
  refine ⟨hr.fin, Bes.K_pos hx 1, (abs_sub_le _ (k1 x.val) _).trans ?_⟩
  have h7 := hr.err
  generalize |(k1 x).val - k1 x.val| = z at *
  clear s s2 r2 e2 e1 r3 hd s3 hr
  norm_num at *
  linarith [h4.2]

theorem k0_acc (L : LibmUlp) {x : F64} (h0 : 1 / 2 ^ 1074 ≤ x.val) (h1 : x.val ≤ 680) : Rel (k0 x) (besselKR 0 x.val) 9.7e-13 := by
  rcases le_or_gt x.val 1 with h | h
  · exact (k0_acc_left L h0 h).mono (by norm_num)
  · exact (k0_acc_right L h h1).mono (by norm_num)

theorem k1_acc (L : LibmUlp) {x : F64} (h0 : 1 / 2 ^ 960 ≤ x.val) (h1 : x.val ≤ 680) : Rel (k1 x) (besselKR 1 x.val) 9.7e-13 := by
  rcases le_or_gt x.val 1 with h | h
  · exact k1_acc_left L h0 h
  · exact (k1_acc_right L h h1).mono (by norm_num)

end BesX
end Verif
