import Verif.Proofs.GcfF7

/-! Accuracy of `gcf` and of the series loop of `gser` in binary64. -/

namespace Verif
namespace Gcf
open F64

theorem j_bd {a : ℝ} (ha : 1 / 10^12 ≤ a) : 0 ≤ 5 / 10^13 / a ∧ 5 / 10^13 / a ≤ 1/2 := by
  have a0 : 0 < a := lt_of_lt_of_le (by norm_num) ha
  refine ⟨by positivity, ?_⟩
  rw [div_le_iff₀ a0]
  rw [div_le_iff₀ (by norm_num)] at ha
  norm_num at *
  linarith

theorem gcf_eq [Libm F64] (a x : F64) : gcf a x =
    if F64.lt 700.0 (-x + a * Libm.ln x - lnGamma a) then gcfLoop a 10000 1 (x + 1.0 - a) (1.0 / FPMIN) (1.0 / (x + 1.0 - a)) (1.0 / (x + 1.0 - a)) * inf
      else if F64.lt (-x + a * Libm.ln x - lnGamma a) (-700.0) then 0.0
      else Libm.exp (-x + a * Libm.ln x - lnGamma a) * gcfLoop a 10000 1 (x + 1.0 - a) (1.0 / FPMIN) (1.0 / (x + 1.0 - a)) (1.0 / (x + 1.0 - a)) := by
  unfold gcf; simp only [ar_lt, ar_inf]

theorem gser_eq [Libm F64] (a x : F64) : gser a x =
    if F64.lt 700.0 (-x + a * Libm.ln x - lnGamma a) then gserLoop x 10000 a (1.0 / a) (1.0 / a) * inf
      else if F64.lt (-x + a * Libm.ln x - lnGamma a) (-700.0) then 0.0
      else gserLoop x 10000 a (1.0 / a) (1.0 / a) * Libm.exp (-x + a * Libm.ln x - lnGamma a) := by
  unfold gser; simp only [ar_lt, ar_inf]

theorem gcf_acc [Libm F64] (L : LibmUlp) {a x : F64} (ha : 1 / 10^12 ≤ a.val) (ha1 : a.val < 100) (hx : (a + 1.0).val ≤ x.val) (hx1 : x.val ≤ 330) :
    (gcf a x).isFin = true ∧ |(gcf a x).val - regQ a.val x.val| ≤ 9.1 / 10^9 + 8 / 10^13 / a.val := by
  have a0 : 0 < a.val := lt_of_lt_of_le (by norm_num) ha
  obtain ⟨y, y1, y2, y3, hf, hh⟩ := gcf_frac a0 ha1 hx hx1
  have y0 : 0 < y := by linarith
  have x9 : 9/10 ≤ x.val := by
    have := (abs_le.1 y3).2
    norm_num at *
    linarith
  obtain ⟨lf, hl⟩ := logRes_ab L ha ha1 (x := x) (le_trans (by norm_num) x9) hx1
  obtain ⟨j0, j1⟩ := j_bd ha
  have hn := Lr_near a0 y1 y3
  have hl2 : |(-x + a * Libm.ln x - lnGamma a).val - Lr a.val y| ≤ 4.06 / 10^9 + 5 / 10^13 / a.val := by
    have := abs_add_le ((-x + a * Libm.ln x - lnGamma a).val - Lr a.val x.val) (Lr a.val x.val - Lr a.val y)
    rw [sub_add_sub_cancel] at this
    refine this.trans ((add_le_add hl hn).trans ?_)
    norm_num
    linarith
  have hF := F_pos a0 y0
  have hR := regQ_frac a0 y0
  have hR1 : regQ a.val y ≤ 1 := by
    have := regP_add_regQ a0 y0.le
    have := regP_nonneg a0 y0.le
    linarith
  have hF1 : 1 / 10^6 ≤ F a.val y := by
    have h1 := F_ge a0 ha1 y1
    have hb0 := bk_ge y1 0
    push_cast at hb0
    have hb : bk a.val y 0 ≤ 401 := by unfold bk; push_cast; linarith
    have : 1 / (401 : ℝ) ≤ 1 / bk a.val y 0 := one_div_le_one_div_of_le (by linarith) hb
    norm_num at *; linarith
  obtain ⟨s1, s2, s3⟩ := scale_acc L lf hl2 j0 j1 hf (hh.trans (mul_le_mul_of_nonneg_right (by norm_num) hF.le)) hF1 ((F_le a0 y1).trans (by norm_num)) hR hR1
  have hq := regQ_near a0 (show 9/10 ≤ y by linarith) x9
  have hq2 : |regQ a.val y - regQ a.val x.val| ≤ 6 / 10^12 := by
    refine hq.trans ?_
    norm_num at *; linarith
  have ej : 8 / 10^13 / a.val = 1.6 * (5 / 10^13 / a.val) := by ring
  rw [gcf_eq, s1, if_neg Bool.false_ne_true, ej]
  generalize 5 / 10^13 / a.val = j at *
  cases hc : F64.lt (-x + a * Libm.ln x - lnGamma a) (-700.0) with
  | true =>
    rw [if_pos rfl]
    refine ⟨by decide +kernel, ?_⟩
    have h1 := s2 hc
    have h2 := regQ_nonneg a0 y0
    obtain ⟨q1, q2⟩ := abs_le.1 hq2
    rw [zero_val, abs_le]
    norm_num at *
    constructor <;> linarith
  | false =>
    rw [if_neg Bool.false_ne_true]
    obtain ⟨t1, -, t3, -⟩ := s3 hc
    refine ⟨t1, ?_⟩
    have := abs_add_le ((Libm.exp (-x + a * Libm.ln x - lnGamma a) * gcfLoop a 10000 1 (x + 1.0 - a) (1.0 / FPMIN) (1.0 / (x + 1.0 - a)) (1.0 / (x + 1.0 - a))).val - regQ a.val y) (regQ a.val y - regQ a.val x.val)
    rw [sub_add_sub_cancel] at this
    refine this.trans ((add_le_add t3 hq2).trans ?_)
    norm_num
    linarith

/-! ## the series -/

theorem tau_small2 : (1:ℝ) / 2^1075 ≤ 1 / 10^200 := by
  refine one_div_le_one_div_of_le (by positivity) ?_
  calc (10:ℝ)^200 ≤ 16^200 := pow_le_pow_left₀ (by norm_num) (by norm_num) _
    _ = 2^800 := by rw [show (16:ℝ) = 2^4 by norm_num, ← pow_mul]
    _ ≤ _ := pow_le_pow_right₀ (by norm_num) (by norm_num)

theorem rn_rel {y : ℝ} (h1 : 1 / 10^100 ≤ y) (h2 : y ≤ 10^50) : |RN y| < HUGE ∧ |RN y - y| ≤ 1.0001 / 2^53 * y := by
  have y0 : 0 < y := lt_of_lt_of_le (by norm_num) h1
  have r := (rn_mod (le_of_eq (abs_of_pos y0)) h2).1
  refine ⟨r, ?_⟩
  have h := RN_err' (x := y) (lt_of_le_of_lt ((le_of_eq (abs_of_pos y0)).trans h2) (lt_trans (by norm_num) huge_big))
  rw [abs_of_pos y0] at h
  refine h.trans ((add_le_add_right tau_small2 _).trans ?_)
  have : (1:ℝ) / 10^200 ≤ y / 10^100 := by
    rw [show (1:ℝ) / 10^200 = 1 / 10^100 / 10^100 by norm_num]
    gcongr
  norm_num at *
  linarith

theorem m_rel {p q P Q e d : ℝ} (hP : |p - P| ≤ e * P) (hQ : |q - Q| ≤ d * Q) (P0 : 0 < P) (Q0 : 0 < Q) (he0 : 0 ≤ e) (hd0 : 0 ≤ d) (he : e ≤ 1 / 10^8) (hd : d ≤ 1 / 10^12)
    (hlo : 1 / 10^90 ≤ P * Q) (hhi : P * Q ≤ 10^40) : |RN (p * q)| < HUGE ∧ |RN (p * q) - P * Q| ≤ (e + 1.0001 * d + 1.1 / 2^53) * (P * Q) := by
  have R0 : 0 < P * Q := mul_pos P0 Q0
  have h1 : |p * q - P * Q| ≤ (e + 1.0001 * d) * (P * Q) := by
    have e1 : p * q - P * Q = (p - P) * q + P * (q - Q) := by ring
    have hq : |q| ≤ (1 + d) * Q := by
      have : |q| ≤ |q - Q| + |Q| := by have := abs_add_le (q - Q) Q; rwa [sub_add_cancel] at this
      rw [abs_of_pos Q0] at this; linarith
    rw [e1]
    refine (abs_add_le _ _).trans ?_
    rw [abs_mul, abs_mul, abs_of_pos P0]
    have a1 := mul_le_mul hP hq (abs_nonneg _) (by positivity)
    have a2 := mul_le_mul_of_nonneg_left hQ P0.le
    have : e * P * ((1 + d) * Q) + P * (d * Q) = (e + e * d + d) * (P * Q) := by ring
    refine (add_le_add a1 a2).trans ?_
    rw [this]
    refine mul_le_mul_of_nonneg_right ?_ R0.le
    have : e * d ≤ 1 / 10^8 * d := mul_le_mul_of_nonneg_right he hd0
    norm_num at *
    linarith
  have hs : (e + 1.0001 * d) * (P * Q) ≤ 1 / 1000 * (P * Q) := mul_le_mul_of_nonneg_right (by norm_num at *; linarith) R0.le
  obtain ⟨k1, k2⟩ := abs_le.1 h1
  have hY1 : 1 / 10^100 ≤ p * q := by
    generalize P * Q = w at *
    norm_num at *
    linarith
  have hY2 : p * q ≤ 10^50 := by
    generalize P * Q = w at *
    norm_num at *
    linarith
  obtain ⟨r1, r2⟩ := rn_rel hY1 hY2
  refine ⟨r1, ?_⟩
  have := abs_add_le (RN (p * q) - p * q) (p * q - P * Q)
  rw [sub_add_sub_cancel] at this
  refine this.trans ((add_le_add r2 h1).trans ?_)
  have : p * q ≤ 1.001 * (P * Q) := by norm_num at *; linarith
  generalize P * Q = w at *
  have e2 : (e + 1.0001 * d + 1.1 / 2^53) * w = (e + 1.0001 * d) * w + 1.1 / 2^53 * w := by ring
  rw [e2]
  norm_num at *
  linarith

end Gcf
end Verif
