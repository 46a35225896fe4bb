import Verif.Proofs.GcfF8
import Verif.Proofs.BetaAccR
import Verif.Proofs.Beta
import Mathlib.Analysis.SpecialFunctions.Gamma.Deligne
import Mathlib.Analysis.SpecialFunctions.Gamma.BohrMollerup

/-! The factor `exp(lnΓ(a+b) - lnΓ(a) - lnΓ(b) + a ln x + b ln(1-x))` in binary64. -/

namespace Verif
namespace Bcf
open F64 Gcf

theorem log2001 : Real.log 2010 ≤ 8 := by
  rw [Real.log_le_iff_le_exp (by norm_num)]
  have h7 : Real.exp 8 = (Real.exp 1)^8 := by rw [← Real.exp_nat_mul]; norm_num
  rw [h7]
  exact le_trans (by norm_num) (pow_le_pow_left₀ (by norm_num) Real.exp_one_gt_d9.le 8)

theorem log_ten : Real.log 10 ≤ 2.4 := by
  rw [Real.log_le_iff_le_exp (by norm_num)]
  have := Real.exp_one_gt_d9
  have h7 : Real.exp 2.4 = (Real.exp 1)^2 * Real.exp 0.4 := by rw [← Real.exp_nat_mul, ← Real.exp_add]; norm_num
  have h8 := Real.add_one_le_exp (0.4:ℝ)
  rw [h7]
  have h9 : (7.38:ℝ) ≤ (Real.exp 1)^2 := by nlinarith
  nlinarith

theorem logGamma_le {a : ℝ} (ha : 1 / 10^12 ≤ a) (ha1 : a ≤ 2001) : |Real.log (Real.Gamma a)| ≤ 17000 := by
  have a0 : 0 < a := lt_of_lt_of_le (by norm_num) ha
  have hg := Real.Gamma_pos_of_pos a0
  have e1 := Real.Gamma_add_one a0.ne'
  have e2 := Real.Gamma_add_one (show a + 1 ≠ 0 by linarith)
  have e : Real.Gamma (a + 2) = (a + 1) * a * Real.Gamma a := by rw [show a + 2 = a + 1 + 1 by ring, e2, e1]; ring
  have mono := Real.Gamma_strictMonoOn_Ici.monotoneOn
  have lo : 1 ≤ Real.Gamma (a + 2) := by
    rw [← Real.Gamma_two]; exact mono (by simp) (by simp; linarith) (by linarith)
  have hi : Real.Gamma (a + 2) ≤ 2010^2010 := by
    have h1 : Real.Gamma (a + 2) ≤ Real.Gamma ((2010:ℕ) + 1) := mono (by simp; linarith) (by simp; norm_num) (by push_cast; linarith)
    rw [Real.Gamma_nat_eq_factorial] at h1
    refine h1.trans ?_
    have h2 := Nat.factorial_le_pow 2010
    have h3 : ((Nat.factorial 2010 : ℕ) : ℝ) ≤ ((2010 ^ 2010 : ℕ) : ℝ) := Nat.cast_le.2 h2
    rw [Nat.cast_pow] at h3
    exact h3
  rw [abs_le]
  constructor
  · have : (1:ℝ) / 10^7 ≤ Real.Gamma a := by
      rw [div_le_iff₀ (by norm_num)]
      rw [e] at lo
      have : (a + 1) * a ≤ 10^7 := by nlinarith
      nlinarith
    have h := Real.log_le_log (by norm_num) this
    have h2 : -17000 ≤ Real.log (1 / 10^7) := by
      rw [one_div, Real.log_inv, Real.log_pow]
      have := log_ten
      push_cast; linarith
    linarith
  · have : Real.Gamma a ≤ 10^12 * 2010^2010 := by
      have h5 : Real.Gamma a = Real.Gamma (a + 2) / ((a + 1) * a) := by rw [e]; field_simp
      rw [h5, div_le_iff₀ (by positivity)]
      have h6 : 1 ≤ (a + 1) * a * 10^12 := by
        rw [div_le_iff₀ (by norm_num)] at ha
        nlinarith
      generalize (2010:ℝ)^2010 = q at *
      have hq : 0 < q := by linarith
      nlinarith
    have h := Real.log_le_log hg this
    rw [Real.log_mul (by norm_num) (by positivity), Real.log_pow, Real.log_pow] at h
    have l1 := log_ten
    have l2 := log2001
    push_cast at h
    linarith

/-- `logΓ` grows at most like this over a short step to the right -/
theorem logGamma_step {s h : ℝ} (hs : 0 < s) (h0 : 0 ≤ h) (h1 : h ≤ 1) :
    |Real.log (Real.Gamma (s + h)) - Real.log (Real.Gamma s)| ≤ h * (|Real.log s| + 1 / s) := by
  rcases h0.eq_or_lt with q | q
  · subst q; simp
  have conv := Real.convexOn_log_Gamma
  have fe : ∀ y : ℝ, 0 < y → Real.log (Real.Gamma (y + 1)) = Real.log y + Real.log (Real.Gamma y) := fun y hy => by
    rw [Real.Gamma_add_one hy.ne', Real.log_mul hy.ne' (Real.Gamma_pos_of_pos hy).ne']
  -- upper
  have up : Real.log (Real.Gamma (s + h)) - Real.log (Real.Gamma s) ≤ h * Real.log s := by
    have c := conv.2 (show s ∈ Set.Ioi 0 from hs) (show s + 1 ∈ Set.Ioi 0 from by simp; linarith) (show 0 ≤ 1 - h by linarith) h0 (by ring)
    simp only [smul_eq_mul, Function.comp_apply] at c
    rw [show (1 - h) * s + h * (s + 1) = s + h by ring, fe s hs] at c
    linarith
  have lo : h * Real.log s - h / s ≤ Real.log (Real.Gamma (s + h)) - Real.log (Real.Gamma s) := by
    -- slope on `[s+1, s+1+h]` is at least the slope on `[s, s+1]`
    have c := conv.2 (show s ∈ Set.Ioi 0 from hs) (show s + 1 + h ∈ Set.Ioi 0 from by simp; linarith)
      (show 0 ≤ h / (1 + h) by positivity) (show 0 ≤ 1 / (1 + h) by positivity) (by field_simp; ring)
    simp only [smul_eq_mul, Function.comp_apply] at c
    rw [show h / (1 + h) * s + 1 / (1 + h) * (s + 1 + h) = s + 1 by field_simp; ring, fe s hs, show s + 1 + h = s + h + 1 by ring, fe (s + h) (by linarith)] at c
    have lg : Real.log (s + h) ≤ Real.log s + h / s := by
      have := Real.log_le_sub_one_of_pos (show 0 < (s + h) / s by positivity)
      rw [Real.log_div (by linarith) hs.ne'] at this
      have e : (s + h) / s - 1 = h / s := by field_simp; ring
      linarith
    have c2 := mul_le_mul_of_nonneg_left c (by linarith : 0 ≤ 1 + h)
    have e3 : (1 + h) * (h / (1 + h) * Real.log (Real.Gamma s) + 1 / (1 + h) * (Real.log (s + h) + Real.log (Real.Gamma (s + h)))) =
        h * Real.log (Real.Gamma s) + (Real.log (s + h) + Real.log (Real.Gamma (s + h))) := by field_simp
    rw [e3] at c2
    linarith
  have a1 := neg_abs_le (Real.log s)
  have a2 := le_abs_self (Real.log s)
  have b1 := mul_le_mul_of_nonneg_left a2 h0
  have b2 := mul_le_mul_of_nonneg_left a1 h0
  have b3 : 0 ≤ h / s := by positivity
  have e4 : h * (|Real.log s| + 1 / s) = h * |Real.log s| + h / s := by ring
  rw [e4, abs_le]
  constructor <;> linarith

theorem log_bd1 {x : ℝ} (h1 : 1 / 10^300 ≤ x) (h2 : x ≤ 1) : |Real.log x| ≤ 720 := by
  have x0 : 0 < x := lt_of_lt_of_le (by positivity) h1
  have := Real.log_le_log (by positivity) h1
  rw [one_div, Real.log_inv, Real.log_pow] at this
  have l1 := log_ten
  rw [abs_of_nonpos (Real.log_nonpos x0.le h2)]
  push_cast at this; linarith

theorem log_bd2 {s : ℝ} (h1 : 1 / 10^12 ≤ s) (h2 : s ≤ 2010) : |Real.log s| ≤ 29 := by
  have s0 : 0 < s := lt_of_lt_of_le (by norm_num) h1
  have := Real.log_le_log (by norm_num) h1
  rw [one_div, Real.log_inv, Real.log_pow] at this
  have l1 := log_ten
  have l2 := Real.log_le_log s0 h2
  have l3 := log2001
  rw [abs_le]
  push_cast at this; constructor <;> linarith

/-- rounding of the argument of `logΓ` -/
theorem logGamma_round {s t : ℝ} (h1 : 1 / 10^12 ≤ s) (h2 : s ≤ 2000) (h : |t - s| ≤ 1.0001 / 2^53 * s) :
    |Real.log (Real.Gamma t) - Real.log (Real.Gamma s)| ≤ 7 / 10^12 := by
  have s0 : 0 < s := lt_of_lt_of_le (by norm_num) h1
  obtain ⟨k1, k2⟩ := abs_le.1 h
  have t0 : s / 2 ≤ t := by nlinarith
  have gen : ∀ p q : ℝ, s / 2 ≤ p → p ≤ q → p ≤ 2001 → q - p ≤ 1.0001 / 2^53 * s → 1 / 10^12 ≤ p →
      |Real.log (Real.Gamma q) - Real.log (Real.Gamma p)| ≤ 7 / 10^12 := by
    intro p q g1 g2 g3 g4 g5
    have p0 : 0 < p := by linarith
    have st := logGamma_step (s := p) (h := q - p) p0 (by linarith) (g4.trans (by nlinarith))
    rw [add_sub_cancel] at st
    refine st.trans ?_
    have lb := log_bd2 g5 (by linarith)
    have : (q - p) * |Real.log p| ≤ 1.0001 / 2^53 * 2000 * 29 := by
      refine mul_le_mul (g4.trans (by nlinarith)) lb (abs_nonneg _) (by norm_num)
    have : (q - p) * (1 / p) ≤ 1.0001 / 2^53 * 2 := by
      rw [mul_one_div, div_le_iff₀ p0]; nlinarith
    rw [mul_add]
    norm_num at *
    linarith
  rcases le_total s t with q | q
  · exact gen s t (by linarith) q (by linarith) (by linarith) h1
  · rw [abs_sub_comm]
    rcases le_or_gt (1 / 10^12) t with r | r
    · exact gen t s t0 q (by linarith) (by linarith) r
    · -- `s ≥ 10^-12 > t ≥ s/2`
      have p0 : 0 < t := by linarith
      have st := logGamma_step (s := t) (h := s - t) p0 (by linarith) (by nlinarith)
      rw [add_sub_cancel] at st
      refine st.trans ?_
      have lb : |Real.log t| ≤ 30 := by
        have l1 := Real.log_le_log (by linarith) t0
        have l2 := Real.log_nonpos p0.le (by norm_num at r ⊢; linarith)
        have l3 := log_bd2 h1 (by linarith)
        rw [Real.log_div s0.ne' (by norm_num)] at l1
        have l4 : Real.log 2 ≤ 1 := by have := Real.log_two_lt_d9; linarith
        have l5 := (abs_le.1 l3).1
        rw [abs_of_nonpos l2]; linarith
      have : (s - t) * |Real.log t| ≤ 1.0001 / 2^53 * 2000 * 30 := by
        refine mul_le_mul (by nlinarith) lb (abs_nonneg _) (by norm_num)
      have : (s - t) * (1 / t) ≤ 1.0001 / 2^53 * 2 := by
        rw [mul_one_div, div_le_iff₀ p0]; nlinarith
      rw [mul_add]
      norm_num at *
      linarith

theorem gg [Libm F64] (L : LibmUlp) {z : F64} (h1 : 1 / 10^12 ≤ z.val) (h2 : z.val ≤ 2001) :
    Ab (lnGamma z) (Real.log (Real.Gamma z.val)) (4.9 / 10^9 + 5 / 10^13 / z.val) := by
  have z0 : 0 < z.val := lt_of_lt_of_le (by norm_num) h1
  obtain ⟨g1, g2⟩ := ln_gamma_accurate_partial L h1 (ten_le (by norm_num; linarith) 290)
  refine ⟨g1, g2.trans ?_⟩
  have l1 := Real.log_le_log (by linarith) (show z.val + 6 ≤ 2010 by linarith)
  have l2 := log2001
  have l3 := mul_le_mul (show z.val + 6 ≤ 2010 by linarith) (l1.trans l2) (Real.log_nonneg (by linarith)) (by norm_num)
  norm_num at *
  linarith

/-- the rounded sum `a + b` -/
theorem sum_ab {a b : F64} (ha : 1 / 10^12 ≤ a.val) (ha1 : a.val ≤ 1000) (hb : 1 / 10^12 ≤ b.val) (hb1 : b.val ≤ 1000) :
    (a + b).isFin = true ∧ |(a + b).val - (a.val + b.val)| ≤ 1.0001 / 2^53 * (a.val + b.val) := by
  have fa : a.isFin = true := isFin_of_abs (b := 1000) (by rw [abs_of_pos (by linarith [show (0:ℝ) < 1 / 10^12 by norm_num])]; exact ha1) (by norm_num)
  have fb : b.isFin = true := isFin_of_abs (b := 1000) (by rw [abs_of_pos (by linarith [show (0:ℝ) < 1 / 10^12 by norm_num])]; exact hb1) (by norm_num)
  have s := (add_spec fa fb).2
  have h1 : (1:ℝ) / 10^100 ≤ a.val + b.val := by
    have : (1:ℝ) / 10^100 ≤ 1 / 10^12 := by norm_num
    linarith [show (0:ℝ) < 1 / 10^12 by norm_num]
  obtain ⟨r1, r2⟩ := Gcf.rn_rel h1 (by norm_num; linarith)
  rw [← s] at r1 r2
  exact ⟨by rw [isFin_iff_val]; exact r1, r2⟩

/-- the rounded `1 - x` -/
theorem one_sub_ab {x : F64} (h1 : 0 ≤ x.val) (h2 : x.val < 1) :
    ((1.0:F64) - x).isFin = true ∧ |((1.0:F64) - x).val - (1 - x.val)| ≤ 1.0001 / 2^53 * (1 - x.val) := by
  have fx : x.isFin = true := isFin_of_abs (b := 1) (by rw [abs_of_nonneg h1]; exact h2.le) (by norm_num)
  have s := (sub_spec (show (1.0:F64).isFin = true by decide +kernel) fx).2
  rw [one_val] at s
  have hy : (1:ℝ) / 10^100 ≤ 1 - x.val := by
    have := lt_one_le h2
    have k : (1:ℝ) / 10^100 ≤ 1 / 2^53 := by norm_num
    linarith
  obtain ⟨r1, r2⟩ := Gcf.rn_rel hy (by norm_num; linarith)
  rw [← s] at r1 r2
  exact ⟨by rw [isFin_iff_val]; exact r1, r2⟩

theorem gsum [Libm F64] (L : LibmUlp) {a b : F64} (ha : 1 / 10^12 ≤ a.val) (ha1 : a.val ≤ 1000) (hb : 1 / 10^12 ≤ b.val) (hb1 : b.val ≤ 1000) :
    Ab (lnGamma (a + b)) (Real.log (Real.Gamma (a.val + b.val))) (4.91 / 10^9 + 2.5 / 10^13 * (1 / a.val + 1 / b.val)) := by
  have a0 : 0 < a.val := lt_of_lt_of_le (by norm_num) ha
  have b0 : 0 < b.val := lt_of_lt_of_le (by norm_num) hb
  obtain ⟨s1, s2⟩ := sum_ab ha ha1 hb hb1
  obtain ⟨k1, k2⟩ := abs_le.1 s2
  have sl : (a.val + b.val) / 2 ≤ (a + b).val := by nlinarith
  have su : (a + b).val ≤ 2001 := by nlinarith
  have sll : 1 / 10^12 ≤ (a + b).val := by nlinarith
  have gr := logGamma_round (show 1 / 10^12 ≤ a.val + b.val by linarith) (by linarith) s2
  obtain ⟨f, g⟩ := gg L sll su
  refine ⟨f, ?_⟩
  have := abs_add_le ((lnGamma (a + b)).val - Real.log (Real.Gamma (a + b).val)) (Real.log (Real.Gamma (a + b).val) - Real.log (Real.Gamma (a.val + b.val)))
  rw [sub_add_sub_cancel] at this
  have q : 5 / 10^13 / (a + b).val ≤ 2.5 / 10^13 * (1 / a.val + 1 / b.val) := by
    have e1 : 1 / a.val + 1 / b.val = (a.val + b.val) / (a.val * b.val) := by field_simp; ring
    rw [e1, mul_div_assoc', div_le_div_iff₀ (by linarith) (by positivity)]
    have e2 : 4 * (a.val * b.val) ≤ (a.val + b.val) * (a.val + b.val) := by nlinarith [sq_nonneg (a.val - b.val)]
    have e3 := mul_le_mul_of_nonneg_left sl (show 0 ≤ a.val + b.val by linarith)
    nlinarith
  generalize 1 / a.val + 1 / b.val = D at *
  generalize 5 / 10^13 / (a + b).val = D2 at *
  have w : (4.91:ℝ) / 10^9 = 4.9 / 10^9 + 1 / 10^11 := by norm_num
  have w2 : (7:ℝ) / 10^12 ≤ 1 / 10^11 := by norm_num
  linarith

/-- the exponent of the scale factor -/
theorem arg_ab [Libm F64] (L : LibmUlp) {a b x : F64} (ha : 1 / 10^12 ≤ a.val) (ha1 : a.val ≤ 1000) (hb : 1 / 10^12 ≤ b.val) (hb1 : b.val ≤ 1000)
    (h1 : 1 / 10^300 ≤ x.val) (h2 : x.val < 1) :
    Ab (lnGamma (a + b) - lnGamma a - lnGamma b + a * Libm.ln x + b * Libm.ln (1.0 - x))
      (-Real.log (eulerBeta a.val b.val) + a.val * Real.log x.val + b.val * Real.log (1 - x.val)) (1.65 / 10^8 + 1 / 10^12 * (1 / a.val + 1 / b.val)) := by
  have a0 : 0 < a.val := lt_of_lt_of_le (by norm_num) ha
  have b0 : 0 < b.val := lt_of_lt_of_le (by norm_num) hb
  have x0 : 0 < x.val := lt_of_lt_of_le (by positivity) h1
  have fa : a.isFin = true := isFin_of_abs (b := 1000) (by rw [abs_of_pos a0]; exact ha1) (by norm_num)
  have fb : b.isFin = true := isFin_of_abs (b := 1000) (by rw [abs_of_pos b0]; exact hb1) (by norm_num)
  have fx : x.isFin = true := isFin_of_abs (b := 1) (by rw [abs_of_pos x0]; exact h2.le) (by norm_num)
  obtain ⟨s1, s2⟩ := sum_ab ha ha1 hb hb1
  obtain ⟨o1, o2⟩ := one_sub_ab x0.le h2
  have hy : (1:ℝ) / 10^300 ≤ 1 - x.val := by
    have := lt_one_le h2
    have k : (1:ℝ) / 10^300 ≤ 1 / 2^53 := one_div_le_one_div_of_le (by norm_num) (le_trans (by norm_num : (2:ℝ)^53 ≤ 10^20) (pow_le_pow_right₀ (by norm_num) (by norm_num)))
    linarith
  have y0 : 0 < 1 - x.val := lt_of_lt_of_le (by positivity) hy
  have hlx := log_bd1 h1 h2.le
  have hly := log_bd1 hy (by linarith)
  have tt : (1:ℝ) / 2^1074 ≤ 1 / 10^20 := by
    refine one_div_le_one_div_of_le (by norm_num) ?_
    calc (10:ℝ)^20 ≤ 2^70 := by norm_num
      _ ≤ _ := pow_le_pow_right₀ (by norm_num) (by norm_num)
  have lnx : Ab (Libm.ln x) (Real.log x.val) (1.7 / 10^13) := by
    refine (ab_ln L x0 (r := 0) (by rw [zero_mul]; exact ab_self fx) (by norm_num) hlx).mono ?_
    generalize (1:ℝ) / 2^1074 = t at *
    norm_num at *
    linarith
  have lny : Ab (Libm.ln (1.0 - x)) (Real.log (1 - x.val)) (1.7 / 10^13) := by
    refine (ab_ln L y0 (r := 1.0001 / 2^53) ⟨o1, o2⟩ (by norm_num) hly).mono ?_
    generalize (1:ℝ) / 2^1074 = t at *
    norm_num at *
    linarith
  have al : Ab (a * Libm.ln x) (a.val * Real.log x.val) (5 / 10^10) :=
    (ab_mul (ab_self fa) lnx (P := 1000) (Q := 720) (M := 730000) (by rw [abs_of_pos a0]; exact ha1) hlx (by norm_num) (cap_of (by norm_num) (ten_le (by norm_num) 293))).mono (by norm_num)
  have bl : Ab (b * Libm.ln (1.0 - x)) (b.val * Real.log (1 - x.val)) (5 / 10^10) :=
    (ab_mul (ab_self fb) lny (P := 1000) (Q := 720) (M := 730000) (by rw [abs_of_pos b0]; exact hb1) hly (by norm_num) (cap_of (by norm_num) (ten_le (by norm_num) 293))).mono (by norm_num)
  have hal : |a.val * Real.log x.val| ≤ 720000 := by
    rw [abs_mul, abs_of_pos a0]
    exact (mul_le_mul ha1 hlx (abs_nonneg _) (by norm_num)).trans (by norm_num)
  have hbl : |b.val * Real.log (1 - x.val)| ≤ 720000 := by
    rw [abs_mul, abs_of_pos b0]
    exact (mul_le_mul hb1 hly (abs_nonneg _) (by norm_num)).trans (by norm_num)
  have ga := gg L ha (by linarith)
  have gb := gg L hb (by linarith)
  have gs := gsum L ha ha1 hb hb1
  have hDa : 1 / a.val ≤ 10^12 := by rw [div_le_iff₀ a0]; rw [div_le_iff₀ (by norm_num)] at ha; linarith
  have hDb : 1 / b.val ≤ 10^12 := by rw [div_le_iff₀ b0]; rw [div_le_iff₀ (by norm_num)] at hb; linarith
  have pa : 0 < 1 / a.val := by positivity
  have pb : 0 < 1 / b.val := by positivity
  have l1 := logGamma_le ha (by linarith)
  have l2 := logGamma_le hb (by linarith)
  have l3 := logGamma_le (show 1 / 10^12 ≤ a.val + b.val by linarith) (by linarith)
  have g1 := Real.Gamma_pos_of_pos a0
  have g2 := Real.Gamma_pos_of_pos b0
  have g3 := Real.Gamma_pos_of_pos (add_pos a0 b0)
  have ee : -Real.log (eulerBeta a.val b.val) = Real.log (Real.Gamma (a.val + b.val)) - Real.log (Real.Gamma a.val) - Real.log (Real.Gamma b.val) := by
    rw [eulerBeta_gamma a0 b0, Real.log_div (mul_pos g1 g2).ne' g3.ne', Real.log_mul g1.ne' g2.ne']; ring
  rw [ee]
  have ea : 5 / 10^13 / a.val = 5 / 10^13 * (1 / a.val) := by ring
  have eb : 5 / 10^13 / b.val = 5 / 10^13 * (1 / b.val) := by ring
  rw [ea] at ga
  rw [eb] at gb
  generalize 1 / a.val = Da at *
  generalize 1 / b.val = Db at *
  generalize Real.log (Real.Gamma (a.val + b.val)) = S at *
  generalize Real.log (Real.Gamma a.val) = A at *
  generalize Real.log (Real.Gamma b.val) = B at *
  generalize a.val * Real.log x.val = U at *
  generalize b.val * Real.log (1 - x.val) = V at *
  obtain ⟨p1, p2⟩ := abs_le.1 l1
  obtain ⟨p3, p4⟩ := abs_le.1 l2
  obtain ⟨p5, p6⟩ := abs_le.1 l3
  obtain ⟨p7, p8⟩ := abs_le.1 hal
  obtain ⟨p9, p10⟩ := abs_le.1 hbl
  have q1 : |S - A| ≤ 34000 := by rw [abs_le]; constructor <;> linarith
  have q2 : |S - A - B| ≤ 51000 := by rw [abs_le]; constructor <;> linarith
  have q3 : |S - A - B + U| ≤ 771000 := by rw [abs_le]; constructor <;> linarith
  have q4 : |S - A - B + U + V| ≤ 1491000 := by rw [abs_le]; constructor <;> linarith
  have m1 := (ab_sub gs ga (M := 34010) (by norm_num; linarith) (cap_of (by norm_num) (ten_le (by norm_num) 293))).mono
    (d := 9.84 / 10^9 + 2.5 / 10^13 * (Da + Db) + 5 / 10^13 * Da) (by norm_num; linarith)
  have m2 := (ab_sub m1 gb (M := 51010) (by norm_num; linarith) (cap_of (by norm_num) (ten_le (by norm_num) 293))).mono
    (d := 1.48 / 10^8 + 1 / 10^12 * (Da + Db)) (by norm_num; linarith)
  have m3 := (ab_add m2 al (M := 772000) (by norm_num; linarith) (cap_of (by norm_num) (ten_le (by norm_num) 293))).mono
    (d := 1.55 / 10^8 + 1 / 10^12 * (Da + Db)) (by norm_num; linarith)
  have m4 := (ab_add m3 bl (M := 1492000) (by norm_num; linarith) (cap_of (by norm_num) (ten_le (by norm_num) 293)))
  exact m4.mono (by norm_num; linarith)

/-- the exponent of the complete beta function -/
theorem lnBeta_ab [Libm F64] (L : LibmUlp) {a b : F64} (ha : 1 / 10^12 ≤ a.val) (ha1 : a.val ≤ 1000) (hb : 1 / 10^12 ≤ b.val) (hb1 : b.val ≤ 1000) :
    Ab (lnGamma a + lnGamma b - lnGamma (a + b)) (Real.log (eulerBeta a.val b.val)) (1.5 / 10^8 + 1 / 10^12 * (1 / a.val + 1 / b.val)) := by
  have a0 : 0 < a.val := lt_of_lt_of_le (by norm_num) ha
  have b0 : 0 < b.val := lt_of_lt_of_le (by norm_num) hb
  have ga := gg L ha (by linarith)
  have gb := gg L hb (by linarith)
  have gs := gsum L ha ha1 hb hb1
  have hDa : 1 / a.val ≤ 10^12 := by rw [div_le_iff₀ a0]; rw [div_le_iff₀ (by norm_num)] at ha; linarith
  have hDb : 1 / b.val ≤ 10^12 := by rw [div_le_iff₀ b0]; rw [div_le_iff₀ (by norm_num)] at hb; linarith
  have pa : 0 < 1 / a.val := by positivity
  have pb : 0 < 1 / b.val := by positivity
  have l1 := logGamma_le ha (by linarith)
  have l2 := logGamma_le hb (by linarith)
  have l3 := logGamma_le (show 1 / 10^12 ≤ a.val + b.val by linarith) (by linarith)
  have g1 := Real.Gamma_pos_of_pos a0
  have g2 := Real.Gamma_pos_of_pos b0
  have g3 := Real.Gamma_pos_of_pos (add_pos a0 b0)
  have ee : Real.log (eulerBeta a.val b.val) = Real.log (Real.Gamma a.val) + Real.log (Real.Gamma b.val) - Real.log (Real.Gamma (a.val + b.val)) := by
    rw [eulerBeta_gamma a0 b0, Real.log_div (mul_pos g1 g2).ne' g3.ne', Real.log_mul g1.ne' g2.ne']
  rw [ee]
  have ea : 5 / 10^13 / a.val = 5 / 10^13 * (1 / a.val) := by ring
  have eb : 5 / 10^13 / b.val = 5 / 10^13 * (1 / b.val) := by ring
  rw [ea] at ga
  rw [eb] at gb
  generalize 1 / a.val = Da at *
  generalize 1 / b.val = Db at *
  generalize Real.log (Real.Gamma (a.val + b.val)) = S at *
  generalize Real.log (Real.Gamma a.val) = A at *
  generalize Real.log (Real.Gamma b.val) = B at *
  obtain ⟨p1, p2⟩ := abs_le.1 l1
  obtain ⟨p3, p4⟩ := abs_le.1 l2
  obtain ⟨p5, p6⟩ := abs_le.1 l3
  have q1 : |A + B| ≤ 34000 := by rw [abs_le]; constructor <;> linarith
  have q2 : |A + B - S| ≤ 51000 := by rw [abs_le]; constructor <;> linarith
  have m1 := (ab_add ga gb (M := 34010) (by norm_num; linarith) (cap_of (by norm_num) (ten_le (by norm_num) 293))).mono
    (d := 9.84 / 10^9 + 5 / 10^13 * (Da + Db)) (by norm_num; linarith)
  have m2 := (ab_sub m1 gs (M := 51010) (by norm_num; linarith) (cap_of (by norm_num) (ten_le (by norm_num) 293)))
  exact m2.mono (by norm_num; linarith)

/-- exponential of a slightly wrong exponent -/
theorem exp_ab [Libm F64] (L : LibmUlp) {y : F64} {Y e : ℝ} (h : Ab y Y e) (he : e ≤ 1 / 10^6) (hY : Y ≤ 100) :
    (Libm.exp y).isFin = true ∧ |(Libm.exp y).val - Real.exp Y| ≤ (1.00001 * e + 1 / 10^15) * Real.exp Y + 1 / 2^1074 := by
  have e0 := h.nonneg
  obtain ⟨l1, l2⟩ := abs_le.1 h.err
  have y9 : y.val ≤ 709 := by norm_num at he; linarith
  have hE := L.exp_ulp y h.fin y9
  have hk := exp_small h.err he
  have p0 := Real.exp_pos Y
  have eE : Real.exp y.val = Real.exp Y * Real.exp (y.val - Y) := by rw [← Real.exp_add]; congr 1; ring
  have t1 : |Real.exp y.val - Real.exp Y| ≤ e * (1 + 1 / 10^6) * Real.exp Y := by
    rw [eE, show Real.exp Y * Real.exp (y.val - Y) - Real.exp Y = (Real.exp (y.val - Y) - 1) * Real.exp Y by ring, abs_mul, abs_of_pos p0]
    exact mul_le_mul_of_nonneg_right hk p0.le
  have t2 := abs_add_le ((Libm.exp y).val - Real.exp y.val) (Real.exp y.val - Real.exp Y)
  rw [sub_add_sub_cancel] at t2
  have t3 : Real.exp y.val ≤ 1.1 * Real.exp Y := by
    have := (abs_le.1 t1).2
    have : e * (1 + 1 / 10^6) * Real.exp Y ≤ 0.1 * Real.exp Y := mul_le_mul_of_nonneg_right (by norm_num at he ⊢; linarith) p0.le
    linarith
  refine ⟨?_, ?_⟩
  · have := abs_add_le ((Libm.exp y).val - Real.exp y.val) (Real.exp y.val)
    rw [sub_add_cancel, abs_of_pos (Real.exp_pos _)] at this
    have hb : Real.exp Y ≤ 10^50 := by
      refine (Real.exp_le_exp.2 hY).trans ?_
      have h7 : Real.exp 100 = (Real.exp 1)^100 := by rw [← Real.exp_nat_mul]; norm_num
      rw [h7]
      exact (pow_le_pow_left₀ (Real.exp_pos _).le (show Real.exp 1 ≤ 3 by linarith [Real.exp_one_lt_d9]) 100).trans (by norm_num)
    have k : Real.exp y.val / 2^52 ≤ Real.exp y.val := div_le_self (Real.exp_pos _).le (by norm_num)
    have tt : (1:ℝ) / 2^1074 ≤ 1 := (div_le_one (by positivity)).2 (one_le_pow₀ (by norm_num))
    refine isFin_of_abs (b := 10^60) ?_ (pow_le_pow_right₀ (by norm_num) (by norm_num))
    generalize (1:ℝ) / 2^1074 = t at *
    generalize Real.exp Y = EY at *
    norm_num at hb t3 ⊢
    linarith
  · refine t2.trans ?_
    have : e * (1 + 1 / 10^6) * Real.exp Y ≤ 1.00001 * e * Real.exp Y := mul_le_mul_of_nonneg_right (by norm_num; linarith) p0.le
    have k : Real.exp y.val / 2^52 ≤ 1 / 10^15 * Real.exp Y := by
      rw [div_le_iff₀ (by norm_num)]; norm_num at t3 ⊢; linarith
    rw [add_mul]
    linarith

/-- `Γ(1+a) Γ(1+b) ≤ Γ(1+a+b)` -/
theorem Gamma_super {a b : ℝ} (ha : 0 < a) (hb : 0 < b) : Real.Gamma (a + 1) * Real.Gamma (b + 1) ≤ Real.Gamma (a + b + 1) := by
  have conv := Real.convexOn_log_Gamma
  have key : ∀ p q : ℝ, 0 < p → 0 < q → Real.log (Real.Gamma (p + 1)) ≤ p / (p + q) * Real.log (Real.Gamma (p + q + 1)) := by
    intro p q hp hq
    have c := conv.2 (show p + q + 1 ∈ Set.Ioi 0 from by simp; linarith) (show (1:ℝ) ∈ Set.Ioi 0 from by simp)
      (show 0 ≤ p / (p + q) by positivity) (show 0 ≤ q / (p + q) by positivity) (by field_simp)
    simp only [smul_eq_mul, Function.comp_apply] at c
    rw [show p / (p + q) * (p + q + 1) + q / (p + q) * 1 = p + 1 by field_simp; ring, Real.Gamma_one, Real.log_one, mul_zero, add_zero] at c
    exact c
  have k1 := key a b ha hb
  have k2 := key b a hb ha
  rw [add_comm b a] at k2
  have e : a / (a + b) * Real.log (Real.Gamma (a + b + 1)) + b / (a + b) * Real.log (Real.Gamma (a + b + 1)) = Real.log (Real.Gamma (a + b + 1)) := by
    rw [← add_mul, ← add_div, div_self (by linarith), one_mul]
  have g1 := Real.Gamma_pos_of_pos (show 0 < a + 1 by linarith)
  have g2 := Real.Gamma_pos_of_pos (show 0 < b + 1 by linarith)
  have g3 := Real.Gamma_pos_of_pos (show 0 < a + b + 1 by linarith)
  rw [← Real.log_le_log_iff (mul_pos g1 g2) g3, Real.log_mul g1.ne' g2.ne']
  linarith

theorem eulerBeta_le {a b : ℝ} (ha : 0 < a) (hb : 0 < b) : eulerBeta a b ≤ 1 / a + 1 / b := by
  have h := Gamma_super ha hb
  rw [Real.Gamma_add_one ha.ne', Real.Gamma_add_one hb.ne', Real.Gamma_add_one (by linarith)] at h
  rw [eulerBeta_gamma ha hb, div_le_iff₀ (Real.Gamma_pos_of_pos (add_pos ha hb))]
  have e : 1 / a + 1 / b = (a + b) / (a * b) := by field_simp; ring
  rw [e, div_mul_eq_mul_div, le_div_iff₀ (by positivity)]
  linarith

/-- the logarithm of the beta function is not large -/
theorem log_eulerBeta_le {a b : ℝ} (ha : 1 / 10^12 ≤ a) (hb : 1 / 10^12 ≤ b) : Real.log (eulerBeta a b) ≤ 100 := by
  have a0 : 0 < a := lt_of_lt_of_le (by norm_num) ha
  have b0 : 0 < b := lt_of_lt_of_le (by norm_num) hb
  have hDa : 1 / a ≤ 10^12 := by rw [div_le_iff₀ a0]; rw [div_le_iff₀ (by norm_num)] at ha; linarith
  have hDb : 1 / b ≤ 10^12 := by rw [div_le_iff₀ b0]; rw [div_le_iff₀ (by norm_num)] at hb; linarith
  rw [Real.log_le_iff_le_exp (eulerBeta_pos a0 b0)]
  have h := eulerBeta_le a0 b0
  have h7 : Real.exp 100 = (Real.exp 1)^100 := by rw [← Real.exp_nat_mul]; norm_num
  have h8 := pow_le_pow_left₀ (by norm_num) (show (2:ℝ) ≤ Real.exp 1 by linarith [Real.exp_one_gt_d9]) 100
  rw [h7]
  norm_num at h8 hDa hDb h ⊢
  linarith

/-- the complete beta function in binary64 -/
theorem beta_val [Libm F64] (L : LibmUlp) {a b : F64} (ha : 1 / 10^5 ≤ a.val) (ha1 : a.val ≤ 1000) (hb : 1 / 10^5 ≤ b.val) (hb1 : b.val ≤ 1000) :
    (Libm.exp (lnGamma a + lnGamma b - lnGamma (a + b))).isFin = true ∧
    |(Libm.exp (lnGamma a + lnGamma b - lnGamma (a + b))).val - eulerBeta a.val b.val| ≤
      (1.6 / 10^8 + 1.1 / 10^12 * (1 / a.val + 1 / b.val)) * eulerBeta a.val b.val + 1 / 2^1074 := by
  have a0 : 0 < a.val := lt_of_lt_of_le (by norm_num) ha
  have b0 : 0 < b.val := lt_of_lt_of_le (by norm_num) hb
  have hDa : 1 / a.val ≤ 10^5 := by rw [div_le_iff₀ a0]; rw [div_le_iff₀ (by norm_num)] at ha; linarith
  have hDb : 1 / b.val ≤ 10^5 := by rw [div_le_iff₀ b0]; rw [div_le_iff₀ (by norm_num)] at hb; linarith
  have ha' : 1 / 10^12 ≤ a.val := le_trans (by norm_num) ha
  have hb' : 1 / 10^12 ≤ b.val := le_trans (by norm_num) hb
  have pa : 0 < 1 / a.val := by positivity
  have pb : 0 < 1 / b.val := by positivity
  have B0 := eulerBeta_pos a0 b0
  obtain ⟨f, h⟩ := exp_ab L (lnBeta_ab L ha' ha1 hb' hb1) (by norm_num at hDa hDb ⊢; linarith) (log_eulerBeta_le ha' hb')
  rw [Real.exp_log B0] at h
  refine ⟨f, h.trans ?_⟩
  refine add_le_add (mul_le_mul_of_nonneg_right ?_ B0.le) le_rfl
  generalize 1 / a.val = Da at *
  generalize 1 / b.val = Db at *
  norm_num; linarith

end Bcf
end Verif
