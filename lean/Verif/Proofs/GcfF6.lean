import Verif.Proofs.GcfF5
import Verif.Props.LnGammaAcc
import Verif.Proofs.Ab

/-! The factor `exp(-x + a ln x - ln Γ(a))` of the incomplete gamma functions in binary64. -/

namespace Verif
namespace Gcf
open F64

theorem ten_le {c : ℝ} (h : c ≤ 10^10) (n : ℕ) : c ≤ 10^(10 + n) :=
  h.trans (pow_le_pow_right₀ (by norm_num) (by omega))

theorem logGamma_le {a : ℝ} (ha : 1 / 10^12 ≤ a) (ha1 : a < 100) : |Real.log (Real.Gamma a)| ≤ 540 := by
  have a0 : 0 < a := lt_of_lt_of_le (by norm_num) ha
  have hg := Real.Gamma_pos_of_pos a0
  have e1 := Real.Gamma_add_one a0.ne'
  have e2 := Real.Gamma_add_one (show a + 1 ≠ 0 by linarith)
  have e : Real.Gamma (a + 2) = (a + 1) * a * Real.Gamma a := by rw [show a + 2 = a + 1 + 1 by ring, e2, e1]; ring
  have mono := Real.Gamma_strictMonoOn_Ici.monotoneOn
  have lo : 1 ≤ Real.Gamma (a + 2) := by
    rw [← Real.Gamma_two]; exact mono (by simp) (by simp; linarith) (by linarith)
  have hi : Real.Gamma (a + 2) ≤ 101^101 := by
    have h1 : Real.Gamma (a + 2) ≤ Real.Gamma ((101:ℕ) + 1) := mono (by simp; linarith) (by simp; norm_num) (by push_cast; linarith)
    rw [Real.Gamma_nat_eq_factorial] at h1
    refine h1.trans ?_
    exact_mod_cast Nat.factorial_le_pow 101
  rw [abs_le]
  constructor
  · have : (1:ℝ) / 10100 ≤ Real.Gamma a := by
      rw [div_le_iff₀ (by norm_num)]
      rw [e] at lo
      have : (a + 1) * a ≤ 10100 := by nlinarith
      nlinarith
    have h := Real.log_le_log (by norm_num) this
    have h2 : -540 ≤ Real.log (1 / 10100) := by
      rw [Real.le_log_iff_exp_le (by norm_num), Real.exp_neg]
      have : (10100:ℝ) ≤ Real.exp 540 := by
        have := Real.add_one_le_exp (540 / 2 : ℝ)
        have h3 : Real.exp 540 = Real.exp (540/2) * Real.exp (540/2) := by rw [← Real.exp_add]; norm_num
        rw [h3]; nlinarith
      rw [one_div]
      exact inv_anti₀ (by norm_num) this
    linarith
  · have : Real.Gamma a ≤ 10^12 * 101^101 := by
      have h5 : Real.Gamma a = Real.Gamma (a + 2) / ((a + 1) * a) := by rw [e]; field_simp
      rw [h5, div_le_iff₀ (by positivity)]
      have h6 : 1 ≤ (a + 1) * a * 10^12 := by
        rw [div_le_iff₀ (by norm_num)] at ha
        nlinarith
      generalize (101:ℝ)^101 = q at *
      have hq : 0 < q := by linarith
      nlinarith
    have h := Real.log_le_log hg this
    rw [Real.log_mul (by norm_num) (by positivity), Real.log_pow, Real.log_pow] at h
    have l1 : Real.log 10 ≤ 2.4 := by
      rw [Real.log_le_iff_le_exp (by norm_num)]
      have := Real.exp_one_gt_d9
      have h7 : Real.exp 2.4 = (Real.exp 1)^2 * Real.exp 0.4 := by rw [← Real.exp_nat_mul, ← Real.exp_add]; norm_num
      have h8 := Real.add_one_le_exp (0.4:ℝ)
      rw [h7]
      have h9 : (7.38:ℝ) ≤ (Real.exp 1)^2 := by nlinarith
      nlinarith
    have l2 : Real.log 101 ≤ 5 := by
      rw [Real.log_le_iff_le_exp (by norm_num)]
      have h7 : Real.exp 5 = (Real.exp 1)^5 := by rw [← Real.exp_nat_mul]; norm_num
      rw [h7]
      exact le_trans (by norm_num) (pow_le_pow_left₀ (by norm_num) Real.exp_one_gt_d9.le 5)
    push_cast at h
    norm_num at *
    linarith

theorem log_bd {x : ℝ} (h1 : 1 / 10^28 ≤ x) (h2 : x ≤ 330) : |Real.log x| ≤ 65 := by
  have x0 : 0 < x := lt_of_lt_of_le (by norm_num) h1
  have e65 : (10:ℝ)^28 ≤ Real.exp 65 := by
    have h7 : Real.exp 65 = (Real.exp 1)^65 := by rw [← Real.exp_nat_mul]; norm_num
    rw [h7]
    refine le_trans ?_ (pow_le_pow_left₀ (by norm_num) Real.exp_one_gt_d9.le 65)
    refine le_trans ?_ (pow_le_pow_left₀ (by norm_num) (show (2.718:ℝ) ≤ 2.7182818283 by norm_num) 65)
    norm_num
  rw [abs_le]
  constructor
  · rw [Real.le_log_iff_exp_le x0, Real.exp_neg]
    refine le_trans ?_ h1
    rw [one_div]
    exact inv_anti₀ (by norm_num) e65
  · rw [Real.log_le_iff_le_exp x0]
    refine h2.trans (le_trans (by norm_num) e65)

/-- the logarithm of the scale factor -/
noncomputable def Lr (a x : ℝ) : ℝ := -x + a * Real.log x - Real.log (Real.Gamma a)

theorem logRes_ab [Libm F64] (L : LibmUlp) {a x : F64} (ha : 1 / 10^12 ≤ a.val) (ha1 : a.val < 100) (h1 : 1 / 10^28 ≤ x.val) (h2 : x.val ≤ 330) :
    (-x + a * Libm.ln x - lnGamma a).isFin = true ∧
    |(-x + a * Libm.ln x - lnGamma a).val - Lr a.val x.val| ≤ 4.05 / 10^9 + 5 / 10^13 / a.val := by
  have a0 : 0 < a.val := lt_of_lt_of_le (by norm_num) ha
  have x0 : 0 < x.val := lt_of_lt_of_le (by norm_num) h1
  have fa : a.isFin = true := isFin_of_abs (b := 100) (by rw [abs_of_pos a0]; exact ha1.le) (by norm_num)
  have fx : x.isFin = true := isFin_of_abs (b := 330) (by rw [abs_of_pos x0]; exact h2) (by norm_num)
  have hl := log_bd h1 h2
  have hg := logGamma_le ha ha1
  obtain ⟨g1, g2⟩ := ln_gamma_accurate_partial L ha (ten_le (by norm_num; linarith) 290)
  have tt : (1:ℝ) / 2^1074 ≤ 1 / 10^20 := by
    refine one_div_le_one_div_of_le (by norm_num) ?_
    calc (10:ℝ)^20 ≤ 2^70 := by norm_num
      _ ≤ _ := pow_le_pow_right₀ (by norm_num) (by norm_num)
  have lnx : Ab (Libm.ln x) (Real.log x.val) (2 / 10^14) := by
    have := ab_ln L x0 (r := 0) (by rw [zero_mul]; exact ab_self fx) (by norm_num) hl
    refine this.mono ?_
    generalize (1:ℝ) / 2^1074 = t at *
    norm_num at *
    linarith
  have al : Ab (a * Libm.ln x) (a.val * Real.log x.val) (4 / 10^12) := by
    have := ab_mul (ab_self fa) lnx (P := 100) (Q := 65) (M := 7000) (by rw [abs_of_pos a0]; exact ha1.le) hl (by norm_num) (cap_of (by norm_num) (ten_le (by norm_num) 293))
    exact this.mono (by norm_num)
  have hal : |a.val * Real.log x.val| ≤ 6500 := by
    rw [abs_mul, abs_of_pos a0]
    have := mul_le_mul ha1.le hl (abs_nonneg _) (by norm_num)
    linarith
  have s1 : Ab (-x + a * Libm.ln x) (-x.val + a.val * Real.log x.val) (1 / 10^11) := by
    have := ab_add (ab_neg (ab_self fx)) al (M := 7000) (by
      have := abs_add_le (-x.val) (a.val * Real.log x.val)
      rw [abs_neg, abs_of_pos x0] at this
      norm_num; linarith) (cap_of (by norm_num) (ten_le (by norm_num) 293))
    exact this.mono (by norm_num)
  have hs1 : |-x.val + a.val * Real.log x.val| ≤ 6830 := by
    have := abs_add_le (-x.val) (a.val * Real.log x.val)
    rw [abs_neg, abs_of_pos x0] at this
    linarith
  have hj : 5 / 10^13 / a.val ≤ 1/2 := by
    rw [div_le_iff₀ a0]
    rw [div_le_iff₀ (by norm_num)] at ha
    norm_num at *
    linarith
  have hlg : Real.log (a.val + 6) ≤ 5 := by
    rw [Real.log_le_iff_le_exp (by linarith)]
    have h7 : Real.exp 5 = (Real.exp 1)^5 := by rw [← Real.exp_nat_mul]; norm_num
    rw [h7]
    refine le_trans (by linarith : a.val + 6 ≤ 106) (le_trans (by norm_num) (pow_le_pow_left₀ (by norm_num) Real.exp_one_gt_d9.le 5))
  have hlg0 : (a.val + 6) * Real.log (a.val + 6) ≤ 530 := by
    have := mul_le_mul (by linarith : a.val + 6 ≤ 106) hlg (Real.log_nonneg (by linarith)) (by norm_num)
    linarith
  have gg : Ab (lnGamma a) (Real.log (Real.Gamma a.val)) (4.03 / 10^9 + 5 / 10^13 / a.val) := by
    refine ⟨g1, g2.trans ?_⟩
    norm_num at *
    linarith
  have := ab_sub s1 gg (M := 10000) (by
    have := abs_sub (-x.val + a.val * Real.log x.val) (Real.log (Real.Gamma a.val))
    norm_num at *
    linarith) (cap_of (by norm_num) (ten_le (by norm_num) 293))
  refine ⟨this.fin, this.err.trans ?_⟩
  norm_num
  linarith

end Gcf
end Verif
