import Verif.Proofs.LnGammaF
import Mathlib.Analysis.Real.Pi.Bounds

/-! # C68: `ln_gamma` is accurate -/

namespace Verif
open F64 ZPoly

theorem log_head : |Real.log √(2 * Real.pi)| ≤ 1 := by
  have p1 := Real.pi_gt_d20
  have p2 := Real.pi_lt_d20
  have b1 : (25066282746310000:ℝ) / 10^16 ≤ √(2 * Real.pi) := by
    refine Real.le_sqrt_of_sq_le ?_
    norm_num at p1 ⊢; linarith
  have b2 : √(2 * Real.pi) ≤ (25066282746310010:ℝ) / 10^16 := by
    rw [Real.sqrt_le_left (by norm_num)]
    norm_num at p2 ⊢; linarith
  generalize √(2 * Real.pi) = S at *
  rw [abs_le]
  constructor
  · have : 0 ≤ Real.log S := Real.log_nonneg (by norm_num at b1; linarith)
    linarith
  · rw [Real.log_le_iff_le_exp (by norm_num at b1; linarith)]
    have := Real.exp_one_gt_d9
    norm_num at b2 this
    linarith

theorem head_ab [Libm F64] (L : LibmUlp) : Ab (Libm.ln (Arith.sqrt ((2.0 : F64) * Arith.pi))) (Real.log √(2 * Real.pi)) (10 / 2^52) := by
  have p1 := Real.pi_gt_d20
  have p2 := Real.pi_lt_d20
  have f : (Arith.sqrt ((2.0 : F64) * Arith.pi)).isFin = true := by decide +kernel
  have a1 : (25066282746310000:ℝ) / 10^16 ≤ (Arith.sqrt ((2.0 : F64) * Arith.pi)).val := by
    have := le_val_of_sv (x := Arith.sqrt ((2.0 : F64) * Arith.pi)) 25066282746310000 (10^16) (by norm_num) (by decide +kernel)
    push_cast at this; refine le_trans (by norm_num) this
  have a2 : (Arith.sqrt ((2.0 : F64) * Arith.pi)).val ≤ (25066282746310010:ℝ) / 10^16 := by
    have := val_le_of_sv (x := Arith.sqrt ((2.0 : F64) * Arith.pi)) 25066282746310010 (10^16) (by norm_num) (by decide +kernel)
    push_cast at this; refine le_trans this (by norm_num)
  have b1 : (25066282746310000:ℝ) / 10^16 ≤ √(2 * Real.pi) := by
    refine Real.le_sqrt_of_sq_le ?_
    norm_num at p1 ⊢; linarith
  have b2 : √(2 * Real.pi) ≤ (25066282746310010:ℝ) / 10^16 := by
    rw [Real.sqrt_le_left (by norm_num)]
    norm_num at p2 ⊢; linarith
  have hs : 0 < √(2 * Real.pi) := by positivity
  have hab : Ab (Arith.sqrt ((2.0 : F64) * Arith.pi)) √(2 * Real.pi) (4 / 2^52 * √(2 * Real.pi)) := by
    refine ⟨f, ?_⟩
    generalize √(2 * Real.pi) = S at *
    rw [abs_le]
    norm_num at *
    constructor <;> linarith
  have hl := log_head
  refine (ab_ln L hs hab (by norm_num) hl).mono ?_
  have : (1:ℝ) / 2^1074 ≤ 1 / 2^60 := one_div_le_one_div_of_le (by positivity) (pow_le_pow_right₀ (by norm_num) (by norm_num))
  generalize (1:ℝ) / 2^1074 = t at *
  norm_num at this ⊢
  linarith

theorem tiny_le : (1:ℝ) / 2^1074 ≤ 1 / 2^60 := one_div_le_one_div_of_le (by positivity) (pow_le_pow_right₀ (by norm_num) (by norm_num))

theorem log_w {x : ℝ} (h0 : 0 < x) : 7/4 ≤ Real.log (x + 6) := by
  rw [Real.le_log_iff_exp_le (by linarith)]
  have h1 := Real.exp_one_lt_d9
  have : Real.exp (7/4) = Real.exp 1 * Real.exp (3/4) := by rw [← Real.exp_add]; norm_num
  have h2 : Real.exp (3/4) ≤ 2.1171 := by
    have := Real.exp_bound' (x := 3/4) (by norm_num) (by norm_num) (n := 8) (by norm_num)
    refine this.trans ?_
    norm_num [Finset.sum_range_succ, Nat.factorial]
  rw [this]
  have h3 : Real.exp 1 * Real.exp (3/4) ≤ 2.7182818286 * 2.1171 := mul_le_mul h1.le h2 (Real.exp_pos _).le (by norm_num)
  norm_num at h3 ⊢
  linarith

theorem log_w_le {x : ℝ} (h0 : 0 < x) (h : x ≤ 10^300) : Real.log (x + 6) ≤ 701 := by
  have h1 : x + 6 ≤ 2^1010 := by
    have e : (10:ℝ)^300 + 6 ≤ 10^303 := by
      have : (1:ℝ) ≤ 10^300 := one_le_pow₀ (by norm_num)
      have e : (10:ℝ)^303 = 10^300 * 1000 := by rw [pow_add _ 300 3]; norm_num
      rw [e]
      clear e h
      generalize (10:ℝ)^300 = y at *
      linarith
    have c := (cap_of (M := 10^303) (by
      calc (1:ℝ) / 2^100 ≤ 1 := by norm_num
        _ ≤ _ := one_le_pow₀ (by norm_num)) (le_refl _)).hi
    exact le_trans (by linarith) (e.trans c)
  refine (Real.log_le_log (by linarith) h1).trans ?_
  rw [Real.log_pow]
  have := Real.log_two_lt_d9
  norm_num at this ⊢
  linarith

theorem base_ab [Libm F64] (L : LibmUlp) {x : F64} (h : LanHyp x) :
    Ab (x - 1.0 + 5.0 + 0.5) (x.val + 9/2) (5 * (x.val + 6) / 2^52) ∧
    Ab (Libm.ln (x - 1.0 + 5.0 + 0.5)) (Real.log (x.val + 9/2)) (12 * Real.log (x.val + 6) / 2^52) := by
  have h0 : 0 < x.val := lt_of_lt_of_le (by norm_num) h.lo
  have five : Ab (5.0 : F64) 5 0 := ab_int (by decide +kernel) (by exact_mod_cast val_of_int (x := (5.0 : F64)) 5 (by decide +kernel))
  have half : Ab (0.5 : F64) (1/2) 0 := ab_int (by decide +kernel) (by
    have := val_of_sv (x := (0.5 : F64)) 1 2 (by norm_num) (by decide +kernel)
    push_cast at this; exact this)
  have b := ab_add (M := 2 * (x.val + 6)) (zi_ab h five (by norm_num) (by norm_num)) half (by
    rw [abs_of_pos (by linarith)]
    norm_num
    linarith) (capw h0 h.hi (by norm_num) (by norm_num))
  rw [show x.val - 1 + 5 + 1/2 = x.val + 9/2 by ring] at b
  have b := b.mono (d := 5 * (x.val + 6) / 2^52) (by linarith)
  refine ⟨b, ?_⟩
  have l1 := log_w h0
  have b' : Ab (x - 1.0 + 5.0 + 0.5) (x.val + 9/2) (7 / 2^52 * (x.val + 9/2)) := b.mono (by norm_num; linarith)
  have hP : |Real.log (x.val + 9/2)| ≤ Real.log (x.val + 6) := by
    rw [abs_of_nonneg (Real.log_nonneg (by linarith))]
    exact Real.log_le_log (by linarith) (by linarith)
  refine (ab_ln L (by linarith) b' (by norm_num) hP).mono ?_
  have := tiny_le
  generalize (1:ℝ) / 2^1074 = t at *
  norm_num at this ⊢
  linarith

theorem lanL_err {x : ℝ} (h : 0 < x) : |lanL x - Real.log (Real.Gamma x)| ≤ 4 / 10^9 := by
  have a := lanL_acc h
  have b : 1.25e-8 / (x + 7/2) ≤ 1.25e-8 / (7/2) := div_le_div_of_nonneg_left (by norm_num) (by norm_num) (by linarith)
  have c : |Real.log 1.000000000189712| ≤ 1.9e-10 := by
    rw [abs_of_nonneg (Real.log_nonneg (by norm_num))]
    refine (Real.log_le_sub_one_of_pos (by norm_num)).trans ?_
    norm_num
  have d := abs_add_le (lanL x - Real.log (Real.Gamma x) - Real.log 1.000000000189712) (Real.log 1.000000000189712)
  rw [sub_add_cancel] at d
  refine d.trans ((add_le_add (a.trans b) c).trans ?_)
  norm_num

/-- rounding errors of `ln_gamma` -/
theorem lnGamma_ab [Libm F64] (L : LibmUlp) {x : F64} (h : LanHyp x) :
    Ab (lnGamma x) (lanL x.val) (5 / 10^13 / x.val + 5 / 10^14 * ((x.val + 6) * Real.log (x.val + 6))) := by
  have h0 : 0 < x.val := lt_of_lt_of_le (by norm_num) h.lo
  have l1 := log_w h0
  have l2 := log_w_le h0 h.hi
  have hi0 : 0 < 1 / x.val := by positivity
  have hi1 : 1 / x.val ≤ 10^12 := by
    rw [div_le_iff₀ h0]; have := h.lo; rw [div_le_iff₀ (by norm_num)] at this; linarith
  have hJe : 5 / 10^13 / x.val = 5 / 10^13 * (1 / x.val) := by ring
  rw [hJe]
  obtain ⟨b1, b2⟩ := base_ab L h
  have half : Ab (0.5 : F64) (1/2) 0 := ab_int (by decide +kernel) (by
    have := val_of_sv (x := (0.5 : F64)) 1 2 (by norm_num) (by decide +kernel)
    push_cast at this; exact this)
  have q := zi_ab h half (by norm_num) (by norm_num)
  rw [show x.val - 1 + 1/2 = x.val - 1/2 by ring] at q
  have hS := lanS_ab h
  have hS1 := one_le_lanS h0
  have hSe : lanS x.val = ev lanN x.val / ev lanP x.val := rfl
  have hST : lanS x.val ≤ 114 * (1 + 1 / x.val) := (lanS_le h0).trans (lanT_bound h0)
  have hd := head_ab L
  have hhd : |Real.log √(2 * Real.pi)| ≤ 1 := log_head
  unfold lnGamma lanL
  rw [← hSe]
  have hlS : |Real.log (lanS x.val)| ≤ 114 * (1 + 1 / x.val) := by
    rw [abs_of_nonneg (Real.log_nonneg hS1)]
    have := Real.log_le_sub_one_of_pos (x := lanS x.val) (by linarith)
    linarith
  have hcapw : Cap (100 * (x.val + 6)) := capw h0 h.hi (by norm_num) (by norm_num)
  have hw1 : x.val + 6 ≤ 2 * 10^300 := by
    have : (6:ℝ) ≤ 10^300 := by
      calc (6:ℝ) ≤ 10^1 := by norm_num
        _ ≤ _ := pow_le_pow_right₀ (by norm_num) (by norm_num)
    have := h.hi
    generalize (10:ℝ)^300 = y at *
    linarith
  have hlb : |Real.log (x.val + 9/2)| ≤ Real.log (x.val + 6) := by
    rw [abs_of_nonneg (Real.log_nonneg (by linarith))]
    exact Real.log_le_log (by linarith) (by linarith)
  have hq : |x.val - 1/2| ≤ x.val + 6 := by rw [abs_le]; constructor <;> linarith
  have cap4 : ∀ M, 1 ≤ M → M ≤ 200 * (1 + 1 / x.val) + 2 * (x.val + 6) + 2 * (Real.log (x.val + 6) * (x.val + 6)) → Cap M := by
    intro M m1 m2
    have c304 : (10:ℝ)^304 ≤ 2^1010 := by exact_mod_cast (by decide +kernel : (10:ℕ)^304 ≤ 2^1010)
    refine ⟨(cap_of (M := 1) (by norm_num) (one_le_pow₀ (by norm_num))).lo.trans m1, le_trans (m2.trans ?_) c304⟩
    clear c304
    have k1 : Real.log (x.val + 6) * (x.val + 6) ≤ 701 * (2 * 10^300) := mul_le_mul l2 hw1 (by linarith) (by norm_num)
    have k2 : (1:ℝ) ≤ 10^280 := one_le_pow₀ (by norm_num)
    have e1 : (10:ℝ)^300 = 10^20 * 10^280 := by rw [← pow_add]
    have e2 : (10:ℝ)^304 = 10^24 * 10^280 := by rw [← pow_add]
    rw [e1] at k1 hw1
    rw [e2]
    clear e1 e2
    generalize (10:ℝ)^280 = y at *
    clear hS hd b1 b2 q hcapw m1 m2 hST hlS
    generalize 1 / x.val = i at hi1 ⊢
    norm_num at hi1 k1 hw1 ⊢
    linarith
  have hJ0 : 1 ≤ 1 + 1 / x.val := by linarith
  have hJ1 : 1 + 1 / x.val ≤ 1 + 10^12 := by linarith
  have hw6 : 6 ≤ x.val + 6 := by linarith
  have hls := ab_ln L (by linarith) hS (by
    norm_num at hJ1 ⊢; linarith) hlS
  have ht := tiny_le
  have ht0 : (0:ℝ) ≤ 1 / 2^1074 := by positivity
  have hpq := mul_nonneg (by linarith : 0 ≤ Real.log (x.val + 6) - 7/4) (by linarith : 0 ≤ x.val + 6 - 6)
  generalize (1:ℝ) / 2^1074 = t at *
  generalize hJ : 1 + 1 / x.val = J at *
  have hJx : 1 / x.val = J - 1 := by linarith
  rw [hJx]
  have hls := hls.mono (d := 1420 * J / 2^52) (by
    have : J * (648 / 2^52) ≤ 1/5 := by norm_num at hJ1 ⊢; linarith
    have e : 648 * J / 2^52 = J * (648 / 2^52) := by ring
    rw [e]
    norm_num at ht this ⊢
    linarith)
  clear hcapw h hS hi0 hi1 hJ hJe
  generalize Real.log (x.val + 6) = l at *
  generalize hw : x.val + 6 = w at *
  have hlw : 7/4 * w ≤ l * w := by nlinarith
  have pr := ab_mul (M := 2 * (l * w)) b2 q hlb hq (by
    have : 12 * l / 2^52 * w + l * (3 * w / 2^52) + 12 * l / 2^52 * (3 * w / 2^52) = l * w * (15 / 2^52 + 36 / 2^104) := by ring
    rw [this]
    have h2 : (15 / 2^52 + 36 / 2^104 : ℝ) ≤ 1 := by norm_num
    nlinarith) (cap4 _ (by linarith) (by linarith))
  have pr := pr.mono (d := 18 * (l * w) / 2^52) (by
    have : 12 * l / 2^52 * w + l * (3 * w / 2^52) + 12 * l / 2^52 * (3 * w / 2^52) = l * w * (15 / 2^52 + 36 / 2^104) := by ring
    rw [this]
    have h2 : (15 / 2^52 + 36 / 2^104 : ℝ) ≤ 16 / 2^52 := by norm_num
    have h3 := mul_le_mul_of_nonneg_left h2 (by linarith : 0 ≤ l * w)
    linarith)
  generalize Real.log √(2 * Real.pi) = H at *
  generalize Real.log (lanS x.val) = G at *
  generalize Real.log (x.val + 9/2) = K at *
  have s1 := ab_add (M := 200 * J) hd hls (by
    have := abs_add_le (H) (G)
    linarith) (cap4 _ (by linarith) (by linarith))
  have s2 := ab_sub (M := 200 * J + 2 * w) s1 b1 (by
    have h1 := abs_add_le (H) (G)
    have h2 := abs_sub (H + G) (x.val + 9/2)
    rw [abs_of_pos (a := x.val + 9/2) (by linarith)] at h2
    linarith) (cap4 _ (by linarith) (by linarith))
  have s3 := ab_add (M := 200 * J + 2 * w + 2 * (l * w)) s2 pr (by
    have h1 := abs_add_le (H) (G)
    have h2 := abs_sub (H + G) (x.val + 9/2)
    have h3 := abs_add_le (H + G - (x.val + 9/2)) (K * (x.val - 1/2))
    have h4 : |K * (x.val - 1/2)| ≤ l * w := by
      rw [abs_mul]; exact mul_le_mul hlb hq (abs_nonneg _) (by linarith)
    rw [abs_of_pos (a := x.val + 9/2) (by linarith)] at h2
    linarith) (cap4 _ (by linarith) (by linarith))
  refine s3.mono ?_
  norm_num
  linarith

/-- C68: for `10^-12 ≤ z ≤ 10^300` the result of `ln_gamma(z)` is within `4·10^-9` of `log Γ(z)`, up to rounding errors, which are at most
`5·10^-13/z + 5·10^-14·(z+6)·log(z+6)`. -/
theorem ln_gamma_accurate_partial [Libm F64] (L : LibmUlp) {z : F64} (h1 : 1 / 10^12 ≤ z.val) (h2 : z.val ≤ 10^300) :
    (lnGamma z).isFin = true ∧ |(lnGamma z).val - Real.log (Real.Gamma z.val)| ≤
      4 / 10^9 + 5 / 10^13 / z.val + 5 / 10^14 * ((z.val + 6) * Real.log (z.val + 6)) := by
  have h0 : 0 < z.val := lt_of_lt_of_le (by norm_num) h1
  have a := lnGamma_ab L ⟨h1, h2⟩
  have b := lanL_err h0
  refine ⟨a.fin, (abs_sub_le _ (lanL z.val) _).trans ?_⟩
  have := a.err
  linarith

/-- C68: `ln_gamma` executed in exact arithmetic is within `4·10^-9` of `log Γ` on the whole positive axis: this is the error of the Lanczos
coefficients alone. -/
theorem ln_gamma_exact_accurate {z : ℝ} (h : 0 < z) : |lnGamma z - Real.log (Real.Gamma z)| ≤ 4 / 10^9 := by
  rw [lnGamma_eq_lanL h]; exact lanL_err h

/-- C68: so `exp(ln_gamma(z))`, the way the library turns it into a gamma function, has relative error at most `4.1·10^-9` -/
theorem exp_ln_gamma_exact_accurate {z : ℝ} (h : 0 < z) : |Real.exp (lnGamma z) - Real.Gamma z| ≤ 41 / 10^10 * Real.Gamma z := by
  have hG := Real.Gamma_pos_of_pos h
  have a := ln_gamma_exact_accurate h
  have e : Real.exp (lnGamma z) = Real.Gamma z * Real.exp (lnGamma z - Real.log (Real.Gamma z)) := by
    rw [Real.exp_sub, Real.exp_log hG]; field_simp
  generalize lnGamma z - Real.log (Real.Gamma z) = d at *
  have hb := Real.abs_exp_sub_one_le (x := d) (a.trans (by norm_num))
  rw [e, show Real.Gamma z * Real.exp d - Real.Gamma z = Real.Gamma z * (Real.exp d - 1) by ring, abs_mul, abs_of_pos hG, mul_comm]
  refine mul_le_mul_of_nonneg_right ?_ hG.le
  have hb2 := Real.abs_exp_sub_one_sub_id_le (x := d) (a.trans (by norm_num))
  have h3 := abs_add_le (Real.exp d - 1 - d) d
  rw [sub_add_cancel] at h3
  have h4 : d ^ 2 ≤ 1 / 10^10 := by
    rw [← sq_abs]
    calc |d|^2 ≤ (4 / 10^9)^2 := pow_le_pow_left₀ (abs_nonneg _) a 2
      _ ≤ _ := by norm_num
  norm_num at *
  linarith

/-! ## The hypotheses are met -/

example : ∃ _ : Libm F64, LibmUlp := ⟨idealLibm, ideal_ulp⟩
example : 1 / 10^12 ≤ (1.0 : F64).val ∧ (1.0 : F64).val ≤ 10^300 := by
  rw [one_val]
  exact ⟨by norm_num, one_le_pow₀ (by norm_num)⟩
/-- at `z = 1` the bound is below `5·10^-9` -/
example [Libm F64] (L : LibmUlp) : |(lnGamma (1.0 : F64)).val| ≤ 5 / 10^9 := by
  have h := (ln_gamma_accurate_partial L (z := 1.0) (by rw [one_val]; norm_num) (by rw [one_val]; exact one_le_pow₀ (by norm_num))).2
  rw [one_val, Real.Gamma_one, Real.log_one, sub_zero] at h
  have : Real.log (1 + 6) ≤ 1 + 6 - 1 := Real.log_le_sub_one_of_pos (by norm_num)
  norm_num at h this ⊢
  linarith

end Verif
