import Verif.Proofs.FadSpec
import Verif.Props.Faddeeva
import Verif.Props.ErfcxAll
import Verif.LibmUlp

/-! C83: `faddeeva(x, y)` approximates `w(x + iy)`. -/

namespace Verif
open F64
variable [Libm F64] [Cfg]

/-- the number `x + iy` -/
noncomputable def cpx (x y : F64) : ℂ := ⟨x.val, y.val⟩

theorem abs_dawsonR_le (x : ℝ) : |dawsonR x| ≤ |x| := by
  have h := intervalIntegral.norm_integral_le_of_norm_le_const (f := fun t : ℝ => Real.exp (t^2)) (C := Real.exp (x^2)) (a := 0) (b := x) (by
    intro t ht
    rw [Real.norm_eq_abs, abs_of_pos (Real.exp_pos _)]
    refine Real.exp_le_exp.2 (sq_le_sq.2 ?_)
    rcases le_total 0 x with hx | hx
    · rw [Set.uIoc_of_le hx] at ht
      rw [abs_of_pos ht.1, abs_of_nonneg hx]; exact ht.2
    · rw [Set.uIoc_of_ge hx] at ht
      rw [abs_of_nonpos ht.2, abs_of_nonpos hx]; linarith [ht.1])
  rw [sub_zero, Real.norm_eq_abs] at h
  unfold dawsonR
  rw [abs_mul, abs_of_pos (Real.exp_pos _)]
  calc Real.exp (-x^2) * |∫ t in (0:ℝ)..x, Real.exp (t^2)| ≤ Real.exp (-x^2) * (Real.exp (x^2) * |x|) := mul_le_mul_of_nonneg_left h (Real.exp_pos _).le
    _ = |x| := by rw [← mul_assoc, ← Real.exp_add]; simp

theorem cpx_real (x y : F64) (hy : y.isZero = true) : cpx x y = ((x.val : ℝ) : ℂ) := by
  apply Complex.ext
  · simp [cpx]
  · simp [cpx, val_eq_zero.2 hy]

theorem cpx_imag (x y : F64) (hx : x.isZero = true) : cpx x y = ((y.val : ℝ) : ℂ) * Complex.I := by
  apply Complex.ext
  · simp [cpx, val_eq_zero.2 hx]
  · simp [cpx]

/-- C83 on the imaginary axis: for every finite `y ≥ -26.6`, `y ≠ 0`, the real part is within `10^-13` (relative) of `w(iy) = e^(y²) erfc(y)`,
and the imaginary part is exactly that of `w(iy)`, zero. -/
theorem faddeeva_imag_accurate (L : LibmUlp) (x y : F64) (hx : x.isZero = true) (hf : y.isFin = true) (hy : y.val ≠ 0) (h : -26.6 ≤ y.val) :
    ∃ v, Returns (faddeeva x y) v ∧ |v.1.val - (faddeevaW (cpx x y)).re| ≤ (faddeevaW (cpx x y)).re / 10^13 + 1 / 2^1075 ∧
      v.2.val = (faddeevaW (cpx x y)).im := by
  obtain ⟨w, h1, h2, h3⟩ := erfcx_accurate_all L hf h
  obtain ⟨v, g1, g2, g3⟩ := faddeeva_imag_axis x y w hx (isFin_notNaN hf) hy h1
  refine ⟨v, g1, ?_, ?_⟩
  · rw [cpx_imag x y hx, faddeevaW_imag, Complex.ofReal_re]
    rcases g2 with ⟨-, g⟩ | ⟨-, -, g⟩
    · rw [isFin_notNaN h2] at g; cases g
    · rw [g]; exact h3
  · rw [cpx_imag x y hx, faddeevaW_imag, Complex.ofReal_im]
    exact val_eq_zero.2 g3

theorem exp_close {u v : ℝ} (h : |u - v| ≤ 1 / 2) : |Real.exp u - Real.exp v| ≤ 2 * |u - v| * Real.exp v := by
  have e : Real.exp u - Real.exp v = (Real.exp (u - v) - 1) * Real.exp v := by rw [sub_mul, ← Real.exp_add]; simp
  rw [e, abs_mul, abs_of_pos (Real.exp_pos v)]
  exact mul_le_mul_of_nonneg_right (Real.abs_exp_sub_one_le (h.trans (by norm_num))) (Real.exp_pos _).le

/-- C83 on the real axis, real part: within `2·10^-13` (relative) of `Re w(x) = e^(-x²)` for `0 < |x| ≤ 26`. -/
theorem faddeeva_real_re (L : LibmUlp) (x y : F64) (h0 : x.val ≠ 0) (h26 : |x.val| ≤ 26) (hy : y.isZero = true) :
    ∃ v, Returns (faddeeva x y) v ∧ |v.1.val - (faddeevaW (cpx x y)).re| ≤ (faddeevaW (cpx x y)).re * (2 / 10^13) + 1 / 2^1074 := by
  obtain ⟨d, hd, -⟩ := dawson_total_partial L.toLibmAcc x (h26.trans (by norm_num))
  obtain ⟨v, g1, g2, -⟩ := faddeeva_real_axis L.toLibmSpec x y d h0 (h26.trans (by norm_num)) hy hd
  refine ⟨v, g1, ?_⟩
  have fx : x.isFin = true := isFin_of_abs h26 (by norm_num)
  have sq : x.val * x.val ≤ 676 := by
    rw [← abs_mul_abs_self]
    exact (mul_le_mul h26 h26 (abs_nonneg _) (by norm_num)).trans (by norm_num)
  have sq0 : 0 ≤ x.val * x.val := mul_self_nonneg _
  have m := (mul_spec fx fx).2.1
  have er := RN_err' (x := x.val * x.val) (lt_of_lt_of_le (by rw [abs_of_nonneg sq0]; linarith) HUGE_ge)
  rw [← m, abs_of_nonneg sq0] at er
  have tiny : (1:ℝ) / 2^1075 ≤ 1 / 10^30 := one_div_le_one_div_of_le (by norm_num) (le_trans (by norm_num : (10:ℝ)^30 ≤ 2^100) (pow_le_pow_right₀ (by norm_num) (by norm_num)))
  have er2 : |(x * x).val - x.val * x.val| ≤ 8 / 10^14 := by
    refine er.trans ?_
    generalize (1:ℝ) / 2^1075 = w at *
    norm_num at *
    linarith
  have fm : (x * x).isFin = true := isFin_of_abs (b := 1000) (by
    obtain ⟨a1, a2⟩ := abs_le.1 er2
    rw [abs_le]; constructor <;> norm_num at a1 a2 ⊢ <;> linarith) (by norm_num)
  have up := L.exp_ulp (-(x * x)) (by rw [isFin_neg]; exact fm) (by
    obtain ⟨a1, a2⟩ := abs_le.1 er2
    rw [val_neg]; norm_num at a1 ⊢; linarith)
  rw [val_neg] at up
  have er3 : |-(x * x).val - -x.val^2| ≤ 8 / 10^14 := by
    rw [show -(x * x).val - -x.val^2 = -((x * x).val - x.val * x.val) by ring, abs_neg]; exact er2
  have cl := exp_close (er3.trans (by norm_num))
  rw [cpx_real x y hy, faddeevaW_real]
  have re : (((Real.exp (-x.val^2) : ℝ) : ℂ) + ((2 / Real.sqrt Real.pi * dawsonR x.val : ℝ) : ℂ) * Complex.I).re = Real.exp (-x.val^2) := by
    rw [Complex.add_re, Complex.mul_I_re, Complex.ofReal_re, Complex.ofReal_im]; ring
  rw [re]
  have ve : v.1.val = (Libm.exp (-(x * x))).val := by
    rcases g2 with ⟨-, g⟩ | ⟨-, -, g⟩
    · rw [(L.exp_num _ (by rw [isNaN_neg]; exact isFin_notNaN fm)).1] at g; cases g
    · exact g
  rw [ve]
  have E := Real.exp_pos (-x.val^2)
  have cl2 : |Real.exp (-(x * x).val) - Real.exp (-x.val^2)| ≤ 1.6 / 10^13 * Real.exp (-x.val^2) := by
    refine cl.trans (mul_le_mul_of_nonneg_right ?_ E.le)
    norm_num at er3 ⊢; linarith
  have big : Real.exp (-(x * x).val) ≤ 2 * Real.exp (-x.val^2) := by
    have := (abs_le.1 cl2).2
    norm_num at this ⊢; linarith
  have tri := abs_sub_le (Libm.exp (-(x * x))).val (Real.exp (-(x * x).val)) (Real.exp (-x.val^2))
  generalize Real.exp (-(x * x).val) = e1 at *
  generalize Real.exp (-x.val^2) = e2 at *
  generalize (1:ℝ) / 2^1074 = w at *
  norm_num at *
  linarith

/-- C83 on the real axis near 0: for `0 < |x| < 0.2` the imaginary part is within `|x|/10^6` of `Im w(x) = (2/√π) D(x)`. -/
theorem faddeeva_real_im (L : LibmSpec) (x y : F64) (h0 : x.val ≠ 0) (hx : |x.val| < (0.2 : F64).val) (hy : y.isZero = true) :
    ∃ v, Returns (faddeeva x y) v ∧ |v.2.val - (faddeevaW (cpx x y)).im| ≤ |x.val| / 10^6 + 1 / 2^1071 := by
  obtain ⟨d, hd, he⟩ := dawson_accurate_partial x hx
  have v02 : (0.2 : F64).val ≤ 1 := by
    have := (le_iff.1 (show F64.le 0.2 1.0 = true by decide +kernel)).2.2
    rwa [show (1.0 : F64).val = 1 by exact_mod_cast val_of_int (x := (1.0 : F64)) 1 (by decide +kernel)] at this
  have hx1 : |x.val| ≤ 1 := hx.le.trans v02
  obtain ⟨v, g1, -, g2⟩ := faddeeva_real_axis L x y d h0 (hx1.trans (by norm_num)) hy hd
  refine ⟨v, g1, ?_⟩
  have D := abs_dawsonR_le x.val
  have pw : (1:ℝ) / 2^1074 ≤ 1 / 10^30 := one_div_le_one_div_of_le (by norm_num) (le_trans (by norm_num : (10:ℝ)^30 ≤ 2^100) (pow_le_pow_right₀ (by norm_num) (by norm_num)))
  have p5 : (1:ℝ) / 2^1075 = 1 / 2^1074 / 2 := by rw [pow_succ (2:ℝ) 1074, div_div]
  have p1 : (1:ℝ) / 2^1071 = 8 * (1 / 2^1074) := by rw [show (2:ℝ)^1074 = 2^1071 * 8 by rw [show (1074:ℕ) = 1071 + 3 by norm_num, pow_add]; norm_num]; field_simp
  have w0 : (0:ℝ) < 1 / 2^1074 := by positivity
  rw [p1]
  have er1 : ∀ r : ℝ, |r| ≤ 4 → |RN r - r| ≤ |r| / 2^53 + 1 / 2^1074 / 2 := by
    intro r hr
    rw [← p5]
    exact RN_err' (lt_of_le_of_lt hr (lt_of_lt_of_le (by norm_num) HUGE_ge))
  clear p5 p1
  generalize (1:ℝ) / 2^1074 = w at *
  set X := |x.val| with hX
  have X0 : 0 ≤ X := abs_nonneg _
  have dX : |d.val| ≤ 1.1 * X + w := by
    have := abs_sub_abs_le_abs_sub d.val (dawsonR x.val)
    norm_num at he ⊢; linarith
  have fd : d.isFin = true := isFin_of_abs (b := 2) (by norm_num at dX pw ⊢; linarith) (by norm_num)
  have v2 : (2.0 : F64).val = 2 := by exact_mod_cast val_of_int (x := (2.0 : F64)) 2 (by decide +kernel)
  have m1 := (mul_spec (a := (2.0 : F64)) (by decide +kernel) fd).2.1
  rw [v2] at m1
  have a2 : |2 * d.val| ≤ 2.2 * X + 2 * w := by rw [abs_mul, abs_of_pos (by norm_num : (0:ℝ) < 2)]; norm_num at dX ⊢; linarith
  have e1 := er1 (2 * d.val) (by linarith only [a2, pw, hx1, w0])
  rw [← m1] at e1
  have b1 : |(2.0 * d : F64).val - 2 * d.val| ≤ X / 10^15 + w := by linarith only [e1, a2, X0, w0]
  have c1 : |(2.0 * d : F64).val| ≤ 2.3 * X + 4 * w := by
    have := abs_sub_abs_le_abs_sub (2.0 * d : F64).val (2 * d.val)
    linarith only [this, b1, a2, X0, w0]
  have f1 : (2.0 * d : F64).isFin = true := isFin_of_abs (b := 3) (by norm_num at c1 pw ⊢; linarith) (by norm_num)
  have k1 := le_val_of_sv (x := (0.5641895835477563 : F64)) 5641895835477562 10000000000000000 (by norm_num) (by decide +kernel)
  have k2 := val_le_of_sv (x := (0.5641895835477563 : F64)) 5641895835477564 10000000000000000 (by norm_num) (by decide +kernel)
  have m2 := (mul_spec (b := (0.5641895835477563 : F64)) f1 (by decide +kernel)).2.1
  obtain ⟨K1, K2⟩ := kap_bounds
  set c := (0.5641895835477563 : F64).val with hc
  have c0 : 0 < c := by norm_num at k1; linarith
  have ck : |c - kap / 2| ≤ 1 / 10^14 := by rw [abs_le]; constructor <;> norm_num at k1 k2 K1 K2 ⊢ <;> linarith
  have a3 : |(2.0 * d : F64).val * c| ≤ 1.4 * X + 3 * w := by
    rw [abs_mul, abs_of_pos c0]
    have := mul_le_mul c1 (show c ≤ 0.6 by norm_num at k2 ⊢; linarith) c0.le (by positivity)
    norm_num at this ⊢; linarith
  have e2 := er1 _ (show |(2.0 * d : F64).val * c| ≤ 4 by norm_num at a3 pw ⊢; linarith)
  rw [← m2] at e2
  have f2 : (2.0 * d * 0.5641895835477563 : F64).isFin = true := isFin_of_abs (b := 5) (by
    have := abs_sub_abs_le_abs_sub (2.0 * d * 0.5641895835477563 : F64).val ((2.0 * d : F64).val * c)
    norm_num at this e2 a3 pw ⊢; linarith) (by norm_num)
  have ve : v.2.val = (2.0 * d * 0.5641895835477563 : F64).val := by
    rcases g2 with ⟨-, g⟩ | ⟨-, -, g⟩
    · rw [isFin_notNaN f2] at g; cases g
    · exact g
  rw [ve, cpx_real x y hy, faddeevaW_real, Complex.add_im, Complex.mul_I_im, Complex.ofReal_re, Complex.ofReal_im, zero_add]
  change |_ - kap * dawsonR x.val| ≤ _
  -- the three contributions
  have t1 : |(2.0 * d : F64).val * c - 2 * d.val * c| ≤ X / 10^15 + w := by
    rw [← sub_mul, abs_mul, abs_of_pos c0]
    have := mul_le_mul b1 (show c ≤ 1 by norm_num at k2 ⊢; linarith) c0.le (by positivity)
    linarith
  have t2 : |2 * d.val * c - d.val * kap| ≤ 3 * X / 10^14 + w := by
    rw [show 2 * d.val * c - d.val * kap = 2 * d.val * (c - kap / 2) by ring, abs_mul]
    have := mul_le_mul a2 ck (abs_nonneg _) (by positivity)
    norm_num at this ⊢; linarith
  have t3 : |d.val * kap - kap * dawsonR x.val| ≤ 1.2 * (X / 10^7 + w) := by
    rw [show d.val * kap - kap * dawsonR x.val = (d.val - dawsonR x.val) * kap by ring, abs_mul, abs_of_pos kap_pos]
    have := mul_le_mul he (show kap ≤ 1.2 by norm_num at K2 ⊢; linarith) kap_pos.le (by positivity)
    linarith
  have q1 := abs_sub_le (2.0 * d * 0.5641895835477563 : F64).val ((2.0 * d : F64).val * c) (kap * dawsonR x.val)
  have q2 := abs_sub_le ((2.0 * d : F64).val * c) (2 * d.val * c) (kap * dawsonR x.val)
  have q3 := abs_sub_le (2 * d.val * c) (d.val * kap) (kap * dawsonR x.val)
  norm_num at q1 q2 q3 t1 t2 t3 e2 a3 ⊢
  linarith

/-- C83 is false of the code on the real axis: the imaginary part of `faddeeva(0.5, 0)` is at most `-1/4`, while that of `w(0.5)` is positive
(it is 0.4789…).  `dawson` is to blame (C63). -/
theorem faddeeva_wrong (A : LibmAcc) : ∃ v, Returns (faddeeva (0.5 : F64) 0.0) v ∧ v.2.val ≤ -(1/4) ∧ 0 < (faddeevaW (cpx 0.5 0.0)).im := by
  obtain ⟨d, hd, hv, hp⟩ := dawson_wrong A
  have vh : (0.5 : F64).val = 1 / 2 := half_val
  have hz : (0.0 : F64).isZero = true := by decide +kernel
  obtain ⟨v, g1, -, g2⟩ := faddeeva_real_axis A.toLibmSpec 0.5 0.0 d (by rw [vh]; norm_num) (by rw [vh]; norm_num) hz hd
  obtain ⟨d', hd', fd⟩ := dawson_total_partial A 0.5 (by rw [vh]; norm_num)
  have : d' = d := by unfold Returns at hd hd'; rw [hd'] at hd; injection hd
  subst this
  refine ⟨v, g1, ?_, ?_⟩
  · have v2 : (2.0 : F64).val = 2 := by exact_mod_cast val_of_int (x := (2.0 : F64)) 2 (by decide +kernel)
    have M := mul_spec (a := (2.0 : F64)) (by decide +kernel) fd
    have r5 : RN (-(1/2)) = -(1/2) := by
      have e : (-0.5 : F64).val = -(1/2) := by rw [val_neg, half_val]
      rw [← e]; exact RN_val (by decide +kernel)
    have r4 : RN (-(1/4)) = -(1/4) := by
      have e : (-0.25 : F64).val = -(1/4) := by
        rw [val_neg, show (0.25 : F64).val = ((1:ℤ):ℝ) / ((4:ℕ):ℝ) from val_of_sv 1 4 (by norm_num) (by decide +kernel)]; norm_num
      rw [← e]; exact RN_val (by decide +kernel)
    have m1 : (2.0 * d' : F64).val ≤ -(1/2) := by
      rw [M.2.1, v2, ← r5]; exact RN_mono (by linarith)
    have k1 := le_val_of_sv (x := (0.5641895835477563 : F64)) 5641895835477562 10000000000000000 (by norm_num) (by decide +kernel)
    have ve : NumEq v.2 (2.0 * d' * 0.5641895835477563) := g2
    have key : (2.0 * d' * 0.5641895835477563 : F64).isNaN = false ∧ (2.0 * d' * 0.5641895835477563 : F64).val ≤ -(1/4) := by
      rcases fin_or_inf M.1 with f | i
      · have M2 := mul_spec (b := (0.5641895835477563 : F64)) f (by decide +kernel)
        refine ⟨M2.1, ?_⟩
        rw [M2.2.1, ← r4]
        refine RN_mono ?_
        norm_num at k1
        nlinarith
      · have ng := neg_of_val_neg (show (2.0 * d' : F64).val < 0 by linarith)
        rw [mul_inf M.1 (by decide +kernel) (Or.inl i) (notZero_of_inf i) (by decide +kernel), ng]
        refine ⟨by decide +kernel, ?_⟩
        have e : (sinf (true != (0.5641895835477563 : F64).neg)) = -inf := by decide +kernel
        rw [e, val_neg, inf_val]
        have := HUGE_ge
        norm_num at this ⊢
        linarith
    rcases ve with ⟨-, g⟩ | ⟨-, -, g⟩
    · rw [key.1] at g; cases g
    · rw [g]; exact key.2
  · rw [cpx_real _ _ hz, faddeevaW_real, Complex.add_im, Complex.mul_I_im, Complex.ofReal_re, Complex.ofReal_im, zero_add]
    exact mul_pos (div_pos two_pos (Real.sqrt_pos.2 Real.pi_pos)) hp

/-- the hypotheses are met: `y = 3` on the imaginary axis, `x = 1/8` and `x = 5` on the real axis, and the correctly rounded functions -/
example : ∃ _ : Libm F64, LibmUlp ∧ (0.0 : F64).isZero = true ∧ (3.0 : F64).isFin = true ∧ (3.0 : F64).val ≠ 0 ∧ -26.6 ≤ (3.0 : F64).val ∧
    (5.0 : F64).val ≠ 0 ∧ |(5.0 : F64).val| ≤ 26 ∧ (0.125 : F64).val ≠ 0 ∧ |(0.125 : F64).val| < (0.2 : F64).val := by
  have e3 : (3.0 : F64).val = 3 := by exact_mod_cast val_of_int (x := (3.0 : F64)) 3 (by decide +kernel)
  have e5 : (5.0 : F64).val = 5 := by exact_mod_cast val_of_int (x := (5.0 : F64)) 5 (by decide +kernel)
  have e8 : (0.125 : F64).val = ((1:ℤ):ℝ) / ((8:ℕ):ℝ) := val_of_sv 1 8 (by norm_num) (by decide +kernel)
  refine ⟨idealLibm, ideal_ulp, by decide +kernel, by decide +kernel, by rw [e3]; norm_num, by rw [e3]; norm_num, by rw [e5]; norm_num,
    by rw [e5]; norm_num [abs_of_pos], by rw [e8]; norm_num, ?_⟩
  have := (lt_iff.1 (show F64.lt 0.125 0.2 = true by decide +kernel)).2.2
  rwa [abs_of_pos (by rw [e8]; norm_num)]

end Verif
