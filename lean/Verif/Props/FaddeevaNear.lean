import Verif.Props.FaddeevaFar
import Verif.Proofs.FadNear

/-! C83 next to the imaginary axis. -/

namespace Verif
open F64 Fad
variable [Libm F64] [Cfg]

/-- C83 is false of the code next to the imaginary axis: at `z = 10^22 + 7.3·10^32 i` the returned imaginary part is below `-2·10^6`, while
`|w(z)| ≤ 10^-32`.  The cause is the cancellation in `1/√π - y·erfcx(y)`, multiplied by `x`.  No assumption on libm. -/
theorem faddeeva_near_imag_wrong : ∃ v, Returns (faddeeva (1e22 : F64) 7.3e32) v ∧ v.2.val ≤ -2000000 ∧ ‖faddeevaW (cpx 1e22 7.3e32)‖ ≤ 1 / 10^32 := by
  have e : erfcx (7.3e32 : F64) = .ok (INV_SQRT_PI / 7.3e32) := by
    unfold erfcx
    simp only [ar_abs, ar_lt, ar_le]
    rw [if_neg (by decide +kernel), if_neg (by decide +kernel), if_neg (by decide +kernel), if_neg (by decide +kernel), if_neg (by decide +kernel)]
  refine ⟨(INV_SQRT_PI / 7.3e32, 1e22 * (2.0 * (INV_SQRT_PI - 7.3e32 * (INV_SQRT_PI / 7.3e32)))), ?_, ?_, ?_⟩
  · show faddeeva _ _ = _
    rw [fad_imag (by decide +kernel) (by decide +kernel), e]
    show Except.ok _ = Except.ok _
    rw [if_neg (by decide +kernel)]
  · have := val_le_of_sv (x := (1e22 * (2.0 * (INV_SQRT_PI - 7.3e32 * (INV_SQRT_PI / 7.3e32))) : F64)) (-2000000) 1 (by norm_num) (by decide +kernel)
    push_cast at this
    simpa using this
  · have hy := le_val_of_sv (x := (7.3e32 : F64)) 700000000000000000000000000000000 1 (by norm_num) (by decide +kernel)
    push_cast at hy
    have n : 7 * 10^32 ≤ ‖cpx 1e22 7.3e32‖ := by
      refine le_trans ?_ (Complex.abs_im_le_norm _)
      show 7 * 10^32 ≤ |(7.3e32 : F64).val|
      refine le_trans ?_ (le_abs_self _)
      norm_num at hy ⊢; linarith
    have n0 : 0 < ‖cpx 1e22 7.3e32‖ := lt_of_lt_of_le (by norm_num) n
    have w := w1 (z := cpx 1e22 7.3e32) (norm_pos_iff.1 n0) (by show 0 ≤ (7.3e32 : F64).val; norm_num at hy; linarith)
    have t := norm_sub_norm_le (faddeevaW (cpx 1e22 7.3e32)) ((kap : ℂ) * (1/2) * (Complex.I * (cpx 1e22 7.3e32)⁻¹))
    rw [norm_sub_rev] at t
    have nn : ‖(kap : ℂ) * (1/2) * (Complex.I * (cpx 1e22 7.3e32)⁻¹)‖ = kap / 2 * ‖cpx 1e22 7.3e32‖⁻¹ := by
      rw [norm_mul, norm_mul, norm_mul, Complex.norm_I, norm_inv, Complex.norm_real, Real.norm_eq_abs, abs_of_pos kap_pos]
      have : ‖(1/2 : ℂ)‖ = 1/2 := by rw [norm_div, norm_one, Complex.norm_ofNat]
      rw [this]; ring
    rw [nn] at t
    have m : 0 < ‖cpx 1e22 7.3e32‖⁻¹ := inv_pos.2 n0
    have m2 : ‖cpx 1e22 7.3e32‖⁻¹ ≤ 1 / (7 * 10^32) := by rw [← one_div]; exact one_div_le_one_div_of_le (by norm_num) n
    generalize ‖cpx 1e22 7.3e32‖⁻¹ = u at *
    have u3 : u^3 ≤ (1 / (7 * 10^32))^3 := pow_le_pow_left₀ m.le m2 3
    have ku : kap / 2 * u ≤ 0.6 * u := mul_le_mul_of_nonneg_right (by have := kap_le; norm_num at this ⊢; linarith) m.le
    norm_num at u3 m2 w ku ⊢
    linarith

omit [Libm F64] [Cfg] in
/-- the branch next to the imaginary axis is taken -/
theorem near_axis {x y : F64} (fx : x.isFin = true) (fy : y.isFin = true) (y1 : 1 / 10^180 ≤ |y.val|) (y2 : |y.val| ≤ 1000) (h : |x.val| ≤ 0.99 / 10^8 * |y.val|) :
    F64.lt x.abs (1e-8 * y.abs) = true := by
  have y0 : 0 < |y.val| := lt_of_lt_of_le (by positivity) y1
  have l : Ab (1e-8 : F64) (1 / 10^8) (1 / 10^11) := by
    have a := le_val_of_sv (x := (1e-8 : F64)) 999 100000000000 (by norm_num) (by decide +kernel)
    have b := val_le_of_sv (x := (1e-8 : F64)) 1001 100000000000 (by norm_num) (by decide +kernel)
    refine ⟨by decide +kernel, ?_⟩
    push_cast at a b
    rw [abs_le]
    constructor <;> norm_num at a b ⊢ <;> linarith
  have ya : Ab y.abs |y.val| 0 := ab_int (by rw [isFin_abs]; exact fy) (val_abs y)
  have c : Cap (1.001 / 10^8 * |y.val|) := by
    refine cap200 ?_ ?_
    · refine le_trans ?_ (mul_le_mul_of_nonneg_left y1 (by norm_num))
      norm_num
    · refine le_trans (b := 1) ?_ (by norm_num)
      norm_num at y2 ⊢; linarith
  have m := ab_mul (P := 1 / 10^8) (Q := |y.val|) l ya (by rw [abs_of_nonneg (by positivity)]) (by rw [abs_abs]) (by norm_num; linarith) c
  have e := (abs_le.1 m.err).1
  have k : 0.995 / 10^8 * |y.val| ≤ ((1e-8 : F64) * y.abs).val := by
    generalize ((1e-8 : F64) * y.abs).val = r at *
    norm_num at e ⊢; linarith
  refine lt_iff.2 ⟨by rw [isNaN_abs]; exact isFin_notNaN fx, isFin_notNaN m.fin, ?_⟩
  rw [val_abs]
  refine lt_of_le_of_lt h (lt_of_lt_of_le ?_ k)
  norm_num; linarith

omit [Libm F64] [Cfg] in
/-- rounding errors of the imaginary part -/
theorem near_im {x y w : F64} {R E : ℝ} (fx : x.isFin = true) (fy : y.isFin = true) (y0 : 0 < y.val) (x5 : |x.val| ≤ 1 / 10^4) (hw : Ab w R E)
    (R0 : 0 ≤ R) (hE : E ≤ 1.01 / 10^13 * R) (yR : y.val * R ≤ 0.565) :
    Ab (x * (2.0 * (INV_SQRT_PI - y * w))) (x.val * (kap - 2 * y.val * R)) (1.3 / 10^13 * |x.val| + 1 / 10^200) := by
  have hw := hw.mono hE
  have yR0 : 0 ≤ y.val * R := mul_nonneg y0.le R0
  have k1 := kap_bounds.1
  have k2 := kap_bounds.2
  have a := (ab_mul (P := y.val) (Q := R) (M := 0.57) (ab_self fy) hw (by rw [abs_of_pos y0]) (by rw [abs_of_nonneg R0])
    (by norm_num at yR ⊢; linarith) (capC (by norm_num) (by norm_num))).mono (d := 5.8 / 10^14) (by norm_num at yR ⊢; linarith)
  have b := (ab_sub (M := 0.6) isp_ab a (by
    have : |kap * (1/2) - y.val * R| ≤ 0.57 := by rw [abs_le]; constructor <;> norm_num at k1 k2 yR ⊢ <;> linarith
    norm_num at this ⊢; linarith) (capC (by norm_num) (by norm_num))).mono (d := 5.95 / 10^14) (by norm_num)
  have t : Ab (2.0 : F64) 2 0 := ab_int (by decide +kernel) (by exact_mod_cast val_of_int (x := (2.0 : F64)) 2 (by decide +kernel))
  have hB : |kap * (1/2) - y.val * R| ≤ 0.57 := by rw [abs_le]; constructor <;> norm_num at k1 k2 yR ⊢ <;> linarith
  have c := (ab_mul (P := 2) (Q := 0.57) (M := 1.2) t b (by norm_num) hB (by norm_num) (capC (by norm_num) (by norm_num))).mono (d := 1.2 / 10^13) (by norm_num)
  have hC : |2 * (kap * (1/2) - y.val * R)| ≤ 1.14 := by
    rw [abs_mul]; norm_num at hB ⊢; linarith
  have x0 := abs_nonneg x.val
  have z : (0:ℝ) < 1 / 10^200 := by positivity
  have z1 : (1:ℝ) / 10^200 ≤ 1 := by norm_num
  have cap : Cap (1.2 * |x.val| + 1 / 10^200) := by
    refine cap200 ?_ ?_
    · linarith
    · refine le_trans (b := 2) ?_ (by norm_num)
      generalize (1:ℝ) / 10^200 = u at *
      norm_num at x5 ⊢; linarith
  have d := ab_mul (P := |x.val|) (Q := 1.14) (M := 1.2 * |x.val| + 1 / 10^200) (ab_self fx) c le_rfl hC (by
    generalize (1:ℝ) / 10^200 = u at *
    norm_num; linarith) cap
  rw [show x.val * (kap - 2 * y.val * R) = x.val * (2 * (kap * (1/2) - y.val * R)) by ring]
  refine d.mono ?_
  generalize (1:ℝ) / 10^200 = u at *
  norm_num; linarith

/-- C83 next to the positive imaginary axis: for `10^-180 ≤ y ≤ 1000` and `0 < |x| ≤ 0.99·10^-8 y`, `faddeeva(x, y)` returns, and the error of both components is
at most `1.2·10^-13 |w(x + iy)|`. -/
theorem faddeeva_near_imag_accurate (L : LibmUlp) (x y : F64) (x0 : x.val ≠ 0) (y1 : 1 / 10^180 ≤ y.val) (y2 : y.val ≤ 1000) (h : |x.val| ≤ 0.99 / 10^8 * y.val) :
    ∃ v, Returns (faddeeva x y) v ∧ |v.1.val - (faddeevaW (cpx x y)).re| ≤ 1.2 / 10^13 * ‖faddeevaW (cpx x y)‖ ∧
      |v.2.val - (faddeevaW (cpx x y)).im| ≤ 1.2 / 10^13 * ‖faddeevaW (cpx x y)‖ := by
  have y0 : 0 < y.val := lt_of_lt_of_le (by positivity) y1
  have fy : y.isFin = true := isFin_of_abs (b := 1000) (by rw [abs_of_pos y0]; exact y2) (by norm_num)
  have x5 : |x.val| ≤ 1 / 10^4 := h.trans (by norm_num at y2 ⊢; linarith)
  have fx : x.isFin = true := isFin_of_abs x5 (by norm_num)
  obtain ⟨w, h1, h2, h3⟩ := erfcx_accurate_all L fy (by norm_num; linarith)
  have s1 := off_axis fx fy (h.trans (by rw [abs_of_pos y0]; norm_num; linarith))
  have ya := abs_of_pos y0
  have s2 := near_axis fx fy (ya.symm ▸ y1) (ya.symm ▸ y2) (ya.symm ▸ h)
  refine ⟨(w, x * (2.0 * (INV_SQRT_PI - y * w))), ?_, ?_⟩
  · show faddeeva _ _ = _
    rw [fad_imag s1 s2, show erfcx y = .ok w from h1]
    show Except.ok _ = Except.ok _
    rw [if_neg]
    intro e
    have v0 : (0.0 : F64).val = 0 := by exact_mod_cast val_of_int (x := (0.0 : F64)) 0 (by decide +kernel)
    have := (eq_iff.1 e).2.2
    rw [val_abs, v0, abs_eq_zero] at this
    exact x0 this
  have hz : cpx x y = (x.val : ℂ) + (y.val : ℂ) * Complex.I := by apply Complex.ext <;> simp [cpx]
  have wn := w_near x.val y.val
  rw [← hz] at wn
  have hi := mre_hi y0
  have lo := mre_lo y0
  have er := erfcxR_mre y.val
  have k1 := kap_bounds.1
  have k2 := kap_bounds.2
  have mp : 0 < min 1 (1 / y.val) := lt_min one_pos (by positivity)
  have m3 : 1 / 1000 ≤ min 1 (1 / y.val) := le_min (by norm_num) (one_div_le_one_div_of_le y0 y2)
  have ym : y.val ≤ 10^6 * min 1 (1 / y.val) := by
    rw [← div_le_iff₀' (by norm_num)]
    refine le_min (by norm_num at y2 ⊢; linarith) ?_
    rw [div_le_div_iff₀ (by norm_num) y0]
    have := mul_le_mul y2 y2 y0.le (by norm_num)
    norm_num at this ⊢; linarith
  have yR := erfcxR_le y0
  rw [le_div_iff₀ (by linarith)] at yR
  have R0 := erfcxR_pos y.val
  have x2 : x.val^2 ≤ 1 / 10^16 * y.val^2 := by
    rw [← sq_abs]
    refine (pow_le_pow_left₀ (abs_nonneg _) h 2).trans ?_
    rw [mul_pow]
    exact mul_le_mul_of_nonneg_right (by norm_num) (sq_nonneg _)
  have q : x.val^2 * mre 2 (-2 * y.val) ≤ 1 / 10^16 * min 1 (1 / y.val) := by
    refine (mul_le_mul_of_nonneg_right x2 (mre_nonneg _ _)).trans ?_
    rw [mul_assoc]
    exact mul_le_mul_of_nonneg_left hi (by norm_num)
  have Rlo : 0.376 * min 1 (1 / y.val) ≤ erfcxR y.val := by
    rw [er]
    calc 0.376 * min 1 (1 / y.val) ≤ 1.1283 * (1/3 * min 1 (1 / y.val)) := by
          generalize min 1 (1 / y.val) = u at *; norm_num; linarith
      _ ≤ kap * mre 0 (-2 * y.val) := mul_le_mul (by norm_num at k1 ⊢; linarith) lo (by positivity) kap_pos.le
  have wn2 : 10 * kap * (x.val^2 * mre 2 (-2 * y.val)) ≤ 3.1 / 10^15 * erfcxR y.val := by
    calc 10 * kap * (x.val^2 * mre 2 (-2 * y.val)) ≤ 11.3 * (1 / 10^16 * min 1 (1 / y.val)) :=
          mul_le_mul (by norm_num at k2 ⊢; linarith) q (mul_nonneg (sq_nonneg _) (mre_nonneg _ _)) (by norm_num)
      _ ≤ _ := by generalize min 1 (1 / y.val) = u at *; norm_num at Rlo ⊢; linarith
  replace wn := wn.trans wn2
  clear wn2 q hi lo er
  have tiny : (1:ℝ) / 2^1075 ≤ 1 / 10^30 := one_div_le_one_div_of_le (by norm_num) (le_trans (by norm_num : (10:ℝ)^30 ≤ 2^100) (pow_le_pow_right₀ (by norm_num) (by norm_num)))
  have R3 : 0.376 / 1000 ≤ erfcxR y.val := by generalize min 1 (1 / y.val) = u at *; norm_num at Rlo m3 ⊢; linarith
  have wa : Ab w (erfcxR y.val) (1.01 / 10^13 * erfcxR y.val) := ⟨h2, h3.trans (by
    generalize (1:ℝ) / 2^1075 = t at *
    norm_num at tiny R3 ⊢; linarith)⟩
  have im := near_im fx fy y0 x5 wa R0.le le_rfl (by norm_num at k2 ⊢; linarith)
  have imE : 1.3 / 10^13 * |x.val| + 1 / 10^200 ≤ 4 / 10^15 * erfcxR y.val := by
    have : (1:ℝ) / 10^200 ≤ 1 / 10^30 := one_div_le_one_div_of_le (by norm_num) (pow_le_pow_right₀ (by norm_num) (by norm_num))
    generalize (1:ℝ) / 10^200 = t at *
    generalize min 1 (1 / y.val) = u at *
    norm_num at this R3 Rlo ym h ⊢; linarith
  replace im := im.mono imE
  set W := faddeevaW (cpx x y)
  have e1 := (Complex.abs_re_le_norm _).trans wn
  have e2 := (Complex.abs_im_le_norm _).trans wn
  simp only [Complex.sub_re, Complex.add_re, Complex.ofReal_re, Complex.re_ofReal_mul, Complex.I_re, mul_zero, add_zero] at e1
  simp only [Complex.sub_im, Complex.add_im, Complex.ofReal_im, Complex.im_ofReal_mul, Complex.I_im, mul_one, zero_add] at e2
  have n1 : (1 - 3.1 / 10^15) * erfcxR y.val ≤ ‖W‖ := by
    have := (le_abs_self _).trans (Complex.abs_re_le_norm W)
    linarith [(abs_le.1 e1).1]
  have f1 := abs_sub_le w.val (erfcxR y.val) W.re
  have f2 := abs_sub_le (x * (2.0 * (INV_SQRT_PI - y * w)) : F64).val (x.val * (kap - 2 * y.val * erfcxR y.val)) W.im
  rw [abs_sub_comm] at e1 e2
  have g1 := wa.err
  have g2 := im.err
  constructor
  · refine f1.trans ?_
    norm_num at g1 e1 n1 ⊢; linarith
  · refine f2.trans ((add_le_add g2 e2).trans ?_)
    norm_num at n1 ⊢; linarith

/-- the hypotheses are met, at `10^-9 + i` -/
example : (1e-9 : F64).val ≠ 0 ∧ 1 / 10^180 ≤ (1.0 : F64).val ∧ (1.0 : F64).val ≤ 1000 ∧ |(1e-9 : F64).val| ≤ 0.99 / 10^8 * (1.0 : F64).val := by
  have a := le_val_of_sv (x := (1e-9 : F64)) 1 10000000000 (by norm_num) (by decide +kernel)
  have b := val_le_of_sv (x := (1e-9 : F64)) 1 500000000 (by norm_num) (by decide +kernel)
  have c : (1.0 : F64).val = 1 := by exact_mod_cast val_of_int (x := (1.0 : F64)) 1 (by decide +kernel)
  push_cast at a b
  have p : 0 < (1e-9 : F64).val := lt_of_lt_of_le (by norm_num) a
  rw [c, abs_of_pos p]
  exact ⟨p.ne', by norm_num, by norm_num, b.trans (by norm_num)⟩

omit [Libm F64] [Cfg] in
/-- rounding errors of the imaginary part, with the error measured against `|y| R + 1` -/
theorem near_im' {x y w : F64} {R B : ℝ} (fx : x.isFin = true) (fy : y.isFin = true) (x5 : |x.val| ≤ 1 / 10^4) (hw : Ab w R (1.01 / 10^13 * R))
    (R0 : 0 ≤ R) (hB : |y.val| * R + 1 = B) (B9 : B ≤ 10^9) :
    Ab (x * (2.0 * (INV_SQRT_PI - y * w))) (x.val * (kap - 2 * y.val * R)) (|x.val| * (2.1 / 10^13 * B) + 1 / 10^200) := by
  have yR0 : 0 ≤ |y.val| * R := mul_nonneg (abs_nonneg _) R0
  have k1 := kap_bounds.1
  have k2 := kap_bounds.2
  have B1 : 1 ≤ B := by linarith
  have hyR : |y.val * R| = |y.val| * R := by rw [abs_mul, abs_of_nonneg R0]
  have c20 : ∀ {M : ℝ}, B ≤ M → M ≤ 10 * B → Cap M := fun h1 h2 => capC (le_trans (by norm_num) (B1.trans h1)) (h2.trans (by norm_num at B9 ⊢; linarith))
  have a := (ab_mul (P := |y.val|) (Q := R) (M := 1.1 * B) (ab_self fy) hw le_rfl (by rw [abs_of_nonneg R0])
    (by norm_num; linarith) (c20 (by linarith) (by linarith))).mono (d := 1.013 / 10^13 * B) (by norm_num; linarith)
  have hC : |kap * (1/2) - y.val * R| ≤ B := by
    have := abs_sub (kap * (1/2)) (y.val * R)
    rw [hyR, abs_of_pos (show 0 < kap * (1/2) by linarith [kap_pos])] at this
    refine this.trans ?_
    rw [← hB]
    norm_num at k2 ⊢; linarith
  have b := (ab_sub (M := 1.1 * B) isp_ab a (by norm_num at hC ⊢; linarith) (c20 (by linarith) (by linarith))).mono (d := 1.03 / 10^13 * B) (by norm_num; linarith)
  have t : Ab (2.0 : F64) 2 0 := ab_int (by decide +kernel) (by exact_mod_cast val_of_int (x := (2.0 : F64)) 2 (by decide +kernel))
  have c := (ab_mul (P := 2) (Q := B) (M := 2.1 * B) t b (by norm_num) hC (by norm_num; linarith) (c20 (by linarith) (by linarith))).mono (d := 2.07 / 10^13 * B) (by norm_num; linarith)
  have hD : |2 * (kap * (1/2) - y.val * R)| ≤ 2 * B := by
    rw [abs_mul]; norm_num at hC ⊢; linarith
  have x0 := abs_nonneg x.val
  have xB : 0 ≤ |x.val| * B := mul_nonneg x0 (by linarith)
  have xB2 : |x.val| * B ≤ 10^5 := (mul_le_mul x5 B9 (by linarith) (by norm_num)).trans (by norm_num)
  have z : (0:ℝ) < 1 / 10^200 := by positivity
  have z1 : (1:ℝ) / 10^200 ≤ 1 := by norm_num
  have cap : Cap (2.1 * (|x.val| * B) + 1 / 10^200) := by
    refine cap200 ?_ ?_
    · linarith
    · refine le_trans (b := 10^6) ?_ (by norm_num)
      generalize (1:ℝ) / 10^200 = u at *
      norm_num at xB2 ⊢; linarith
  have d := ab_mul (P := |x.val|) (Q := 2 * B) (M := 2.1 * (|x.val| * B) + 1 / 10^200) (ab_self fx) c le_rfl hD (by
    generalize (1:ℝ) / 10^200 = u at *
    norm_num; linarith) cap
  rw [show x.val * (kap - 2 * y.val * R) = x.val * (2 * (kap * (1/2) - y.val * R)) by ring]
  refine d.mono ?_
  generalize (1:ℝ) / 10^200 = u at *
  norm_num; linarith

/-- C83 next to the negative imaginary axis: for `-3 ≤ y ≤ -10^-180` and `0 < |x| ≤ 0.99·10^-8 |y|`, `faddeeva(x, y)` returns, and the error of both components is
at most `3·10^-13 |w(x + iy)|`. -/
theorem faddeeva_near_imag_lower (L : LibmUlp) (x y : F64) (x0 : x.val ≠ 0) (y1 : y.val ≤ -(1 / 10^180)) (y2 : -3 ≤ y.val) (h : |x.val| ≤ 0.99 / 10^8 * |y.val|) :
    ∃ v, Returns (faddeeva x y) v ∧ |v.1.val - (faddeevaW (cpx x y)).re| ≤ 3 / 10^13 * ‖faddeevaW (cpx x y)‖ ∧
      |v.2.val - (faddeevaW (cpx x y)).im| ≤ 3 / 10^13 * ‖faddeevaW (cpx x y)‖ := by
  have p180 : (0:ℝ) < 1 / 10^180 := by positivity
  have y0 : y.val < 0 := by linarith
  have ya := abs_of_neg y0
  have y3 : |y.val| ≤ 3 := by rw [ya]; linarith
  have fy : y.isFin = true := isFin_of_abs y3 (by norm_num)
  have x5 : |x.val| ≤ 1 / 10^4 := h.trans (by norm_num at y3 ⊢; linarith)
  have fx : x.isFin = true := isFin_of_abs x5 (by norm_num)
  obtain ⟨w, h1, h2, h3⟩ := erfcx_accurate_all L fy (by norm_num; linarith)
  have s1 := off_axis fx fy (h.trans (mul_le_mul_of_nonneg_right (by norm_num) (abs_nonneg _)))
  have s2 := near_axis fx fy (by rw [ya]; linarith) (y3.trans (by norm_num)) h
  clear y1 p180
  refine ⟨(w, x * (2.0 * (INV_SQRT_PI - y * w))), ?_, ?_⟩
  · show faddeeva _ _ = _
    rw [fad_imag s1 s2, show erfcx y = .ok w from h1]
    show Except.ok _ = Except.ok _
    rw [if_neg]
    intro e
    have v0 : (0.0 : F64).val = 0 := by exact_mod_cast val_of_int (x := (0.0 : F64)) 0 (by decide +kernel)
    have := (eq_iff.1 e).2.2
    rw [val_abs, v0, abs_eq_zero] at this
    exact x0 this
  have hz : cpx x y = (x.val : ℂ) + (y.val : ℂ) * Complex.I := by apply Complex.ext <;> simp [cpx]
  have wn := w_near x.val y.val
  rw [← hz] at wn
  have er := erfcxR_mre y.val
  have k1 := kap_bounds.1
  have k2 := kap_bounds.2
  have m0 : 1 / 3 ≤ mre 0 (-2 * y.val) := by
    have a := mre_lo one_pos
    have b := mre_mono (p := -2 * 1) (q := -2 * y.val) (by linarith)
    have c : min (1:ℝ) (1 / 1) = 1 := by norm_num
    rw [c, mul_one] at a
    exact a.trans b
  have m2 : mre 2 (-2 * y.val) ≤ 14 * mre 0 (-2 * y.val) := by
    have a := mre_rec0 (-2 * y.val)
    have b := mre_rec1 (-2 * y.val)
    generalize mre 0 (-2 * y.val) = m at *
    have e : 4 * mre 2 (-2 * y.val) = 2 * m + (-2 * y.val) * (1 + (-2 * y.val) * m) := by rw [← a]; linarith
    have f : (-2 * y.val) * (1 + (-2 * y.val) * m) ≤ 6 * (1 + 6 * m) := by
      have : (-2 * y.val) * m ≤ 6 * m := mul_le_mul_of_nonneg_right (by linarith) (by linarith)
      have g : 0 ≤ (-2 * y.val) * m := mul_nonneg (by linarith) (by linarith)
      exact mul_le_mul (by linarith) (by linarith) (by linarith) (by norm_num)
    linarith
  have R0 := erfcxR_pos y.val
  have x2 : x.val^2 ≤ 9 / 10^16 := by
    rw [← sq_abs]
    have : |x.val| ≤ 3 / 10^8 := h.trans (by norm_num at y3 ⊢; linarith)
    exact (pow_le_pow_left₀ (abs_nonneg _) this 2).trans (by norm_num)
  have wn2 : 10 * kap * (x.val^2 * mre 2 (-2 * y.val)) ≤ 1.3 / 10^13 * erfcxR y.val := by
    have q : x.val^2 * mre 2 (-2 * y.val) ≤ 9 / 10^16 * (14 * mre 0 (-2 * y.val)) := mul_le_mul x2 m2 (mre_nonneg _ _) (by norm_num)
    have := mul_le_mul_of_nonneg_left q kap_pos.le
    have R0' := R0
    rw [er] at R0' ⊢
    norm_num at this R0' ⊢
    linarith
  replace wn := wn.trans wn2
  have R3 : 0.376 ≤ erfcxR y.val := by
    rw [er]
    calc (0.376:ℝ) ≤ 1.1283 * (1/3) := by norm_num
      _ ≤ kap * mre 0 (-2 * y.val) := mul_le_mul (by norm_num at k1 ⊢; linarith) m0 (by positivity) kap_pos.le
  have R8 : erfcxR y.val ≤ 10^8 := by
    unfold erfcxR
    have e : Real.exp 1 ≤ 2.72 := Real.exp_one_lt_d9.le.trans (by norm_num)
    have a : Real.exp (y.val^2) ≤ 10^6 := by
      calc Real.exp (y.val^2) ≤ Real.exp (9 * 1) := Real.exp_le_exp.2 (by nlinarith)
        _ = (Real.exp 1)^9 := by rw [← Real.exp_nat_mul]; norm_num
        _ ≤ 2.72^9 := pow_le_pow_left₀ (Real.exp_pos _).le e _
        _ ≤ 10^6 := by norm_num
    have b : erfcR y.val ≤ 100 := by
      have := erfcR_nonneg (-y.val)
      unfold erfcR at this ⊢
      rw [erfR_neg] at this
      linarith
    exact (mul_le_mul a b (erfcR_nonneg _) (by norm_num)).trans (by norm_num)
  clear wn2 er m0 m2
  have tiny : (1:ℝ) / 2^1075 ≤ 1 / 10^30 := one_div_le_one_div_of_le (by norm_num) (le_trans (by norm_num : (10:ℝ)^30 ≤ 2^100) (pow_le_pow_right₀ (by norm_num) (by norm_num)))
  have wa : Ab w (erfcxR y.val) (1.01 / 10^13 * erfcxR y.val) := ⟨h2, h3.trans (by
    generalize (1:ℝ) / 2^1075 = t at *
    norm_num at tiny R3 ⊢; linarith)⟩
  have yR : |y.val| * erfcxR y.val ≤ 3 * erfcxR y.val := mul_le_mul_of_nonneg_right y3 R0.le
  have im := near_im' fx fy x5 wa R0.le rfl (by norm_num at R8 ⊢; linarith)
  have imE : |x.val| * (2.1 / 10^13 * (|y.val| * erfcxR y.val + 1)) + 1 / 10^200 ≤ 1 / 10^15 * erfcxR y.val := by
    have : (1:ℝ) / 10^200 ≤ 1 / 10^30 := one_div_le_one_div_of_le (by norm_num) (pow_le_pow_right₀ (by norm_num) (by norm_num))
    generalize (1:ℝ) / 10^200 = t at *
    have g : |x.val| * (2.1 / 10^13 * (|y.val| * erfcxR y.val + 1)) ≤ 1 / 10^4 * (2.1 / 10^13 * (3 * erfcxR y.val + 1)) :=
      mul_le_mul x5 (by norm_num; linarith) (by positivity) (by norm_num)
    norm_num at this R3 g ⊢; linarith
  replace im := im.mono imE
  set W := faddeevaW (cpx x y)
  have e1 := (Complex.abs_re_le_norm _).trans wn
  have e2 := (Complex.abs_im_le_norm _).trans wn
  simp only [Complex.sub_re, Complex.add_re, Complex.ofReal_re, Complex.re_ofReal_mul, Complex.I_re, mul_zero, add_zero] at e1
  simp only [Complex.sub_im, Complex.add_im, Complex.ofReal_im, Complex.im_ofReal_mul, Complex.I_im, mul_one, zero_add] at e2
  have n1 : (1 - 1.3 / 10^13) * erfcxR y.val ≤ ‖W‖ := by
    have := (le_abs_self _).trans (Complex.abs_re_le_norm W)
    linarith [(abs_le.1 e1).1]
  have f1 := abs_sub_le w.val (erfcxR y.val) W.re
  have f2 := abs_sub_le (x * (2.0 * (INV_SQRT_PI - y * w)) : F64).val (x.val * (kap - 2 * y.val * erfcxR y.val)) W.im
  rw [abs_sub_comm] at e1 e2
  have g1 := wa.err
  have g2 := im.err
  constructor
  · refine f1.trans ((add_le_add g1 e1).trans ?_)
    norm_num at n1 ⊢; linarith
  · refine f2.trans ((add_le_add g2 e2).trans ?_)
    norm_num at n1 ⊢; linarith

/-- the hypotheses are met, at `10^-9 - i` -/
example : (1e-9 : F64).val ≠ 0 ∧ (-(1.0 : F64)).val ≤ -(1 / 10^180) ∧ -3 ≤ (-(1.0 : F64)).val ∧ |(1e-9 : F64).val| ≤ 0.99 / 10^8 * |(-(1.0 : F64)).val| := by
  have a := le_val_of_sv (x := (1e-9 : F64)) 1 10000000000 (by norm_num) (by decide +kernel)
  have b := val_le_of_sv (x := (1e-9 : F64)) 1 500000000 (by norm_num) (by decide +kernel)
  have c : (1.0 : F64).val = 1 := by exact_mod_cast val_of_int (x := (1.0 : F64)) 1 (by decide +kernel)
  push_cast at a b
  have p : 0 < (1e-9 : F64).val := lt_of_lt_of_le (by norm_num) a
  rw [val_neg, c, abs_of_pos p, abs_neg, abs_one]
  exact ⟨p.ne', by norm_num, by norm_num, b.trans (by norm_num)⟩

end Verif
