import Verif.Proofs.FadFar
import Verif.Proofs.FadMid
import Verif.Props.FaddeevaDisk

/-! C83 far from the origin in the upper half-plane. -/

namespace Verif
open F64 Fad
variable [Libm F64] [Cfg]

theorem large_y {y : F64} (hy : 0 < y.val) : F64.lt y 0.0 = false := by
  by_cases h : y.isNaN = true
  · exact lt_nan_left h
  · rw [lt_false_iff (by simpa using h) (by decide +kernel)]
    rw [show (0.0 : F64).val = 0 by exact_mod_cast val_of_int (x := (0.0 : F64)) 0 (by decide +kernel)]
    exact hy.le

/-- the error is small relative to `1/|z|` -/
theorem far_close {c : Cx F64} {C W : ℂ} {m : ℝ} (h : Nr (8 / 10^15 * m) c C) (hW : ‖C - W‖ ≤ 1.5 / 10^15 * m) :
    |c.re.val - W.re| ≤ 9.5 / 10^15 * m ∧ |c.im.val - W.im| ≤ 9.5 / 10^15 * m := by
  have r := (Complex.abs_re_le_norm (C - W)).trans hW
  have i := (Complex.abs_im_le_norm (C - W)).trans hW
  rw [Complex.sub_re] at r
  rw [Complex.sub_im] at i
  have t1 := abs_sub_le c.re.val C.re W.re
  have t2 := abs_sub_le c.im.val C.im W.im
  have e1 := h.1.err
  have e2 := h.2.err
  norm_num at r i e1 e2 ⊢
  constructor <;> linarith

theorem wnorm {z : ℂ} (hz : 7 ≤ ‖z‖) (h : 0 ≤ z.im) : 1 / 10^14 * ‖z‖⁻¹ ≤ 2 / 10^14 * ‖faddeevaW z‖ := by
  have h0 : z ≠ 0 := by rintro rfl; norm_num at hz
  have e := w1 h0 h
  have k := kap_bounds.1
  have m : 0 < ‖z‖⁻¹ := inv_pos.2 (by linarith)
  have m2 : ‖z‖⁻¹ ≤ 1/7 := by rw [← one_div]; exact one_div_le_one_div_of_le (by norm_num) hz
  have n : ‖(kap : ℂ) * (1/2) * (Complex.I * z⁻¹)‖ = kap / 2 * ‖z‖⁻¹ := by
    rw [norm_mul, norm_mul, norm_mul, Complex.norm_I, norm_inv, Complex.norm_real, Real.norm_eq_abs, abs_of_pos kap_pos]
    have : ‖(1/2 : ℂ)‖ = 1/2 := by rw [norm_div, norm_one, Complex.norm_ofNat]
    rw [this]; ring
  have t := norm_sub_norm_le ((kap : ℂ) * (1/2) * (Complex.I * z⁻¹)) (faddeevaW z)
  rw [n] at t
  generalize ‖z‖⁻¹ = u at *
  have u2 : u^2 ≤ (1/7)^2 := pow_le_pow_left₀ m.le m2 2
  have u3 : 1.7 * u^3 ≤ 0.035 * u := by
    calc 1.7 * u^3 = (1.7 * u^2) * u := by ring
      _ ≤ 0.035 * u := mul_le_mul_of_nonneg_right (by norm_num at u2 ⊢; linarith) m.le
  have ku : 1.12 / 2 * u ≤ kap / 2 * u := mul_le_mul_of_nonneg_right (by norm_num at k ⊢; linarith) m.le
  norm_num at *
  linarith

/-- the asymptotic expansions, at a point of the upper half-plane -/
theorem asy_ab {x y : F64} {n : ℝ} (hnd : n = ‖cpx x y‖) (hn : n^2 = x.val^2 + y.val^2) (fx : x.isFin = true) (fy : y.isFin = true) (y0 : 0 < y.val)
    (h : 49.01 ≤ n^2) (n7 : 7 ≤ n) (n8 : n ≤ 10^8) : Nr (9.5 / 10^15 * n⁻¹) (faddeevaAsy x y.abs (zzOf x y)) (faddeevaW (cpx x y)) := by
  subst hnd
  set n := ‖cpx x y‖ with hnd
  have n0 : 0 < n := by linarith
  have yim : 0 ≤ (cpx x y).im := y0.le
  have zz := zz_ab fx fy hn (by linarith) (n8.trans (pow_le_pow_right₀ (by norm_num) (by norm_num)))
  have zn := isFin_notNaN zz.fin
  obtain ⟨z1, z2⟩ := abs_le.1 zz.err
  have zlo : (1 - 7.5 / 10^16) * n^2 ≤ (zzOf x y).val := by linarith
  have zhi : (zzOf x y).val ≤ (1 + 7.5 / 10^16) * n^2 := by linarith
  clear z1 z2
  have v540 : (540.0 : F64).val = 540 := by exact_mod_cast val_of_int (x := (540.0 : F64)) 540 (by decide +kernel)
  have v22500 : (22500.0 : F64).val = 22500 := by exact_mod_cast val_of_int (x := (22500.0 : F64)) 22500 (by decide +kernel)
  have key : ∀ {c : Cx F64} {C : ℂ}, Nr (8 / 10^15 * n⁻¹) c C → ‖C - faddeevaW (cpx x y)‖ ≤ 1.5 / 10^15 * n⁻¹ → Nr (9.5 / 10^15 * n⁻¹) c (faddeevaW (cpx x y)) := by
    intro c C h1 h2
    have := far_close h1 h2
    exact ⟨⟨h1.1.fin, this.1⟩, ⟨h1.2.fin, this.2⟩⟩
  obtain ⟨r1, r2⟩ := rr_ab fx fy hn (by linarith) n8 y0.le
  have zi : ‖(cpx x y)⁻¹‖ = 1 / n := by rw [norm_inv, ← hnd, one_div]
  have nR : ‖Complex.I * (cpx x y)⁻¹‖ ≤ 1 / n := by rw [norm_mul, Complex.norm_I, one_mul, zi]
  have io : 1 / 10^10 ≤ 1 / n := one_div_le_one_div_of_le n0 (n8.trans (by norm_num))
  have iu : 1 / n ≤ 1 := by rw [div_le_one n0]; norm_num at n7; linarith
  have last : ∀ {c : Cx F64} {C : ℂ}, Nr (1.31 / 10^14 * (kap * (1/2) * (1 / n))) c C → Nr (8 / 10^15 * n⁻¹) c C := by
    intro c C hc
    refine Nr.mono hc ?_
    rw [← one_div, ← mul_assoc]
    exact mul_le_mul_of_nonneg_right (by have := kap_le; norm_num at this ⊢; linarith) (by positivity)
  have kn : 0 ≤ kap * (1/2) * (1 / n) := mul_nonneg (mul_nonneg kap_pos.le (by norm_num)) (by positivity)
  unfold faddeevaAsy
  simp only [ar_lt]
  split
  · rename_i g5
    have g5' := (lt_iff.1 g5).2.2
    rw [v540] at g5'
    have n539 : 539 ≤ n^2 := by norm_num at zhi ⊢; linarith
    have n23 : 23 ≤ n := le_of_sq_le_sq (by norm_num at n539 ⊢; linarith) n0.le
    have i539 : 1 / n^2 ≤ 1 / 539 := one_div_le_one_div_of_le (by norm_num) n539
    have nR2 : ‖((cpx x y)⁻¹)^2‖ ≤ 1/539 := by rw [norm_pow, zi, one_div_pow]; exact i539
    have r2' := Nr.mono r2 (mul_le_mul_of_nonneg_left i539 (by norm_num))
    split
    · rename_i g2
      have g2' := (lt_iff.1 g2).2.2
      rw [v22500] at g2'
      have n149 : 149 ≤ n := by
        refine le_of_sq_le_sq ?_ n0.le
        norm_num at zhi ⊢; linarith
      obtain ⟨c1, c2, c3⟩ : Ab (1.057855469152043 : F64) (kap * (15/16)) (4 / 10^16 * (kap * (15/16))) ∧ 1/10 ≤ kap * (15/16) ∧ kap * (15/16) ≤ 10^8 := by
        refine gl _ _ _ ?_ ?_ ?_ <;> norm_num [abs_le]
      obtain ⟨t1, t2⟩ := st_c r2' nR2 c1 c2 c3
      obtain ⟨C, l1, l2⟩ := nr_asy r2' nR2 r1 nR io iu (cs := asyTail3) (by simp [asyTail3]) g3 t1 t2
      have : C = kap * (1/2) := by simpa [A3] using l1.symm
      rw [this] at l2
      have fin := key (last (Nr.mono l2 (mul_le_mul_of_nonneg_right (by norm_num) kn))) (w4 n149 yim)
      exact fin
    · obtain ⟨c1, c2, c3⟩ : Ab (3.787704007508795e6 : F64) (kap * (13749310575/4096)) (4 / 10^16 * (kap * (13749310575/4096))) ∧ 1/10 ≤ kap * (13749310575/4096) ∧ kap * (13749310575/4096) ≤ 10^8 := by
        refine gl _ _ _ ?_ ?_ ?_ <;> norm_num [abs_le]
      obtain ⟨t1, t2⟩ := st_c r2' nR2 c1 c2 c3
      obtain ⟨C, l1, l2⟩ := nr_asy r2' nR2 r1 nR io iu (cs := asyTail11) (by simp [asyTail11]) g11 t1 t2
      have : C = kap * (1/2) := by simpa [A11, A3] using l1.symm
      rw [this] at l2
      have fin := key (last (Nr.mono l2 (mul_le_mul_of_nonneg_right (by norm_num) kn))) (w12 (z := cpx x y) (by rw [← hnd]; norm_num at n7; linarith) yim)
      exact fin
  · have i49 : 1 / n^2 ≤ 1 / 49 := one_div_le_one_div_of_le (by norm_num) (by norm_num at h ⊢; linarith)
    have nR2 : ‖((cpx x y)⁻¹)^2‖ ≤ 1/49 := by rw [norm_pow, zi, one_div_pow]; exact i49
    have r2' := Nr.mono r2 (mul_le_mul_of_nonneg_left i49 (by norm_num))
    obtain ⟨c1, c2, c3⟩ := c19
    obtain ⟨t1, t2⟩ := st_m r2' nR2 c1 c2 c3
    obtain ⟨C, l1, l2⟩ := nr_mid r2' nR2 r1 nR io iu (cs := asyTail19) (by simp [asyTail19]) g19 t1 t2
    have : C = kap * (1/2) := by simpa [A19, A11, A3] using l1.symm
    rw [this] at l2
    have fin := key (last l2) (w20 (z := cpx x y) n7 yim)
    exact fin

/-- C83 far from the origin: for all finite `x`, `y > 0` with `x² + y² ≥ 49.01` (that is, just over `|x + iy| ≥ 7`), both at most `10^150`, away from the two
axes, `faddeeva(x, y)` returns, and the error of both components is at most `2·10^-14 |w(x + iy)|`. -/
theorem faddeeva_far_accurate (x y : F64) (y0 : 0 < y.val) (bx : |x.val| ≤ 10^150) (bY : |y.val| ≤ 10^150) (h : 49.01 ≤ x.val^2 + y.val^2)
    (hx : |x.val| ≤ 9 * 10^7 * |y.val|) (hy : |y.val| ≤ 9 * 10^7 * |x.val|) :
    ∃ v, Returns (faddeeva x y) v ∧ |v.1.val - (faddeevaW (cpx x y)).re| ≤ 2 / 10^14 * ‖faddeevaW (cpx x y)‖ ∧
      |v.2.val - (faddeevaW (cpx x y)).im| ≤ 2 / 10^14 * ‖faddeevaW (cpx x y)‖ := by
  have fx : x.isFin = true := isFin_of_abs bx (pow_le_pow_right₀ (by norm_num) (by norm_num))
  have fy : y.isFin = true := isFin_of_abs bY (pow_le_pow_right₀ (by norm_num) (by norm_num))
  set n := ‖cpx x y‖ with hnd
  have hn : n^2 = x.val^2 + y.val^2 := by
    rw [hnd, ← Complex.normSq_eq_norm_sq]
    simp [cpx, Complex.normSq_apply]; ring
  have n7 : 7 ≤ n := by
    refine le_of_sq_le_sq ?_ (norm_nonneg _)
    rw [hn]; norm_num at h ⊢; linarith
  have n0 : 0 < n := by linarith
  have n151 : n ≤ 10^151 := by
    have : n ≤ |x.val| + |y.val| := by
      rw [hnd]
      exact Complex.norm_le_abs_re_add_abs_im (cpx x y)
    have e : (10:ℝ)^151 = 10 * 10^150 := by rw [pow_succ (10:ℝ) 150]; ring
    rw [e]
    have : (0:ℝ) < 10^150 := by positivity
    generalize (10:ℝ)^150 = W at *
    linarith
  have yim : 0 ≤ (cpx x y).im := y0.le
  have zz := zz_ab fx fy hn (by linarith) n151
  have zn := isFin_notNaN zz.fin
  obtain ⟨z1, z2⟩ := abs_le.1 zz.err
  have zlo : (1 - 7.5 / 10^16) * n^2 ≤ (zzOf x y).val := by linarith
  have zhi : (zzOf x y).val ≤ (1 + 7.5 / 10^16) * n^2 := by linarith
  clear z1 z2
  rw [← hn] at h
  have v053 := val_le_of_sv (x := (0.053 : F64)) 1 1 (by norm_num) (by decide +kernel)
  have v49 : (49.0 : F64).val = 49 := by exact_mod_cast val_of_int (x := (49.0 : F64)) 49 (by decide +kernel)
  have v540 : (540.0 : F64).val = 540 := by exact_mod_cast val_of_int (x := (540.0 : F64)) 540 (by decide +kernel)
  have v22500 : (22500.0 : F64).val = 22500 := by exact_mod_cast val_of_int (x := (22500.0 : F64)) 22500 (by decide +kernel)
  have v48 : (4.8e15 : F64).val = 4800000000000000 := by exact_mod_cast val_of_int (x := (4.8e15 : F64)) 4800000000000000 (by decide +kernel)
  push_cast at v053
  have zz49 : 49 < (zzOf x y).val := by norm_num at zlo h ⊢; linarith
  have s1 : F64.lt (zzOf x y) 0.053 = false := by
    rw [lt_false_iff zn (by decide +kernel)]; norm_num at v053; linarith
  have s2 : F64.le 49.0 (zzOf x y) = true := le_iff.2 ⟨by decide +kernel, zn, by rw [v49]; linarith⟩
  rw [fad_large (off_axis fx fy hx) (off_axis fy fx hy) s1 s2]
  refine ⟨_, rfl, ?_⟩
  have ly := large_y y0
  have key2 : ∀ {c : Cx F64}, |c.re.val - (faddeevaW (cpx x y)).re| ≤ 9.5 / 10^15 * n⁻¹ → |c.im.val - (faddeevaW (cpx x y)).im| ≤ 9.5 / 10^15 * n⁻¹ →
      |c.re.val - (faddeevaW (cpx x y)).re| ≤ 2 / 10^14 * ‖faddeevaW (cpx x y)‖ ∧ |c.im.val - (faddeevaW (cpx x y)).im| ≤ 2 / 10^14 * ‖faddeevaW (cpx x y)‖ := by
    intro c h1 h2
    have w := wnorm (z := cpx x y) n7 yim
    rw [← hnd] at w
    have q : 9.5 / 10^15 * n⁻¹ ≤ 1 / 10^14 * n⁻¹ := mul_le_mul_of_nonneg_right (by norm_num) (inv_nonneg.2 n0.le)
    exact ⟨h1.trans (q.trans w), h2.trans (q.trans w)⟩
  have key : ∀ {c : Cx F64} {C : ℂ}, Nr (8 / 10^15 * n⁻¹) c C → ‖C - faddeevaW (cpx x y)‖ ≤ 1.5 / 10^15 * n⁻¹ →
      |c.re.val - (faddeevaW (cpx x y)).re| ≤ 2 / 10^14 * ‖faddeevaW (cpx x y)‖ ∧ |c.im.val - (faddeevaW (cpx x y)).im| ≤ 2 / 10^14 * ‖faddeevaW (cpx x y)‖ := by
    intro c C h1 h2
    have := far_close h1 h2
    exact key2 this.1 this.2
  have va : y.abs.val = y.val := by rw [val_abs, abs_of_pos y0]
  have fa : y.abs.isFin = true := by rw [isFin_abs]; exact fy
  unfold faddeevaLarge
  simp only [ar_lt, ly, Bool.false_eq_true, if_false]
  have p0 : 0 < n⁻¹ := inv_pos.2 n0
  split
  · rename_i g
    have g' := (lt_iff.1 g).2.2
    rw [v48] at g'
    have nb : 4 * 10^15 ≤ n^2 := by norm_num at zhi ⊢; linarith
    have h0 : cpx x y ≠ 0 := by intro h; rw [hnd, h, norm_zero] at n0; exact lt_irrefl _ n0
    have tr : ‖(kap : ℂ) * (1/2) * (Complex.I * (cpx x y)⁻¹) - faddeevaW (cpx x y)‖ ≤ 1.5 / 10^15 * n⁻¹ := by
      refine (w1 h0 yim).trans ?_
      rw [← hnd]
      have : (n⁻¹)^2 ≤ 1 / (4 * 10^15) := by rw [inv_pow, ← one_div]; exact one_div_le_one_div_of_le (by norm_num) nb
      calc 1.7 * (n⁻¹)^3 = (1.7 * (n⁻¹)^2) * n⁻¹ := by ring
        _ ≤ _ := mul_le_mul_of_nonneg_right (by norm_num at this ⊢; linarith) p0.le
    have iz := inv_c (z := cpx x y) (X := x.val) (Y := y.val) rfl hn n0
    have re : ((kap : ℂ) * (1/2) * (Complex.I * (cpx x y)⁻¹)).re = kap * (1/2) * (y.val / n^2) := by
      rw [iz, show (kap : ℂ) * (1/2) = ((kap * (1/2) : ℝ) : ℂ) by push_cast; ring, Complex.re_ofReal_mul, Complex.I_mul_re]; ring
    have im : ((kap : ℂ) * (1/2) * (Complex.I * (cpx x y)⁻¹)).im = kap * (1/2) * (x.val / n^2) := by
      rw [iz, show (kap : ℂ) * (1/2) = ((kap * (1/2) : ℝ) : ℂ) by push_cast; ring, Complex.im_ofReal_mul, Complex.I_mul_im]
    have mono : 5 / 10^15 * (1 / n) ≤ 8 / 10^15 * n⁻¹ := by rw [one_div]; exact mul_le_mul_of_nonneg_right (by norm_num) p0.le
    split
    · rename_i g2
      have g2' := (lt_iff.1 g2).2.2
      simp only [val_abs] at g2'
      have := far_core (a := x) (b := y.abs) (s := x + y.abs / x * y.abs) fx fa (by rw [val_abs, abs_abs]; exact g2'.le) (by rw [va]; exact hn) (by linarith) n151 (Or.inl rfl)
      rw [va] at this
      refine key (C := (kap : ℂ) * (1/2) * (Complex.I * (cpx x y)⁻¹)) ⟨?_, ?_⟩ tr
      · rw [re]; exact this.2.mono mono
      · rw [im]; exact this.1.mono mono
    · rename_i g2
      have g2' : F64.lt y.abs x.abs = false := by simpa using g2
      rw [lt_false_iff (isFin_notNaN fa) (by rw [isNaN_abs]; exact isFin_notNaN fx), val_abs, val_abs] at g2'
      have ni : Arith.isInf y.abs = false := isFin_notInf fa
      rw [if_neg (by rw [ni]; decide)]
      have := far_core (a := y.abs) (b := x) (s := x / y.abs * x + y.abs) fa fx (by rw [val_abs, abs_abs]; exact g2') (by rw [va, hn]; ring) (by linarith) n151 (Or.inr rfl)
      rw [va] at this
      refine key (C := (kap : ℂ) * (1/2) * (Complex.I * (cpx x y)⁻¹)) ⟨?_, ?_⟩ tr
      · rw [re]; exact this.1.mono mono
      · rw [im]; exact this.2.mono mono
  · rename_i g
    have g' : F64.lt 4.8e15 (zzOf x y) = false := by simpa using g
    rw [lt_false_iff (by decide +kernel) zn, v48] at g'
    have nb : n^2 ≤ 5 * 10^15 := by norm_num at zlo ⊢; linarith
    have n8 : n ≤ 10^8 := le_of_sq_le_sq (nb.trans (by norm_num)) (by norm_num)
    have fin := asy_ab hnd hn fx fy y0 h n7 n8
    exact key2 fin.1.err fin.2.err

/-- the hypotheses hold at (-30, 40), and (-30, 40), (2000, 1000), (1e12, 3e9), (6, 8) are points of the four branches -/
example : (0 < (40.0 : F64).val ∧ |(-30.0 : F64).val| ≤ 10^150 ∧ |(40.0 : F64).val| ≤ 10^150 ∧ 49.01 ≤ (-30.0 : F64).val^2 + (40.0 : F64).val^2 ∧
      |(-30.0 : F64).val| ≤ 9 * 10^7 * |(40.0 : F64).val| ∧ |(40.0 : F64).val| ≤ 9 * 10^7 * |(-30.0 : F64).val|) ∧
    F64.lt 22500.0 (zzOf (-30.0) 40.0) = false ∧ F64.lt 22500.0 (zzOf 2000.0 1000.0) = true ∧ F64.lt 4.8e15 (zzOf 1e12 3e9) = true ∧ F64.lt 540.0 (zzOf 6.0 8.0) = false := by
  have a : (40.0 : F64).val = 40 := by exact_mod_cast val_of_int (x := (40.0 : F64)) 40 (by decide +kernel)
  have b : (-30.0 : F64).val = -30 := by exact_mod_cast val_of_int (x := (-30.0 : F64)) (-30) (by decide +kernel)
  have big : (40:ℝ) ≤ 10^150 := le_trans (by norm_num : (40:ℝ) ≤ 10^2) (pow_le_pow_right₀ (by norm_num) (by norm_num))
  rw [a, b, abs_neg, abs_of_pos (by norm_num : (0:ℝ) < 30), abs_of_pos (by norm_num : (0:ℝ) < 40)]
  refine ⟨⟨by norm_num, by linarith, big, by norm_num, by norm_num, by norm_num⟩, by decide +kernel, by decide +kernel, by decide +kernel, by decide +kernel⟩

end Verif
