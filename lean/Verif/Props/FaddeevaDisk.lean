import Verif.Proofs.FadHorner
import Verif.Props.FaddeevaAcc

/-! C83 in the small disk: `faddeeva(x, y)` approximates `w(x + iy)` for `|x + iy| ≤ 0.23` off the axes. -/

namespace Verif
open F64 Fad
variable [Libm F64] [Cfg]

theorem off_axis {a b : F64} (ha : a.isFin = true) (hb : b.isFin = true) (h : |a.val| ≤ 9 * 10^7 * |b.val|) :
    F64.lt b.abs (1e-8 * a.abs) = false := by
  have m := mul_spec (a := (1e-8 : F64)) (b := a.abs) (by decide +kernel) (by rw [isFin_abs]; exact ha)
  have hb' : b.abs.isNaN = false := isFin_notNaN (by rw [isFin_abs]; exact hb)
  rw [lt_false_iff hb' m.1, m.2.1, ← RN_val hb']
  apply RN_mono
  have k := val_le_of_sv (x := (1e-8 : F64)) 11 1000000000 (by norm_num) (by decide +kernel)
  push_cast at k
  rw [val_abs, val_abs]
  have p := abs_nonneg a.val
  calc (1e-8 : F64).val * |a.val| ≤ 11 / 1000000000 * |a.val| := mul_le_mul_of_nonneg_right k p
    _ ≤ 11 / 1000000000 * (9 * 10^7 * |b.val|) := mul_le_mul_of_nonneg_left h (by norm_num)
    _ ≤ |b.val| := by have := abs_nonneg b.val; linarith

theorem nr_close {e : ℝ} {c : Cx F64} {C W : ℂ} (h : Nr (5 / 10^15) c C) (hW : ‖C - W‖ ≤ 1 / 10^15) (he : 6 / 10^15 ≤ e) :
    |c.re.val - W.re| ≤ e ∧ |c.im.val - W.im| ≤ e := by
  have r := (Complex.abs_re_le_norm (C - W)).trans hW
  have i := (Complex.abs_im_le_norm (C - W)).trans hW
  rw [Complex.sub_re] at r
  rw [Complex.sub_im] at i
  have t1 := abs_sub_le c.re.val C.re W.re
  have t2 := abs_sub_le c.im.val C.im W.im
  have e1 := h.1.err
  have e2 := h.2.err
  constructor <;> linarith

/-- C83 in the small disk: for all finite `x`, `y` with `x² + y² ≤ 0.0529` (that is `|x + iy| ≤ 0.23`) away from the two axes (neither coordinate
is more than `9·10^7` times the other), `faddeeva(x, y)` returns, and both components are within `10^-14` of those of `w(x + iy)`. -/
theorem faddeeva_disk_accurate (x y : F64) (fx : x.isFin = true) (fy : y.isFin = true) (h : x.val^2 + y.val^2 ≤ 0.0529)
    (hx : |x.val| ≤ 9 * 10^7 * |y.val|) (hy : |y.val| ≤ 9 * 10^7 * |x.val|) :
    ∃ v, Returns (faddeeva x y) v ∧ |v.1.val - (faddeevaW (cpx x y)).re| ≤ 1 / 10^14 ∧ |v.2.val - (faddeevaW (cpx x y)).im| ≤ 1 / 10^14 := by
  have sx : x.val^2 ≤ 0.0529 := by nlinarith [sq_nonneg y.val]
  have sy : y.val^2 ≤ 0.0529 := by nlinarith [sq_nonneg x.val]
  have bx : |x.val| ≤ 0.23 := abs_le_of_sq_le_sq (by norm_num at sx ⊢; linarith) (by norm_num)
  have bY : |y.val| ≤ 0.23 := abs_le_of_sq_le_sq (by norm_num at sy ⊢; linarith) (by norm_num)
  have nz : ‖cpx x y‖^2 = x.val^2 + y.val^2 := by
    rw [← Complex.normSq_eq_norm_sq]
    simp [cpx, Complex.normSq_apply]; ring
  -- the computed |z|²
  have zz : Ab (zzOf x y) (x.val^2 + y.val^2) (1 / 10^16) := by
    have a1 := ab_self (a := x.abs) (by rw [isFin_abs]; exact fx)
    have a2 := ab_self fy
    have m1 := ab_mul a1 a1 (P := 0.23) (Q := 0.23) (M := 0.06) (by rw [val_abs, abs_abs]; exact bx) (by rw [val_abs, abs_abs]; exact bx) (by norm_num) (cap1 (by norm_num) (by norm_num))
    have m2 := ab_mul a2 a2 (P := 0.23) (Q := 0.23) (M := 0.06) bY bY (by norm_num) (cap1 (by norm_num) (by norm_num))
    have e1 : x.abs.val * x.abs.val = x.val^2 := by rw [val_abs, abs_mul_abs_self]; ring
    have e2 : y.val * y.val = y.val^2 := by ring
    rw [e1] at m1
    rw [e2] at m2
    refine (ab_add m1 m2 (M := 0.06) ?_ (cap1 (by norm_num) (by norm_num))).mono (by norm_num)
    rw [abs_of_nonneg (by positivity)]
    norm_num at h ⊢; linarith
  have zn := isFin_notNaN zz.fin
  obtain ⟨z1, z2⟩ := abs_le.1 zz.err
  have l1 := le_val_of_sv (x := (0.053 : F64)) 5299 100000 (by norm_num) (by decide +kernel)
  have small : F64.lt (zzOf x y) 0.053 = true := by
    refine lt_iff.2 ⟨zn, by decide +kernel, ?_⟩
    push_cast at l1
    norm_num at l1 z2 h ⊢
    linarith
  rw [fad_small (off_axis fx fy hx) (off_axis fy fx hy) small]
  refine ⟨_, rfl, ?_⟩
  have n0 : ‖cpx x y‖ ≤ 0.231 := abs_le_of_sq_le_sq' (by rw [nz]; norm_num at h ⊢; linarith) (by norm_num) |>.2
  have key : ∀ {c : Cx F64} {C : ℂ} {cs : List (Cx F64)} {Cs : List ℂ}, P c C → List.Forall₂ P cs Cs → ‖hC (cpx x y) C Cs - faddeevaW (cpx x y)‖ ≤ 1 / 10^15 →
      |(cxHorner ⟨x, y⟩ c cs).re.val - (faddeevaW (cpx x y)).re| ≤ 1 / 10^14 ∧ |(cxHorner ⟨x, y⟩ c cs).im.val - (faddeevaW (cpx x y)).im| ≤ 1 / 10^14 := by
    intro c C cs Cs hc hcs ht
    exact nr_close (nr_horner (z := ⟨x, y⟩) fx fy n0 hcs (hc.1.mono (by norm_num)) (hc.2.trans (by norm_num))) ht (by norm_num)
  unfold faddeevaSmall
  simp only [ar_lt]
  split
  · rename_i g1
    have u1 := val_le_of_sv (x := (0.00689 : F64)) 690 100000 (by norm_num) (by decide +kernel)
    have g1' := (lt_iff.1 g1).2.2
    split
    · rename_i g2
      have u2 := val_le_of_sv (x := (4e-7 : F64)) 5 10000000 (by norm_num) (by decide +kernel)
      have g2' := (lt_iff.1 g2).2.2
      refine key s4 f4 (t4 _ (abs_le_of_sq_le_sq' ?_ (by norm_num) |>.2))
      rw [nz]
      push_cast at u2
      norm_num at u2 z1 ⊢
      linarith
    · refine key s13 f13 (t13 _ (abs_le_of_sq_le_sq' ?_ (by norm_num) |>.2))
      rw [nz]
      push_cast at u1
      norm_num at u1 z1 ⊢
      linarith
  · exact key s19 f19 (t19 _ n0)

/-- the hypotheses hold at (0.1, -0.2), and the three polynomials the code uses are all reached in the disk -/
example : ((0.1 : F64).isFin = true ∧ (-0.2 : F64).isFin = true ∧ (0.1 : F64).val^2 + (-0.2 : F64).val^2 ≤ 0.0529 ∧
      |(0.1 : F64).val| ≤ 9 * 10^7 * |(-0.2 : F64).val| ∧ |(-0.2 : F64).val| ≤ 9 * 10^7 * |(0.1 : F64).val|) ∧
    F64.lt (zzOf 0.05 0.03) 0.00689 = true ∧ F64.lt (zzOf 0.05 0.03) 4e-7 = false ∧ F64.lt (zzOf 1e-5 2e-4) 4e-7 = true ∧ F64.lt (zzOf 0.1 (-0.2)) 0.00689 = false := by
  have a := val_le_of_sv (x := (0.1 : F64)) 101 1000 (by norm_num) (by decide +kernel)
  have b := le_val_of_sv (x := (0.1 : F64)) 99 1000 (by norm_num) (by decide +kernel)
  have c := le_val_of_sv (x := (-0.2 : F64)) (-201) 1000 (by norm_num) (by decide +kernel)
  have d := val_le_of_sv (x := (-0.2 : F64)) (-199) 1000 (by norm_num) (by decide +kernel)
  push_cast at a b c d
  refine ⟨⟨by decide +kernel, by decide +kernel, ?_, ?_, ?_⟩, by decide +kernel, by decide +kernel, by decide +kernel, by decide +kernel⟩
  · norm_num at a b c d ⊢
    nlinarith
  all_goals
    rw [abs_of_pos (a := (0.1 : F64).val) (by linarith), abs_of_neg (a := (-0.2 : F64).val) (by linarith)]
    linarith

end Verif
