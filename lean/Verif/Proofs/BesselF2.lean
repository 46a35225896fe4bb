import Verif.Proofs.BesselF
import Verif.Proofs.BesselI2
import Verif.Proofs.BesselRight5

/-! Accuracy of `j0`, `j1`, `i0`, `i1` in binary64: near the origin, and the exponential branch of `i0`, `i1`. -/

namespace Verif
namespace BesX
open FlErr F64

variable [Libm F64]

omit [Libm F64] in
theorem fin_of_abs {x : F64} {c : ℝ} (hc : c ≤ 10 ^ 200) (h : |x.val| < c) : x.isFin = true := by
  rw [isFin_iff_val]; exact h.trans_le (hc.trans HUGE_ge)

theorem j0_left_F {x : F64} (hx : |x.val| < 8) : j0 x = evF (envF x) j0lE ∧ j0 x.val = evR (envR x.val) j0lE := by
  have hf := fin_of_abs (by norm_num) hx
  constructor
  · have h : (Arith.abs x <ᶠ (8.0 : F64)) = true := by
      show F64.lt x.abs 8.0 = true
      rw [lt_iff]
      refine ⟨by rw [isNaN_abs]; exact isFin_notNaN hf, by decide +kernel, ?_⟩
      rw [val_abs, val_of_int (x := (8.0 : F64)) 8 (by decide +kernel)]
      exact_mod_cast hx
    unfold j0
    simp only [h, if_true, rat]
    unfold j0lE
    simp only [evF, hornE_F' (J0Rx_F (envF x)) (by decide), hornE_F' (J0Sx_F (envF x)) (by decide), envF, XJ00, XJ10, XJ01, XJ11]
    norm_num
  · have h : (Arith.abs x.val <ᶠ (8.0 : ℝ)) = true := by
      show decide (|x.val| < (8.0:ℝ)) = true
      rw [decide_eq_true_eq]; norm_num; exact hx
    unfold j0
    simp only [h, if_true, rat]
    unfold j0lE
    simp only [evR, hornE_R' (J0Rx_R (envR x.val)) (by decide), hornE_R' (J0Sx_R (envR x.val)) (by decide), XJ00, XJ10, envR, envR, XJ00, XJ10, XJ01, XJ11]
    norm_num

theorem j1_left_F {x : F64} (hx : |x.val| < 8) : j1 x = evF (envF x) j1lE ∧ j1 x.val = evR (envR x.val) j1lE := by
  have hf := fin_of_abs (by norm_num) hx
  constructor
  · have h : (Arith.abs x <ᶠ (8.0 : F64)) = true := by
      show F64.lt x.abs 8.0 = true
      rw [lt_iff]
      refine ⟨by rw [isNaN_abs]; exact isFin_notNaN hf, by decide +kernel, ?_⟩
      rw [val_abs, val_of_int (x := (8.0 : F64)) 8 (by decide +kernel)]
      exact_mod_cast hx
    unfold j1
    simp only [h, if_true, rat]
    unfold j1lE
    simp only [evF, hornE_F' (J1Rx_F (envF x)) (by decide), hornE_F' (J1Sx_F (envF x)) (by decide), envF, XJ00, XJ10, XJ01, XJ11]
    norm_num
  · have h : (Arith.abs x.val <ᶠ (8.0 : ℝ)) = true := by
      show decide (|x.val| < (8.0:ℝ)) = true
      rw [decide_eq_true_eq]; norm_num; exact hx
    unfold j1
    simp only [h, if_true, rat]
    unfold j1lE
    simp only [evR, hornE_R' (J1Rx_R (envR x.val)) (by decide), hornE_R' (J1Sx_R (envR x.val)) (by decide), XJ01, XJ11, envR, envR, XJ00, XJ10, XJ01, XJ11]
    norm_num

theorem i_left_lt {x : F64} (hx : |x.val| < 15) : (Arith.abs x <ᶠ (15.0 : F64)) = true := by
  have hf := fin_of_abs (by norm_num) hx
  show F64.lt x.abs 15.0 = true
  rw [lt_iff]
  refine ⟨by rw [isNaN_abs]; exact isFin_notNaN hf, by decide +kernel, ?_⟩
  rw [val_abs, val_of_int (x := (15.0 : F64)) 15 (by decide +kernel)]
  exact_mod_cast hx

omit [Libm F64] in
theorem i_left_ltR {x : ℝ} (hx : |x| < 15) : (Arith.abs x <ᶠ (15.0 : ℝ)) = true := by
  show decide (|x| < (15.0:ℝ)) = true
  rw [decide_eq_true_eq]; norm_num; exact hx

theorem i0_left_F {x : F64} (hx : |x.val| < 15) : i0 x = evF (envF x) i0lE ∧ i0 x.val = evR (envR x.val) i0lE := by
  constructor
  · unfold i0
    simp only [i_left_lt hx, if_true]
    unfold i0lE i0nE i0dE
    simp only [evF, polyE_F' (I0Px_F (envF x)) (by decide), polyE_F' (I0Qx_F (envF x)) (by decide), envF, XJ00, XJ10, XJ01, XJ11]
    norm_num
  · unfold i0
    simp only [i_left_ltR hx, if_true]
    unfold i0lE i0nE i0dE
    simp only [evR, polyE_R' (I0Px_R (envR x.val)) (by decide), polyE_R' (I0Qx_R (envR x.val)) (by decide), envR, envR, XJ00, XJ10, XJ01, XJ11]
    norm_num

theorem i1_left_F {x : F64} (hx : |x.val| < 15) : i1 x = x * evF (envF x) i1nE / evF (envF x) i1dE ∧
    i1 x.val = x.val * evR (envR x.val) i1nE / evR (envR x.val) i1dE := by
  constructor
  · unfold i1
    simp only [i_left_lt hx, if_true]
    unfold i1nE i1dE
    simp only [evF, polyE_F' (I1Px_F (envF x)) (by decide), polyE_F' (I1Qx_F (envF x)) (by decide), envF, XJ00, XJ10, XJ01, XJ11]
    norm_num
  · unfold i1
    simp only [i_left_ltR hx, if_true]
    unfold i1nE i1dE
    simp only [evR, polyE_R' (I1Px_R (envR x.val)) (by decide), polyE_R' (I1Qx_R (envR x.val)) (by decide), envR, envR, XJ00, XJ10, XJ01, XJ11]
    norm_num

omit [Libm F64] in
theorem rng8 {x : F64} (hx : |x.val| < 8) : ((-8 * 2 ^ 160 : ℤ) : ℝ) / FlErr.U ≤ x.val ∧ x.val ≤ ((-8 * 2 ^ 160 + (2 ^ 158 : ℕ) * (64 : ℕ) : ℤ) : ℝ) / FlErr.U := by
  rw [abs_lt] at hx
  unfold FlErr.U
  constructor <;> norm_num <;> linarith [hx.1, hx.2]

omit [Libm F64] in
theorem rng15 {x : F64} (hx : |x.val| < 15) : ((-15 * 2 ^ 160 : ℤ) : ℝ) / FlErr.U ≤ x.val ∧ x.val ≤ ((-15 * 2 ^ 160 + (2 ^ 158 : ℕ) * (120 : ℕ) : ℤ) : ℝ) / FlErr.U := by
  rw [abs_lt] at hx
  unfold FlErr.U
  constructor <;> norm_num <;> linarith [hx.1, hx.2]

theorem j0_acc_left {x : F64} (hx : |x.val| < 8) : (j0 x).isFin = true ∧ |(j0 x).val - besselJR 0 x.val| ≤ 2.01e-14 := by
  have hf := fin_of_abs (by norm_num) hx
  obtain ⟨e1, e2⟩ := j0_left_F hx
  obtain ⟨r1, r2⟩ := rng8 hx
  have h := pieces_abs j0lE hf (by norm_num) j0_pc r1 r2
  rw [← e1, ← e2] at h
  have h2 := Bes.j0_left hx
  have h3 : ((2 ^ 160 / 10 ^ 14 : ℕ) : ℝ) / FlErr.U ≤ 1.0001e-14 := by unfold FlErr.U; norm_num
  refine ⟨h.1, (abs_sub_le _ (j0 x.val) _).trans ?_⟩
  have := h.2
  norm_num at *
  linarith

theorem j1_acc_left {x : F64} (hx : |x.val| < 8) : (j1 x).isFin = true ∧ |(j1 x).val - besselJR 1 x.val| ≤ 2.01e-14 := by
  have hf := fin_of_abs (by norm_num) hx
  obtain ⟨e1, e2⟩ := j1_left_F hx
  obtain ⟨r1, r2⟩ := rng8 hx
  have h := pieces_abs j1lE hf (by norm_num) j1_pc r1 r2
  rw [← e1, ← e2] at h
  have h2 := Bes.j1_left hx
  have h3 : ((2 ^ 160 / 10 ^ 14 : ℕ) : ℝ) / FlErr.U ≤ 1.0001e-14 := by unfold FlErr.U; norm_num
  refine ⟨h.1, (abs_sub_le _ (j1 x.val) _).trans ?_⟩
  have := h.2
  have h4 : 1.26e-15 * |x.val| ≤ 1.0081e-14 := by norm_num at *; linarith
  norm_num at *
  linarith

theorem i0_acc_left {x : F64} (hx : |x.val| < 15) : Rel (i0 x) (besselIR 0 x.val) 3.6e-14 := by
  have hf := fin_of_abs (by norm_num) hx
  obtain ⟨e1, e2⟩ := i0_left_F hx
  obtain ⟨r1, r2⟩ := rng15 hx
  have h := pieces_rel i0lE (by norm_num) hf (by norm_num) i0n_pc r1 r2 |>.1
  rw [← e1, ← e2] at h
  have h2 := Bes.i0_left hx
  have hp : 0 < besselIR 0 x.val := by
    rw [Bes.besselIR_eq, pow_zero, one_mul]
    have := Bes.sb_ge_one 0 (by norm_num) (by positivity : 0 ≤ x.val ^ 2 / 4)
    linarith
  refine ⟨h.fin, hp, (abs_sub_le _ (i0 x.val) _).trans ?_⟩
  have h3 := h.err
  have h4 := abs_le.1 h2
  norm_num at h2 h3 h4 ⊢
  linarith [h4.2]

theorem i1_acc_left {x : F64} (hx : |x.val| < 15) : (i1 x).isFin = true ∧ |(i1 x).val - besselIR 1 x.val| ≤ 3.2e-14 * |besselIR 1 x.val| + 1 / 2 ^ 1072 := by
  have hf := fin_of_abs (by norm_num) hx
  obtain ⟨e1, e2⟩ := i1_left_F hx
  obtain ⟨r1, r2⟩ := rng15 hx
  obtain ⟨hn, hnu⟩ := pieces_rel i1nE (by norm_num) hf (by norm_num) i1n_pc r1 r2
  obtain ⟨hd, hdu⟩ := pieces_rel i1dE (by norm_num) hf (by norm_num) i1d_pc r1 r2
  have h2 := Bes.i1_left hx
  rw [e1]
  rw [e2] at h2
  have hy : x.val * x.val ≤ 225 := by rw [abs_lt] at hx; nlinarith [hx.1, hx.2]
  have hQ : 0.46 ≤ evR (envR x.val) i1dE ∧ evR (envR x.val) i1dE ≤ 2 := by
    unfold i1dE I1Qx
    rw [polyE_R]
    simp only [evR, envR, List.map, poly, if_true]
    set z : ℝ := ((2250:ℕ):ℝ) / 10 ^ 1 - x.val * x.val with hz
    have hz0 : 0 ≤ z := by rw [hz]; norm_num; linarith
    have hz1 : z ≤ 225 := by rw [hz]; norm_num; nlinarith [sq_nonneg x.val]
    clear_value z
    have a2 : z ^ 2 ≤ 225 ^ 2 := pow_le_pow_left₀ hz0 hz1 2
    have a3 : z ^ 3 ≤ 225 ^ 3 := pow_le_pow_left₀ hz0 hz1 3
    have a4 : z ^ 4 ≤ 225 ^ 4 := pow_le_pow_left₀ hz0 hz1 4
    have b2 : 0 ≤ z ^ 2 := by positivity
    have b3 : 0 ≤ z ^ 3 := by positivity
    have b4 : 0 ≤ z ^ 4 := by positivity
    constructor <;> norm_num <;> ring_nf <;> norm_num at a2 a3 a4 <;> linarith
  generalize evR (envR x.val) i1nE = P at *
  generalize evR (envR x.val) i1dE = Q at *
  generalize evF (envF x) i1nE = p at *
  generalize evF (envF x) i1dE = q at *
  have hx15 : |x.val| ≤ 15 := hx.le
  generalize besselIR 1 x.val = I at *
  have hq := hd.bounds
  have hp := hn.bounds
  have hpp := hn.val_pos (by norm_num)
  have hq0 : 0.4 ≤ q.val := by norm_num at hq hQ ⊢; linarith [hq.1, hQ.1]
  have hqp : 0 < q.val := by linarith
  obtain ⟨-, m1, -⟩ := mul_spec hf hn.fin
  set w : ℝ := 1 / 2 ^ 1075 with hw
  have hw0 : 0 < w := by rw [hw]; positivity
  have hw1 : w ≤ 1 := by rw [hw, div_le_one (by positivity)]; exact one_le_pow₀ (by norm_num)
  have hww : 4 * w ≤ 1 / 2 ^ 1072 := by
    rw [hw, show (1:ℝ) / 2 ^ 1072 = 8 * (1 / 2 ^ 1075) by rw [show (2:ℝ) ^ 1075 = 2 ^ 1072 * 8 by rw [show (8:ℝ) = 2 ^ 3 by norm_num, ← pow_add]]; field_simp]
    have : (0:ℝ) < 1 / 2 ^ 1075 := by positivity
    linarith
  refine And.imp_right (fun h => le_trans h (add_le_add_right hww (3.2e-14 * |I|))) ?_
  have hrn : ∀ y : ℝ, |y| < HUGE → |RN y - y| ≤ |y| / 2 ^ 53 + w := fun y hy => hw ▸ RN_err' hy
  clear_value w
  clear hww
  have hH : (10:ℝ) ^ 200 ≤ HUGE := HUGE_ge
  have a1 : |x.val * p.val| ≤ 15 * 2 ^ 40 := by
    rw [abs_mul, abs_of_pos hpp]; gcongr
  have r1 : |RN (x.val * p.val) - x.val * p.val| ≤ |x.val * p.val| / 2 ^ 53 + w := hrn _ (lt_of_le_of_lt a1 (lt_of_lt_of_le (by norm_num) hH))
  have f1 : (x * p).isFin = true := by
    rw [isFin_iff_val, m1]
    have := abs_sub_abs_le_abs_sub (RN (x.val * p.val)) (x.val * p.val)
    refine lt_of_lt_of_le ?_ hH
    norm_num at *
    linarith
  obtain ⟨-, d1, -⟩ := div_spec f1 hd.fin hqp.ne'
  rw [m1] at d1
  generalize hA : RN (x.val * p.val) = A at *
  set G := x.val * p.val / q.val with hG
  have eA : x.val * p.val = G * q.val := by rw [hG]; field_simp
  have b1 : |A / q.val - G| ≤ |G| / 2 ^ 53 + 2.5 * w := by
    have : A / q.val - G = (A - x.val * p.val) / q.val := by rw [hG]; ring
    rw [this, abs_div, abs_of_pos hqp, div_le_iff₀ hqp]
    refine r1.trans ?_
    rw [eA, abs_mul, abs_of_pos hqp]
    have : w ≤ 2.5 * w * q.val := by norm_num at hq0 ⊢; nlinarith
    have e3 : (|G| / 2 ^ 53 + 2.5 * w) * q.val = |G| * q.val / 2 ^ 53 + 2.5 * w * q.val := by ring
    rw [e3]; linarith
  have hGb : |G| ≤ 2.5 * (15 * 2 ^ 40) := by
    rw [hG, abs_div, abs_of_pos hqp, div_le_iff₀ hqp]
    norm_num at *; nlinarith
  have b2 : |A / q.val| ≤ |G| + (|G| / 2 ^ 53 + 2.5 * w) := by
    have := abs_sub_abs_le_abs_sub (A / q.val) G
    linarith
  have r2 : |RN (A / q.val) - A / q.val| ≤ |A / q.val| / 2 ^ 53 + w := hrn _ (lt_of_le_of_lt b2 (lt_of_lt_of_le (by norm_num at *; linarith) hH))
  have v1 : |RN (A / q.val) - G| ≤ 3 * |G| / 2 ^ 53 + 3.6 * w := by
    refine (abs_sub_le _ (A / q.val) _).trans ?_
    have : |A / q.val| / 2 ^ 53 ≤ (|G| + (|G| / 2 ^ 53 + 2.5 * w)) / 2 ^ 53 := by gcongr
    norm_num at *
    linarith [abs_nonneg G]
  -- G against T
  set T := x.val * P / Q with hT
  have hQp : 0 < Q := hd.pos
  have g1 : |G - T| ≤ 2.01e-14 * |T| := by
    have hne := hqp.ne'
    have hne2 := hQp.ne'
    have hne3 := hn.pos.ne'
    have e : G - T = T * ((p.val * Q - P * q.val) / (P * q.val)) := by
      rw [hG, hT]; field_simp
    rw [e, abs_mul, mul_comm]
    refine mul_le_mul_of_nonneg_right ?_ (abs_nonneg T)
    have hPq : 0 < P * q.val := mul_pos hn.pos hqp
    rw [abs_div, abs_of_pos hPq, div_le_iff₀ hPq]
    have e4 : p.val * Q - P * q.val = (p.val - P) * Q - P * (q.val - Q) := by ring
    rw [e4]
    have k1 : |(p.val - P) * Q| ≤ 1e-14 * P * Q := by
      rw [abs_mul, abs_of_pos hQp]
      have := hn.err
      norm_num at this ⊢
      gcongr
    have k2 : |P * (q.val - Q)| ≤ P * (1e-14 * Q) := by
      rw [abs_mul, abs_of_pos hn.pos]
      have := hd.err
      have h0 := hn.pos.le
      norm_num at this ⊢
      gcongr
    have k3 : 0.999999 * Q ≤ q.val := by norm_num at hq ⊢; linarith [hq.1]
    have k4 : P * (0.999999 * Q) ≤ P * q.val := mul_le_mul_of_nonneg_left k3 hn.pos.le
    refine (abs_sub _ _).trans ?_
    have hPQ : 0 < P * Q := mul_pos hn.pos hQp
    norm_num at k1 k2 k4 ⊢
    linarith
  have hTI : |T| ≤ 1.0001 * |I| := by
    have h5 := abs_sub_abs_le_abs_sub T I
    have h7 : 1.01e-14 * |I| ≤ 0.0001 * |I| := mul_le_mul_of_nonneg_right (by norm_num) (abs_nonneg _)
    norm_num at h2 h7 ⊢
    linarith
  have hGI : |G| ≤ 1.001 * |I| := by
    have h5 := abs_sub_abs_le_abs_sub G T
    have h7 := abs_nonneg I
    norm_num only at hTI g1 ⊢
    linarith
  have fin : |RN (A / q.val) - I| ≤ 3.2e-14 * |I| + 4 * w := by
    have h6 : |RN (A / q.val) - I| ≤ |RN (A / q.val) - G| + (|G - T| + |T - I|) := by
      have := abs_sub_le (RN (A / q.val)) G I
      have := abs_sub_le G T I
      linarith
    have h7 := abs_nonneg I
    norm_num only at hTI hGI g1 v1 h2 ⊢
    linarith
  refine ⟨?_, by rw [d1]; exact fin⟩
  rw [isFin_iff_val, d1]
  refine lt_of_lt_of_le ?_ hH
  have := abs_sub_abs_le_abs_sub (RN (A / q.val)) (A / q.val)
  norm_num at *
  linarith

end BesX
end Verif
