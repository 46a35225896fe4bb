import Verif.Proofs.BesselY4
import Verif.Proofs.BesselF4
import Verif.Proofs.BesselKF3

/-! Accuracy of `y0`, `y1` in binary64 for `8 ≤ x`. -/

namespace Verif
namespace BesX
open FlErr F64
open Real (pi sin cos)

/-- the bracket of the asymptotic form -/
def brY (PN PD QN QD : List Ex) : Ex :=
  .add (.div (.mul (.var 2) (hornE yE PN)) (hornE yE PD)) (.div (.mul (.mul (.var 0) (.var 1)) (hornE yE QN)) (hornE yE QD))

set_option maxRecDepth 100000
theorem brY0_pc : piecesT (brY Y0PNx Y0PDx Y0QNx Y0QDx) crT (2 ^ 108) (2 ^ 155) 32 0 = true := by decide +kernel
theorem brY1_pc : piecesT (brY Y1PNx Y1PDx Y1QNx Y1QDx) crT (2 ^ 108) (2 ^ 155) 32 0 = true := by decide +kernel
theorem pY0_pc : piecesT (qE Y0PNx Y0PDx) (bdC (2 ^ 160 + 2 ^ 160 / 10)) (2 ^ 108) (2 ^ 155) 32 0 = true := by decide +kernel
theorem qY0_pc : piecesT (qE Y0QNx Y0QDx) (bdC (2 ^ 160 / 20)) (2 ^ 108) (2 ^ 155) 32 0 = true := by decide +kernel
theorem pY1_pc : piecesT (qE Y1PNx Y1PDx) (bdC (2 ^ 160 + 2 ^ 160 / 10)) (2 ^ 108) (2 ^ 155) 32 0 = true := by decide +kernel
theorem qY1_pc : piecesT (qE Y1QNx Y1QDx) (bdC (2 ^ 160 / 20)) (2 ^ 108) (2 ^ 155) 32 0 = true := by decide +kernel

variable [Libm F64]

theorem tr_branchY (L : LibmTrig) {a k : F64} {K : ℝ} {PN PD QN QD : List Ex} (hf : a.isFin = true) (h8 : 8 ≤ a.val) (h900 : a.val ≤ 2 ^ 900)
    (hk : k.isFin = true) (hk0 : 0 ≤ k.val) (hk3 : k.val ≤ 3) (hK : |k.val - K| ≤ 4e-16)
    {pn pd qn qd : List ℝ} (hPN : ∀ ρ, PN.map (evR ρ) = pn) (hPD : ∀ ρ, PD.map (evR ρ) = pd) (hQN : ∀ ρ, QN.map (evR ρ) = qn) (hQD : ∀ ρ, QD.map (evR ρ) = qd)
    (n1 : PN ≠ []) (n2 : PD ≠ []) (n3 : QN ≠ []) (n4 : QD ≠ [])
    (hb : piecesT (brY PN PD QN QD) crT (2 ^ 108) (2 ^ 155) 32 0 = true)
    (hp : piecesT (qE PN PD) (bdC (2 ^ 160 + 2 ^ 160 / 10)) (2 ^ 108) (2 ^ 155) 32 0 = true)
    (hq : piecesT (qE QN QD) (bdC (2 ^ 160 / 20)) (2 ^ 108) (2 ^ 155) 32 0 = true) :
    let v := F64.sqrt (TWOOPI / a) * evF (trF (8.0 / a) (Libm.cos (a - k)) (Libm.sin (a - k))) (brY PN PD QN QD)
    v.isFin = true ∧ |v.val - √(2 / Real.pi / a.val) * evR (trR (8 / a.val) (Real.cos (a.val - K)) (Real.sin (a.val - K))) (brY PN PD QN QD)| ≤
      (8e-15 + a.val / 2 ^ 53) / √a.val := by
  have h0 : 0 < a.val := by linarith
  have hH := HUGE_ge
  -- the argument
  have hs1 := (F64.sub_spec hf hk).2
  have hd0 : 0 ≤ a.val - k.val := by linarith
  have hdl : a.val - k.val ≤ a.val := by linarith
  have hHa : |a.val| < HUGE := isFin_iff_val.1 hf
  have hHd : |a.val - k.val| < HUGE := by rw [abs_of_nonneg hd0]; rw [abs_of_pos h0] at hHa; linarith
  have hxf : (a - k).isFin = true := by
    rw [isFin_iff_val, hs1]
    have h1 : RN (a.val - k.val) ≤ RN a.val := RN_mono hdl
    have h2 : 0 ≤ RN (a.val - k.val) := by have := RN_mono hd0; rwa [RN_zero] at this
    rw [abs_of_nonneg h2]
    rw [RN_val (isFin_notNaN hf)] at h1
    rw [abs_of_pos h0] at hHa; linarith
  have hxe : |(a - k).val - (a.val - K)| ≤ a.val / 2 ^ 53 + 4.1e-16 := by
    have r := RN_err' hHd
    rw [← hs1, abs_of_nonneg hd0] at r
    have m1 : (a.val - k.val) / 2 ^ 53 ≤ a.val / 2 ^ 53 := by gcongr
    have m2 : (1:ℝ) / 2 ^ 1075 ≤ 1 / 2 ^ 100 := one_div_le_one_div_of_le (by positivity) (pow_le_pow_right₀ (by norm_num) (by norm_num))
    have m3 : (1:ℝ) / 2 ^ 100 ≤ 1e-18 := by norm_num
    have e : (a - k).val - (a.val - K) = ((a - k).val - (a.val - k.val)) + (-(k.val - K)) := by ring
    rw [e]
    refine (abs_add_le _ _).trans ?_
    rw [abs_neg]
    have := add_le_add r hK
    refine this.trans ?_
    norm_num at m2 m3 ⊢
    linarith
  obtain ⟨hcn, hc1⟩ := L.cos_num _ hxf
  obtain ⟨hsn, hsl⟩ := L.sin_num _ hxf
  have hcu := L.cos_ulp _ hxf
  have hsu := L.sin_ulp _ hxf
  have hcf : (Libm.cos (a - k)).isFin = true := fin_of_abs (c := 2) (by norm_num) (by linarith)
  have hsf : (Libm.sin (a - k)).isFin = true := fin_of_abs (c := 2) (by norm_num) (by linarith)
  have ce : |(Libm.cos (a - k)).val - Real.cos (a.val - K)| ≤ a.val / 2 ^ 53 + 6.4e-16 := by
    have := abs_sub_le (Libm.cos (a - k)).val (Real.cos (a - k).val) (Real.cos (a.val - K))
    have h2 : |Real.cos (a - k).val - Real.cos (a.val - K)| ≤ |(a - k).val - (a.val - K)| := Real.abs_cos_sub_cos_le _ _
    norm_num at hcu hxe ⊢
    linarith
  have se : |(Libm.sin (a - k)).val - Real.sin (a.val - K)| ≤ a.val / 2 ^ 53 + 6.4e-16 := by
    have := abs_sub_le (Libm.sin (a - k)).val (Real.sin (a - k).val) (Real.sin (a.val - K))
    have h2 : |Real.sin (a - k).val - Real.sin (a.val - K)| ≤ |(a - k).val - (a.val - K)| := Real.abs_sin_sub_sin_le _ _
    norm_num at hsu hxe ⊢
    linarith
  generalize Libm.cos (a - k) = c at *
  generalize Libm.sin (a - k) = s at *
  generalize Real.cos (a.val - K) = C at *
  generalize Real.sin (a.val - K) = S at *
  obtain ⟨t1, t2, t3, t4⟩ := t8 hf h8
  have T0 : 0 ≤ 8 / a.val := by positivity
  have T1 : 8 / a.val ≤ 1 := by rw [div_le_one h0]; exact h8
  have hU8 : (8.0 / a : F64).val ≤ ((0 + (2 ^ 155 : ℕ) * (32 : ℕ) : ℤ) : ℝ) / FlErr.U := by unfold FlErr.U; norm_num; exact t4
  obtain ⟨r, hr, hc⟩ := piecesT_sound t1 t2 hcf hsf hc1 hsl 32 0 (by norm_num) hb (by simpa using t3) hU8
  simp only [crT, Bool.and_eq_true] at hc
  obtain ⟨bf, be⟩ := absC_sound hr hc.1
  obtain ⟨-, bv⟩ := bdC_sound hr hc.2
  obtain ⟨r', hr', hc'⟩ := piecesT_sound t1 t2 hcf hsf hc1 hsl 32 0 (by norm_num) hp (by simpa using t3) hU8
  obtain ⟨pb, -⟩ := bdC_sound hr' hc'
  obtain ⟨r'', hr'', hc''⟩ := piecesT_sound t1 t2 hcf hsf hc1 hsl 32 0 (by norm_num) hq (by simpa using t3) hU8
  obtain ⟨qb, -⟩ := bdC_sound hr'' hc''
  clear hr hr' hr'' hc hc' hc''
  -- linear in the trigonometric values
  have yR : ∀ x y, evR (trR (8 / a.val) x y) yE = 8 / a.val * (8 / a.val) := by intro x y; simp [yE, evR, trR]
  have br : ∀ x y, evR (trR (8 / a.val) x y) (brY PN PD QN QD) = y * (hornerL (8 / a.val * (8 / a.val)) pn / hornerL (8 / a.val * (8 / a.val)) pd) +
      8 / a.val * x * (hornerL (8 / a.val * (8 / a.val)) qn / hornerL (8 / a.val * (8 / a.val)) qd) := by
    intro x y
    unfold brY
    simp only [evR, hornE_R' (hPN _) n1, hornE_R' (hPD _) n2, hornE_R' (hQN _) n3, hornE_R' (hQD _) n4, yR]
    simp only [trR, if_true, one_ne_zero, if_false, OfNat.ofNat_ne_zero, OfNat.ofNat_ne_one]
    ring
  simp only [qE, evR, hornE_R' (hPN _) n1, hornE_R' (hPD _) n2, hornE_R' (hQN _) n3, hornE_R' (hQD _) n4, yR] at pb qb
  rw [br] at be ⊢
  generalize hornerL (8 / a.val * (8 / a.val)) pn / hornerL (8 / a.val * (8 / a.val)) pd = P at *
  generalize hornerL (8 / a.val * (8 / a.val)) qn / hornerL (8 / a.val * (8 / a.val)) qd = Q at *
  generalize evF (trF (8.0 / a) c s) (brY PN PD QN QD) = b at *
  generalize 8 / a.val = T at *
  have pb' : |P| ≤ 1.1 := pb.trans (by unfold FlErr.U; norm_num)
  have qb' : |Q| ≤ 0.05 := qb.trans (by unfold FlErr.U; norm_num)
  have be' : |b.val - (s.val * P + T * c.val * Q)| ≤ 5.01e-15 := be.trans (by unfold FlErr.U; norm_num)
  have bv' : |b.val| ≤ 2 := bv.trans (by unfold FlErr.U; norm_num)
  set d := a.val / 2 ^ 53 + 6.4e-16 with hd
  have d0 : 0 ≤ d := by rw [hd]; positivity
  have h1 : |(s.val * P + T * c.val * Q) - (S * P + T * C * Q)| ≤ 1.15 * d := by
    have e : (s.val * P + T * c.val * Q) - (S * P + T * C * Q) = (s.val - S) * P + T * ((c.val - C) * Q) := by ring
    rw [e]
    have k1 : |(s.val - S) * P| ≤ d * 1.1 := by rw [abs_mul]; exact mul_le_mul se pb' (abs_nonneg _) d0
    have k2 : |(c.val - C) * Q| ≤ d * 0.05 := by rw [abs_mul]; exact mul_le_mul ce qb' (abs_nonneg _) d0
    have k3 : |T * ((c.val - C) * Q)| ≤ 1 * (d * 0.05) := by
      rw [abs_mul, abs_of_nonneg T0]; exact mul_le_mul T1 k2 (abs_nonneg _) (by norm_num)
    refine (abs_add_le _ _).trans ?_
    norm_num at k1 k3 ⊢; linarith
  set W := S * P + T * C * Q with hW
  have hbW : |b.val - W| ≤ 1.15 * d + 5.01e-15 := by
    have := abs_sub_le b.val (s.val * P + T * c.val * Q) W
    linarith
  exact tr_final hf h8 h900 bf bv' hd hbW


omit [Libm F64] in
theorem y_right_ge {x : F64} (hx : 8 ≤ x.val) : (x <ᶠ (8.0 : F64)) = false := by
  rw [Bool.eq_false_iff]
  intro h
  have h : F64.lt x 8.0 = true := h
  rw [lt_iff] at h
  have h2 := h.2.2
  rw [val_of_int (x := (8.0 : F64)) 8 (by decide +kernel)] at h2
  push_cast at h2
  linarith

omit [Libm F64] in
theorem y_right_geR {x : ℝ} (hx : 8 ≤ x) : (x <ᶠ (8.0:ℝ)) = false := by
  show decide (x < (8.0:ℝ)) = false
  rw [decide_eq_false_iff_not]; norm_num; exact hx

theorem y0_acc_mid (L : LibmTrig) {x : F64} (hx : 8 ≤ x.val) (h900 : x.val ≤ 2 ^ 900) (hf : x.isFin = true) :
    (y0 x).isFin = true ∧ |(y0 x).val - besselYR 0 x.val| ≤ (1.31e-12 + x.val / 2 ^ 53) / √x.val := by
  obtain ⟨k1, k2, k3, k4⟩ := one_pio4
  have h := tr_branchY L (a := x) hf hx h900 k1 k2 k3 k4 Y0PNx_R Y0PDx_R Y0QNx_R Y0QDx_R (by decide) (by decide) (by decide) (by decide)
    brY0_pc pY0_pc qY0_pc
  have e1 : y0 x = F64.sqrt (TWOOPI / x) * evF (trF (8.0 / x) (Libm.cos (x - (1.0 : F64) * PIO4)) (Libm.sin (x - (1.0 : F64) * PIO4))) (brY Y0PNx Y0PDx Y0QNx Y0QDx) := by
    unfold y0 asp
    simp only [y_right_ge hx]
    rw [if_neg (by simp)]
    unfold brY yE
    simp only [evF, hornE_F' (Y0PNx_F _) (by decide : Y0PNx ≠ []), hornE_F' (Y0PDx_F _) (by decide : Y0PDx ≠ []), hornE_F' (Y0QNx_F _) (by decide : Y0QNx ≠ []), hornE_F' (Y0QDx_F _) (by decide : Y0QDx ≠ [])]
    rfl
  have e2 : y0 x.val = √(2 / Real.pi / x.val) * evR (trR (8 / x.val) (Real.cos (x.val - 1.0 * (Real.pi / 4))) (Real.sin (x.val - 1.0 * (Real.pi / 4)))) (brY Y0PNx Y0PDx Y0QNx Y0QDx) := by
    unfold y0 asp
    simp only [y_right_geR hx]
    rw [if_neg (by simp)]
    unfold brY yE
    simp only [evR, hornE_R' (Y0PNx_R _) (by decide : Y0PNx ≠ []), hornE_R' (Y0PDx_R _) (by decide : Y0PDx ≠ []), hornE_R' (Y0QNx_R _) (by decide : Y0QNx ≠ []), hornE_R' (Y0QDx_R _) (by decide : Y0QDx ≠ [])]
    rw [show (8.0:ℝ) = 8 by norm_num]
    rfl
  simp only at h
  rw [← e1, ← e2] at h
  refine ⟨h.1, (abs_sub_le _ (y0 x.val) _).trans ((add_le_add h.2 (Bes.y0_right hx)).trans ?_)⟩
  rw [← add_div]
  refine div_le_div_of_nonneg_right ?_ (Real.sqrt_nonneg _)
  norm_num; linarith

theorem y1_acc_mid (L : LibmTrig) {x : F64} (hx : 8 ≤ x.val) (h900 : x.val ≤ 2 ^ 900) (hf : x.isFin = true) :
    (y1 x).isFin = true ∧ |(y1 x).val - besselYR 1 x.val| ≤ (1.31e-12 + x.val / 2 ^ 53) / √x.val := by
  obtain ⟨k1, k2, k3, k4⟩ := three_pio4
  have h := tr_branchY L (a := x) hf hx h900 k1 k2 k3 k4 Y1PNx_R Y1PDx_R Y1QNx_R Y1QDx_R (by decide) (by decide) (by decide) (by decide)
    brY1_pc pY1_pc qY1_pc
  have e1 : y1 x = F64.sqrt (TWOOPI / x) * evF (trF (8.0 / x) (Libm.cos (x - (3.0 : F64) * PIO4)) (Libm.sin (x - (3.0 : F64) * PIO4))) (brY Y1PNx Y1PDx Y1QNx Y1QDx) := by
    unfold y1 asp
    simp only [y_right_ge hx]
    rw [if_neg (by simp)]
    unfold brY yE
    simp only [evF, hornE_F' (Y1PNx_F _) (by decide : Y1PNx ≠ []), hornE_F' (Y1PDx_F _) (by decide : Y1PDx ≠ []), hornE_F' (Y1QNx_F _) (by decide : Y1QNx ≠ []), hornE_F' (Y1QDx_F _) (by decide : Y1QDx ≠ [])]
    rfl
  have e2 : y1 x.val = √(2 / Real.pi / x.val) * evR (trR (8 / x.val) (Real.cos (x.val - 3.0 * (Real.pi / 4))) (Real.sin (x.val - 3.0 * (Real.pi / 4)))) (brY Y1PNx Y1PDx Y1QNx Y1QDx) := by
    unfold y1 asp
    simp only [y_right_geR hx]
    rw [if_neg (by simp)]
    unfold brY yE
    simp only [evR, hornE_R' (Y1PNx_R _) (by decide : Y1PNx ≠ []), hornE_R' (Y1PDx_R _) (by decide : Y1PDx ≠ []), hornE_R' (Y1QNx_R _) (by decide : Y1QNx ≠ []), hornE_R' (Y1QDx_R _) (by decide : Y1QDx ≠ [])]
    rw [show (8.0:ℝ) = 8 by norm_num]
    rfl
  simp only at h
  rw [← e1, ← e2] at h
  refine ⟨h.1, (abs_sub_le _ (y1 x.val) _).trans ((add_le_add h.2 (Bes.y1_right hx)).trans ?_)⟩
  rw [← add_div]
  refine div_le_div_of_nonneg_right ?_ (Real.sqrt_nonneg _)
  norm_num; linarith

omit [Libm F64] in
/-- `Y0² + Y1² ≤ 1` for `x ≥ 8` -/
theorem Y_le_one {x : ℝ} (hx : 8 ≤ x) : |besselYR 0 x| ≤ 1 ∧ |besselYR 1 x| ≤ 1 := by
  have hd : ∀ y, 0 < y → HasDerivAt (fun x => besselYR 0 x ^ 2 + besselYR 1 x ^ 2) (-(2 * besselYR 1 y ^ 2 / y)) y := by
    intro y hy
    refine (((Bes.Y0_deriv hy).pow 2).add ((Bes.Y1_deriv hy).pow 2)).congr_deriv ?_
    field_simp; norm_num; ring
  have anti : AntitoneOn (fun x => besselYR 0 x ^ 2 + besselYR 1 x ^ 2) (Set.Ici 8) := by
    refine antitoneOn_of_deriv_nonpos (convex_Ici 8) ?_ ?_ ?_
    · intro y hy
      have hy' : (8:ℝ) ≤ y := hy
      exact (hd y (by linarith)).continuousAt.continuousWithinAt
    · intro y hy
      rw [interior_Ici] at hy
      have hy' : (8:ℝ) < y := hy
      exact (hd y (by linarith)).differentiableAt.differentiableWithinAt
    · intro y hy
      rw [interior_Ici] at hy
      have hy' : (8:ℝ) < y := hy
      have hy0 : 0 < y := by linarith
      rw [(hd y hy0).deriv, neg_nonpos]
      positivity
  have h := anti (Set.mem_Ici.2 le_rfl) (Set.mem_Ici.2 hx) hx
  simp only at h
  have a := abs_le.1 Bes.Y0_8
  have b := abs_le.1 Bes.Y1_8
  have a2 : besselYR 0 8 ^ 2 ≤ 0.25 := by norm_num at a ⊢; nlinarith [a.1, a.2]
  have b2 : besselYR 1 8 ^ 2 ≤ 0.25 := by norm_num at b ⊢; nlinarith [b.1, b.2]
  constructor <;> apply abs_le_one_iff_mul_self_le_one.2 <;> nlinarith [sq_nonneg (besselYR 0 x), sq_nonneg (besselYR 1 x)]

end BesX

end Verif
