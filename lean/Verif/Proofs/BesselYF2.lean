import Verif.Proofs.BesselYF
import Verif.Proofs.Ab

/-! Accuracy of `y0`, `y1` in binary64: very large arguments, and `0 < x < 8`. -/

namespace Verif
section Bound
open F64 OIv
set_option linter.unusedSectionVars false
variable [Cfg] [Libm F64]

def aspYO (Y : OIv) (pn pd qn qd : List F64) : OIv :=
  mk2 (-1.0) 1.0 * hornerO (Y * Y) pn / hornerO (Y * Y) pd + Y * mk2 (-1.0) 1.0 * hornerO (Y * Y) qn / hornerO (Y * Y) qd

theorem aspY_bound (L : LibmSpec) {ax fac : F64} (hf : ax.isFin = true) (h8 : 8 ≤ ax.val) (hfac : (ax - fac * PIO4).isFin = true) (pn pd qn qd : List F64)
    (hO : cover (fun a b => (mk2 0.0 0.5 * aspYO (mk2 a b) pn pd qn qd).inside (-1.0) 1.0) (0.0 :: cellsA) = true) :
    let r := asp ax pn pd qn qd fac
    let v := F64.sqrt (TWOOPI / ax) * (Libm.sin r.xx * r.nump / r.denp + r.z * Libm.cos r.xx * r.numq / r.denq)
    v.isFin = true ∧ |v.val| ≤ 1 := by
  intro r v
  have e8 : (8.0 : F64).val = ((8:ℤ):ℝ) := val_of_int 8 (by decide +kernel)
  have hax : Encl (mk2 8.0 1.7976931348623157e308) ax := OIv.rel_mk2 (by rw [e8]; exact_mod_cast h8) (fin_le_max hf)
  have l8 : Encl (8.0 : OIv) (8.0 : F64) := OIv.rel_lit _ _ _
  have hz := OIv.rel_inside (OIv.rel_div l8 hax) (l := 0.0) (h := 1.0) (by decide +kernel)
  obtain ⟨lo, hi, h1, h2, h3⟩ := cover_two (x := 8.0 / ax) hO hz.2.1 hz.2.2
  have hzE : Encl (mk2 lo hi) (8.0 / ax : F64) := OIv.rel_mk2 h2 h3
  have hq := OIv.rel_inside (OIv.rel_div (OIv.rel_pt (TWOOPI : F64)) hax) (l := F64.ofBits 1) (h := 0.25) (by decide +kernel)
  have q0 : 0 < (TWOOPI / ax : F64).val := by
    have := (lt_iff.1 (by decide +kernel : F64.lt 0.0 (F64.ofBits 1) = true)).2.2
    rw [Verif.zero_val] at this
    linarith [hq.2.1]
  obtain ⟨-, sv, -⟩ := sqrt_spec hq.1 q0
  have e25 : (0.25 : F64).val = 1/4 := by
    have := val_of_sv (x := (0.25 : F64)) 1 4 (by norm_num) (by decide +kernel)
    rw [this]; norm_num
  have hs : Encl (mk2 0.0 0.5) (F64.sqrt (TWOOPI / ax : F64)) := by
    refine OIv.rel_mk2 ?_ ?_
    · rw [sv, Verif.zero_val]; exact RN_nonneg (Real.sqrt_nonneg _)
    · have eh : RN ((0.5 : F64).val) = (0.5 : F64).val := RN_val (by decide +kernel)
      rw [sv, ← eh]
      apply RN_mono
      rw [half_val]
      have := hq.2.2
      rw [e25] at this
      exact (Real.sqrt_le_left (by norm_num)).2 (by linarith)
  have em1 : (-1.0 : F64).val = -1 := by rw [show (-1.0 : F64) = -(1.0) from rfl, val_neg, Verif.one_val]
  have hcE : Encl (mk2 (-1.0) 1.0) (Libm.cos r.xx) := by
    have := abs_le.1 (L.cos_num _ hfac).2
    exact OIv.rel_mk2 (by rw [em1]; exact this.1) (by rw [Verif.one_val]; exact this.2)
  have hsE : Encl (mk2 (-1.0) 1.0) (Libm.sin r.xx) := by
    have := abs_le.1 (L.sin_num _ hfac).2
    exact OIv.rel_mk2 (by rw [em1]; exact this.1) (by rw [Verif.one_val]; exact this.2)
  have hy := OIv.rel_mul hzE hzE
  have := OIv.rel_inside (OIv.rel_mul hs (OIv.rel_add (OIv.rel_div (OIv.rel_mul hsE (rel_hornerL hy pn)) (rel_hornerL hy pd))
    (OIv.rel_div (OIv.rel_mul (OIv.rel_mul hzE hcE) (rel_hornerL hy qn)) (rel_hornerL hy qd)))) h1
  refine ⟨this.1, ?_⟩
  rw [em1, Verif.one_val] at this
  exact abs_le.2 ⟨this.2.1, this.2.2⟩

theorem aspY0_ok : cover (fun a b => (mk2 0.0 0.5 * aspYO (mk2 a b) Y0PN Y0PD Y0QN Y0QD).inside (-1.0) 1.0) (0.0 :: cellsA) = true := by
  decide +kernel
theorem aspY1_ok : cover (fun a b => (mk2 0.0 0.5 * aspYO (mk2 a b) Y1PN Y1PD Y1QN Y1QD).inside (-1.0) 1.0) (0.0 :: cellsA) = true := by
  decide +kernel

theorem y0_bound (L : LibmSpec) {x : F64} (hf : x.isFin = true) (h8 : 8 ≤ x.val) : (y0 x).isFin = true ∧ |(y0 x).val| ≤ 1 := by
  have := aspY_bound L hf h8 (xx_fin (fac := 1.0) hf h8 (by decide +kernel)) Y0PN Y0PD Y0QN Y0QD aspY0_ok
  unfold y0
  rw [if_neg (by rw [BesX.y_right_ge h8]; simp)]
  exact this

theorem y1_bound (L : LibmSpec) {x : F64} (hf : x.isFin = true) (h8 : 8 ≤ x.val) : (y1 x).isFin = true ∧ |(y1 x).val| ≤ 1 := by
  have := aspY_bound L hf h8 (xx_fin (fac := 3.0) hf h8 (by decide +kernel)) Y1PN Y1PD Y1QN Y1QD aspY1_ok
  unfold y1
  rw [if_neg (by rw [BesX.y_right_ge h8]; simp)]
  exact this
end Bound

namespace BesX
open FlErr F64
open Real (pi sin cos)
variable [Libm F64]

theorem y0_acc_right [Cfg] (L : LibmTrig) {x : F64} (hx : 8 ≤ x.val) (hf : x.isFin = true) :
    (y0 x).isFin = true ∧ |(y0 x).val - besselYR 0 x.val| ≤ (1.31e-12 + x.val / 2 ^ 53) / √x.val := by
  rcases le_total x.val (2 ^ 900) with h | h
  · exact y0_acc_mid L hx h hf
  · have := y0_bound L.toLibmSpec hf hx
    exact ⟨this.1, j_far this.2 (Y_le_one hx).1 h⟩

theorem y1_acc_right [Cfg] (L : LibmTrig) {x : F64} (hx : 8 ≤ x.val) (hf : x.isFin = true) :
    (y1 x).isFin = true ∧ |(y1 x).val - besselYR 1 x.val| ≤ (1.31e-12 + x.val / 2 ^ 53) / √x.val := by
  rcases le_total x.val (2 ^ 900) with h | h
  · exact y1_acc_mid L hx h hf
  · have := y1_bound L.toLibmSpec hf hx
    exact ⟨this.1, j_far this.2 (Y_le_one hx).2 h⟩

/-! ## `0 < x < 8` -/

def y0lE : Ex := .div (hornE (.sub (.lit 640 1) (.var 0)) Y0Rx) (hornE (.var 0) Y0Sx)
def y1lE : Ex := .div (.mul (.var 1) (hornE (.sub (.lit 640 1) (.var 0)) Y1Rx)) (hornE (.var 0) Y1Sx)

def crY (r : B) : Bool := absC (2 ^ 160 * 13 / 10 ^ 15) r && bdC (2 ^ 161) r
set_option maxRecDepth 100000
set_option linter.unusedSectionVars false
theorem y0l_pc : pieces (sqB y0lE) crY (2 ^ 158) 32 0 = true := by decide +kernel
theorem y1l_pc : pieces (sqB y1lE) crY (2 ^ 158) 32 0 = true := by decide +kernel

omit [Libm F64] in
theorem crY_sound (E : Ex) {x : F64} (hf : x.isFin = true) (h : pieces (sqB E) crY (2 ^ 158) 32 0 = true) (h0 : 0 < x.val) (h8 : x.val < 8) :
    Ab (evF (envF x) E) (evR (envR x.val) E) 1.301e-14 ∧ |evR (envR x.val) E| ≤ 2 := by
  obtain ⟨r, hr, hc⟩ := pieces_sound (f := fun x => evF (envF x) E) (g := fun x => evR (envR x) E) (fun h1 h2 => sqB_sound E h1 h2) hf 32 0 (by norm_num) h
    (by simpa using h0.le) (by unfold FlErr.U; norm_num; linarith)
  simp only [crY, Bool.and_eq_true] at hc
  have a := absC_sound hr hc.1
  have b := (bdC_sound hr hc.2).1
  refine ⟨⟨a.1, a.2.trans ?_⟩, b.trans ?_⟩ <;> unfold FlErr.U <;> norm_num

omit [Libm F64] in
theorem y_left_lt {x : F64} (hf : x.isFin = true) (hx : x.val < 8) : (x <ᶠ (8.0 : F64)) = true := by
  show F64.lt x 8.0 = true
  rw [lt_iff]
  refine ⟨isFin_notNaN hf, by decide +kernel, ?_⟩
  rw [val_of_int (x := (8.0 : F64)) 8 (by decide +kernel)]
  exact_mod_cast hx

theorem y0_left_F {x : F64} (hf : x.isFin = true) (hx : x.val < 8) : y0 x = evF (envF x) y0lE + TWOOPI * j0 x * Libm.ln x := by
  unfold y0
  simp only [y_left_lt hf hx, if_true, rat]
  unfold y0lE
  simp only [evF, hornE_F' (Y0Rx_F (envF x)) (by decide), hornE_F' (Y0Sx_F (envF x)) (by decide), envF]
  norm_num

theorem y1_left_F {x : F64} (hf : x.isFin = true) (hx : x.val < 8) : y1 x = evF (envF x) y1lE + TWOOPI * (j1 x * Libm.ln x - 1.0 / x) := by
  unfold y1
  simp only [y_left_lt hf hx, if_true, rat]
  unfold y1lE
  simp only [evF, hornE_F' (Y1Rx_F (envF x)) (by decide), hornE_F' (Y1Sx_F (envF x)) (by decide), envF]
  norm_num

omit [Libm F64] in
theorem y0l_R {x : ℝ} (h0 : 0 < x) (h8 : x < 8) : |evR (envR x) y0lE - 1 / Real.pi * Bes.Wn 0 (-(x ^ 2 / 4))| ≤ 1.03e-15 := by
  refine le_trans (le_of_eq ?_) (Bes.y0_rat h0 h8)
  congr 2
  have h : (x <ᶠ (8.0:ℝ)) = true := by
    show decide (x < (8.0:ℝ)) = true
    rw [decide_eq_true_eq]; norm_num; exact h8
  have e := Bes.y0_left_eq h8
  unfold y0 at e
  simp only [h, if_true, rat] at e
  unfold y0lE
  simp only [evR, hornE_R' (Y0Rx_R (envR x)) (by decide), hornE_R' (Y0Sx_R (envR x)) (by decide), envR]
  have e' := add_right_cancel e
  rw [← e']
  norm_num

omit [Libm F64] in
theorem y1l_R {x : ℝ} (h0 : 0 < x) (h8 : x < 8) : |evR (envR x) y1lE - x * (1 / (2 * Real.pi) * Bes.Wn 1 (-(x ^ 2 / 4)))| ≤ x * 5.3e-16 := by
  have h : (x <ᶠ (8.0:ℝ)) = true := by
    show decide (x < (8.0:ℝ)) = true
    rw [decide_eq_true_eq]; norm_num; exact h8
  have e := Bes.y1_left_eq h8
  unfold y1 at e
  simp only [h, if_true, rat] at e
  have e' : evR (envR x) y1lE = x * ((ZPoly.ev Bes.y1N (x ^ 2) / 10 ^ 30) / (ZPoly.ev Bes.Y1Sz (x ^ 2) / 10 ^ 32)) := by
    rw [show (1.0:ℝ) = 1 by norm_num] at e
    have e2 := add_right_cancel e
    rw [← e2]
    unfold y1lE
    simp only [evR, hornE_R' (Y1Rx_R (envR x)) (by decide), hornE_R' (Y1Sx_R (envR x)) (by decide), envR]
    norm_num
  rw [e', ← mul_sub, abs_mul, abs_of_pos h0]
  exact mul_le_mul_of_nonneg_left (Bes.y1_rat h0 h8) h0.le

omit [Libm F64] in
/-- positive doubles are at least `2^-1074` -/
theorem pos_min {x : F64} (h0 : 0 < x.val) : (1:ℝ) / 2 ^ 1074 ≤ x.val := by
  have hf := val_pos_form (neg_of_val_pos h0)
  rw [hf] at h0 ⊢
  apply div_le_div_of_nonneg_right _ (by positivity)
  have h3 : 0 < (iv x.mag : ℝ) := by
    by_contra hc
    exact absurd h0 (not_lt.2 (div_nonpos_of_nonpos_of_nonneg (not_lt.1 hc) (by positivity)))
  have h4 : 0 < iv x.mag := by exact_mod_cast h3
  exact_mod_cast h4

theorem lnY (L : LibmUlp) {x : F64} (h0 : 0 < x.val) (h8 : x.val < 8) :
    Ab (Libm.ln x) (Real.log x.val) (2.3e-16 * (1 + |Real.log x.val|)) ∧ |Real.log x.val| ≤ 998 := by
  have hf : x.isFin = true := fin_of_abs (c := 9) (by norm_num) (by rw [abs_of_pos h0]; linarith)
  have h2 := L.ln_ulp x hf h0
  have h3 : |Real.log x.val| ≤ 998 := by
    have h4 := Real.log_two_lt_d9
    have lo := Real.log_le_log (by positivity) (pos_min h0)
    rw [Real.log_div (by norm_num) (by positivity), Real.log_one, Real.log_pow] at lo
    have hi := Real.log_le_sub_one_of_pos h0
    rw [abs_le]
    norm_num at lo h4 ⊢
    constructor <;> linarith
  have w : (1:ℝ) / 2 ^ 1074 ≤ 1 / 2 ^ 60 := one_div_le_one_div_of_le (by positivity) (pow_le_pow_right₀ (by norm_num) (by norm_num))
  have e : |(Libm.ln x).val - Real.log x.val| ≤ 2.3e-16 * (1 + |Real.log x.val|) := by
    have a0 := abs_nonneg (Real.log x.val)
    generalize (1:ℝ) / 2 ^ 1074 = w' at *
    refine h2.trans ?_
    norm_num at w ⊢
    linarith
  refine ⟨⟨fin_of_abs (c := 1010) (by norm_num) ?_, e⟩, h3⟩
  have h5 := abs_sub_abs_le_abs_sub (Libm.ln x).val (Real.log x.val)
  linarith

omit [Libm F64] in
theorem twoopi_ab : Ab (TWOOPI : F64) (2 / Real.pi) 1e-16 := by
  have h := twoopi_rel
  refine ⟨h.fin, h.err.trans ?_⟩
  have := Bes.twopi_le
  norm_num at this ⊢
  linarith

omit [Libm F64] in
theorem cap1 {M : ℝ} (h1 : 1 / 2 ≤ M) (h2 : M ≤ 10 ^ 6) : Cap M := cap_of (le_trans (by norm_num) h1) (h2.trans (pow_le_pow_right₀ (by norm_num) (by norm_num)))

theorem y0_acc_left (L : LibmUlp) {x : F64} (h0 : 0 < x.val) (h8 : x.val < 8) :
    (y0 x).isFin = true ∧ |(y0 x).val - besselYR 0 x.val| ≤ 2.9e-14 + 1.45e-14 * |Real.log x.val| := by
  have hf : x.isFin = true := fin_of_abs (c := 9) (by norm_num) (by rw [abs_of_pos h0]; linarith)
  have hj := j0_acc_left (x := x) (by rw [abs_of_pos h0]; exact h8)
  have J1 := (J_le_one x.val).1
  obtain ⟨hl, hl1⟩ := lnY L h0 h8
  obtain ⟨hr, hr1⟩ := crY_sound y0lE hf y0l_pc h0 h8
  have hR := y0l_R h0 h8
  have sp := Bes.Y0_split h0
  have gc := Bes.qg_close
  have tp := Bes.twopi_le
  have tp0 : 0 < 2 / Real.pi := by positivity
  set l := |Real.log x.val| with hl'
  have l0 : 0 ≤ l := abs_nonneg _
  have A := (ab_mul twoopi_ab (⟨hj.1, hj.2⟩ : Ab (j0 x) (besselJR 0 x.val) 2.01e-14) (P := 0.637) (Q := 1) (M := 1) (by rw [abs_of_pos tp0]; exact tp) J1
    (by norm_num) (cap1 (by norm_num) (by norm_num))).mono (d := 1.33e-14) (by norm_num)
  have A1 : |2 / Real.pi * besselJR 0 x.val| ≤ 0.637 := by
    rw [abs_mul, abs_of_pos tp0]
    calc 2 / Real.pi * |besselJR 0 x.val| ≤ 0.637 * 1 := by gcongr
      _ = _ := by norm_num
  have B := (ab_mul A hl (P := 0.637) (Q := 1 + l) (M := 1 + l) A1 (by linarith) (by nlinarith) (cap1 (by linarith) (by linarith))).mono (d := 1.38e-14 * (1 + l))
    (by norm_num at *; nlinarith)
  have B1 : |2 / Real.pi * besselJR 0 x.val * Real.log x.val| ≤ 0.637 * l := by
    rw [abs_mul]; gcongr
  have S := ab_add hr B (M := 3 * (1 + l)) (by
    have := abs_add_le (evR (envR x.val) y0lE) (2 / Real.pi * besselJR 0 x.val * Real.log x.val)
    norm_num at *; linarith) (cap1 (by linarith) (by linarith))
  rw [← y0_left_F hf h8] at S
  refine ⟨S.fin, ?_⟩
  have g1 : |2 / Real.pi * ((Real.eulerMascheroniConstant - Real.log 2 - Bes.qg) * besselJR 0 x.val)| ≤ 0.637 * (3e-17 * 1) := by
    rw [abs_mul, abs_mul, abs_of_pos tp0]; gcongr
  have e : (y0 x).val - besselYR 0 x.val = ((y0 x).val - (evR (envR x.val) y0lE + 2 / Real.pi * besselJR 0 x.val * Real.log x.val)) +
      (evR (envR x.val) y0lE - 1 / Real.pi * Bes.Wn 0 (-(x.val ^ 2 / 4))) - 2 / Real.pi * ((Real.eulerMascheroniConstant - Real.log 2 - Bes.qg) * besselJR 0 x.val) := by
    rw [sp]; ring
  rw [e]
  have t1 := abs_sub (((y0 x).val - (evR (envR x.val) y0lE + 2 / Real.pi * besselJR 0 x.val * Real.log x.val)) +
      (evR (envR x.val) y0lE - 1 / Real.pi * Bes.Wn 0 (-(x.val ^ 2 / 4)))) (2 / Real.pi * ((Real.eulerMascheroniConstant - Real.log 2 - Bes.qg) * besselJR 0 x.val))
  have t2 := abs_add_le ((y0 x).val - (evR (envR x.val) y0lE + 2 / Real.pi * besselJR 0 x.val * Real.log x.val))
      (evR (envR x.val) y0lE - 1 / Real.pi * Bes.Wn 0 (-(x.val ^ 2 / 4)))
  have S2 := S.err
  have k : 3 * (1 + l) / 2 ^ 52 ≤ 6.7e-16 * (1 + l) := by norm_num; linarith
  linarith

theorem y1_acc_left (L : LibmUlp) {x : F64} (h0 : 10 ^ (-300 : ℤ) ≤ x.val) (h8 : x.val < 8) :
    (y1 x).isFin = true ∧ |(y1 x).val - besselYR 1 x.val| ≤ 3.6e-14 + 1.45e-14 * |Real.log x.val| + 7e-16 / x.val := by
  have hx0 : 0 < x.val := lt_of_lt_of_le (by positivity) h0
  have hf : x.isFin = true := fin_of_abs (c := 9) (by norm_num) (by rw [abs_of_pos hx0]; linarith)
  have hj := j1_acc_left (x := x) (by rw [abs_of_pos hx0]; exact h8)
  have J1 := (J_le_one x.val).2
  obtain ⟨hl, hl1⟩ := lnY L hx0 h8
  obtain ⟨hr, hr1⟩ := crY_sound y1lE hf y1l_pc hx0 h8
  have hR := y1l_R hx0 h8
  have sp := Bes.Y1_split hx0
  have gc := Bes.qg_close
  have tp := Bes.twopi_le
  have tp0 : 0 < 2 / Real.pi := by positivity
  set l := |Real.log x.val| with hl'
  have l0 : 0 ≤ l := abs_nonneg _
  set R := 1 / x.val with hR'
  have R0 : 1 / 8 ≤ R := by rw [hR']; exact one_div_le_one_div_of_le hx0 h8.le
  have R1 : R ≤ 10 ^ 300 := by
    rw [hR', div_le_iff₀ hx0]
    calc (1:ℝ) = 10 ^ 300 * 10 ^ (-300 : ℤ) := by rw [zpow_neg, zpow_ofNat, mul_inv_cancel₀ (by positivity)]
      _ ≤ _ := by gcongr
  have big : (10:ℝ) ^ 300 * 1000 ≤ 10 ^ 303 := by rw [show (1000:ℝ) = 10 ^ 3 by norm_num, ← pow_add]
  have one300 : (1:ℝ) ≤ 10 ^ 300 := one_le_pow₀ (by norm_num)
  have capR : ∀ M : ℝ, 1 / 16 ≤ M → M ≤ 10 * (1 + l + R) → Cap M := by
    intro M h1 h2
    refine cap_of (le_trans (by norm_num) h1) (h2.trans (le_trans ?_ (le_of_eq (show (10:ℝ) ^ 300 * 1000 = 10 ^ 303 by rw [show (1000:ℝ) = 10 ^ 3 by norm_num, ← pow_add]))))
    have : (10:ℝ) ^ 4 ≤ 10 ^ 300 := pow_le_pow_right₀ (by norm_num) (by norm_num)
    generalize (10:ℝ) ^ 300 = w at *
    norm_num at this
    linarith
  clear big
  have m := (ab_mul (⟨hj.1, hj.2⟩ : Ab (j1 x) (besselJR 1 x.val) 2.01e-14) hl (P := 1) (Q := 1 + l) (M := 2 * (1 + l)) J1 (by linarith)
    (by nlinarith) (cap1 (by linarith) (by linarith))).mono (d := 2.12e-14 * (1 + l)) (by norm_num at *; nlinarith)
  have m1 : |besselJR 1 x.val * Real.log x.val| ≤ l := by
    rw [abs_mul]; exact mul_le_of_le_one_left l0 J1
  have one : Ab (1.0 : F64) 1 0 := ab_int (by decide +kernel) (by exact_mod_cast val_of_int (x := (1.0 : F64)) 1 (by decide +kernel))
  have c := (ab_div one (ab_self hf) (M := R) hx0 (by linarith) (by simp [hR']) (capR R (by linarith) (by linarith))).mono (d := 2.3e-16 * R)
    (by simp only [zero_div, mul_zero, add_zero, abs_one]; norm_num; linarith)
  have c1 : |1 / x.val| = R := abs_of_pos (by linarith)
  have d := (ab_sub m c (M := 1.01 * (1 + l + R)) (by
    have := abs_sub (besselJR 1 x.val * Real.log x.val) (1 / x.val)
    rw [c1] at this; linarith) (capR _ (by linarith) (by linarith))).mono (d := 2.15e-14 * (1 + l) + 4.6e-16 * R) (by norm_num; linarith)
  have d1 : |besselJR 1 x.val * Real.log x.val - 1 / x.val| ≤ 1 + l + R := by
    have := abs_sub (besselJR 1 x.val * Real.log x.val) (1 / x.val)
    rw [c1] at this; linarith
  have p := (ab_mul twoopi_ab d (P := 0.637) (Q := 1 + l + R) (M := 0.64 * (1 + l + R)) (by rw [abs_of_pos tp0]; exact tp) d1 (by linarith)
    (capR _ (by linarith) (by linarith))).mono (d := 1.4e-14 * (1 + l) + 5.5e-16 * R) (by norm_num; linarith)
  have p1 : |2 / Real.pi * (besselJR 1 x.val * Real.log x.val - 1 / x.val)| ≤ 0.637 * (1 + l + R) := by
    rw [abs_mul, abs_of_pos tp0]; gcongr
  have S := ab_add hr p (M := 2.1 + 0.64 * (1 + l + R)) (by
    have := abs_add_le (evR (envR x.val) y1lE) (2 / Real.pi * (besselJR 1 x.val * Real.log x.val - 1 / x.val))
    linarith) (capR _ (by linarith) (by linarith))
  rw [← y1_left_F hf h8] at S
  refine ⟨S.fin, ?_⟩
  have g1 : |2 / Real.pi * ((Real.eulerMascheroniConstant - Real.log 2 - Bes.qg) * besselJR 1 x.val)| ≤ 0.637 * (3e-17 * 1) := by
    rw [abs_mul, abs_mul, abs_of_pos tp0]; gcongr
  have e : (y1 x).val - besselYR 1 x.val = ((y1 x).val - (evR (envR x.val) y1lE + 2 / Real.pi * (besselJR 1 x.val * Real.log x.val - 1 / x.val))) +
      (evR (envR x.val) y1lE - x.val * (1 / (2 * Real.pi) * Bes.Wn 1 (-(x.val ^ 2 / 4)))) - 2 / Real.pi * ((Real.eulerMascheroniConstant - Real.log 2 - Bes.qg) * besselJR 1 x.val) := by
    rw [sp]; ring
  rw [e]
  have t1 := abs_sub (((y1 x).val - (evR (envR x.val) y1lE + 2 / Real.pi * (besselJR 1 x.val * Real.log x.val - 1 / x.val))) +
      (evR (envR x.val) y1lE - x.val * (1 / (2 * Real.pi) * Bes.Wn 1 (-(x.val ^ 2 / 4))))) (2 / Real.pi * ((Real.eulerMascheroniConstant - Real.log 2 - Bes.qg) * besselJR 1 x.val))
  have t2 := abs_add_le ((y1 x).val - (evR (envR x.val) y1lE + 2 / Real.pi * (besselJR 1 x.val * Real.log x.val - 1 / x.val)))
      (evR (envR x.val) y1lE - x.val * (1 / (2 * Real.pi) * Bes.Wn 1 (-(x.val ^ 2 / 4))))
  have S2 := S.err
  have k : (2.1 + 0.64 * (1 + l + R)) / 2 ^ 52 ≤ 6.2e-16 + 1.5e-16 * (l + R) := by norm_num; linarith
  have kR : 7e-16 / x.val = 7e-16 * R := by rw [hR']; ring
  rw [kR]
  linarith

end BesX
end Verif
