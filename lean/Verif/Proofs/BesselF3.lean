import Verif.Proofs.BesselF2
import Verif.Proofs.BesselIn

/-! Accuracy of `i0`, `i1` in binary64 away from the origin. -/

namespace Verif
namespace BesX
open FlErr F64

/-- as `pieces`, with an input error `e` -/
def piecesE (E : Ex) (crit : B → Bool) (e w : ℕ) : ℕ → ℤ → Bool
  | 0, _ => true
  | n + 1, a => (match bnd (fun _ => ⟨a, a + w, e⟩) E with
    | some r => crit r
    | none => false) && piecesE E crit e w n (a + w)

theorem piecesE_sound {E : Ex} {crit : B → Bool} {e w : ℕ} {x : F64} {X : ℝ} (hf : x.isFin = true) (he : |x.val - X| ≤ e / FlErr.U) :
    ∀ (n : ℕ) (a : ℤ), 0 < n → piecesE E crit e w n a = true → a / FlErr.U ≤ x.val → x.val ≤ ((a + w * n : ℤ) : ℝ) / FlErr.U →
      ∃ r, FlErr.In (evF (fun _ => x) E) (evR (fun _ => X) E) r ∧ crit r = true
  | 0, a, h0, h, h1, h2 => absurd h0 (by simp)
  | n + 1, a, h0, h, h1, h2 => by
    simp only [piecesE, Bool.and_eq_true] at h
    obtain ⟨h3, h4⟩ := h
    by_cases hx : x.val ≤ ((a + w : ℤ) : ℝ) / FlErr.U
    · split at h3
      · rename_i r hr
        refine ⟨r, bnd_sound (fun i => ⟨hf, h1, ?_, he⟩) E r hr, h3⟩
        push_cast at hx ⊢; exact hx
      · exact absurd h3 (by simp)
    · have hn : 0 < n := by
        rcases Nat.eq_zero_or_pos n with rfl | h
        · exfalso; apply hx; simpa using h2
        · exact h
      refine piecesE_sound hf he n (a + w) hn h4 (le_of_not_ge hx) (h2.trans (le_of_eq ?_))
      push_cast; ring

/-- the polynomials in `1.0 - 15.0/ax`; variable 0 is `15.0/ax` -/
def zE : Ex := .sub (.lit 10 1) (.var 0)

/-- relative error `1/K`, value between `2^-4` and `2` -/
def relC2 (K : ℕ) (r : B) : Bool := relC K r && decide (2 ^ 156 ≤ r.l) && decide (r.u ≤ 2 ^ 161)

theorem relC2_sound {a : F64} {A : ℝ} {K : ℕ} (hK : 0 < K) {r : B} (h : FlErr.In a A r) (hc : relC2 K r = true) :
    Rel a A (1 / K) ∧ 1 / 2 ^ 4 ≤ a.val ∧ a.val ≤ 2 := by
  simp only [relC2, Bool.and_eq_true, decide_eq_true_eq] at hc
  have hU := FlErr.U_pos
  refine ⟨(relC_sound hK h hc.1.1).1, le_trans ?_ h.lo, h.hi.trans ?_⟩
  · have : (2 ^ 156 : ℝ) ≤ r.l := by exact_mod_cast hc.1.2
    rw [le_div_iff₀ hU]; refine le_trans (le_of_eq ?_) this
    unfold FlErr.U; norm_num
  · have : (r.u : ℝ) ≤ 2 ^ 161 := by exact_mod_cast hc.2
    rw [div_le_iff₀ hU]; refine this.trans (le_of_eq ?_)
    unfold FlErr.U; norm_num

set_option maxRecDepth 100000
theorem i0pp_pc : piecesE (polyE zE I0PPx) (relC2 (10 ^ 14)) (2 ^ 108) (2 ^ 157) 8 0 = true := by decide +kernel
theorem i0qq_pc : piecesE (polyE zE I0QQx) (relC2 (10 ^ 14)) (2 ^ 108) (2 ^ 157) 8 0 = true := by decide +kernel
theorem i1pp_pc : piecesE (polyE zE I1PPx) (relC2 (10 ^ 14)) (2 ^ 108) (2 ^ 157) 8 0 = true := by decide +kernel
theorem i1qq_pc : piecesE (polyE zE I1QQx) (relC2 (10 ^ 14)) (2 ^ 108) (2 ^ 157) 8 0 = true := by decide +kernel


variable [Libm F64]

omit [Libm F64] in
/-- `15.0 / ax` -/
theorem t15 {a : F64} (h15 : 15 ≤ a.val) (h690 : a.val ≤ 690) :
    ((15.0 : F64) / a).isFin = true ∧ |((15.0 : F64) / a).val - 15 / a.val| ≤ (2 ^ 108 : ℕ) / FlErr.U ∧ 0 ≤ ((15.0 : F64) / a).val ∧ ((15.0 : F64) / a).val ≤ 1 := by
  have hf : a.isFin = true := fin_of_abs (c := 691) (by norm_num) (by rw [abs_of_pos (by linarith)]; linarith)
  have h0 : 0 < a.val := by linarith
  have e15 : (15.0 : F64).val = 15 := by exact_mod_cast val_of_int (x := (15.0 : F64)) 15 (by decide +kernel)
  obtain ⟨-, d, -⟩ := div_spec (a := (15.0 : F64)) (by decide +kernel) hf h0.ne'
  rw [e15] at d
  have q0 : 0 ≤ 15 / a.val := by positivity
  have q1 : 15 / a.val ≤ 1 := by rw [div_le_one h0]; exact h15
  have hH := HUGE_ge
  have r := RN_err' (x := 15 / a.val) (by rw [abs_of_nonneg q0]; exact lt_of_le_of_lt q1 (lt_of_lt_of_le (by norm_num) hH))
  rw [abs_of_nonneg q0] at r
  have m1 : 15 / a.val / 2 ^ 53 ≤ 1 / 2 ^ 53 := by gcongr
  have m2 : (1:ℝ) / 2 ^ 1075 ≤ 1 / 2 ^ 100 := one_div_le_one_div_of_le (by positivity) (pow_le_pow_right₀ (by norm_num) (by norm_num))
  have lo : 0 ≤ RN (15 / a.val) := by
    have := RN_mono q0
    rwa [RN_zero] at this
  have hi : RN (15 / a.val) ≤ 1 := by
    have := RN_mono q1
    rwa [RN_one] at this
  rw [isFin_iff_val, d]
  refine ⟨?_, ?_, lo, hi⟩
  · rw [abs_of_nonneg lo]; exact lt_of_le_of_lt hi (lt_of_lt_of_le (by norm_num) hH)
  · refine r.trans ((add_le_add m1 m2).trans ?_)
    unfold FlErr.U; norm_num

omit [Libm F64] in
theorem piecesE_rel {E : Ex} {t : F64} {T : ℝ} (hf : t.isFin = true) (he : |t.val - T| ≤ (2 ^ 108 : ℕ) / FlErr.U) (h0 : 0 ≤ t.val) (h1 : t.val ≤ 1)
    (h : piecesE E (relC2 (10 ^ 14)) (2 ^ 108) (2 ^ 157) 8 0 = true) :
    Rel (evF (fun _ => t) E) (evR (fun _ => T) E) (1 / 10 ^ 14) ∧ 1 / 2 ^ 4 ≤ (evF (fun _ => t) E).val ∧ (evF (fun _ => t) E).val ≤ 2 := by
  obtain ⟨r, hr, hc⟩ := piecesE_sound hf he 8 0 (by norm_num) h (by simpa using h0) (by unfold FlErr.U; norm_num; exact h1)
  have := relC2_sound (by norm_num) hr hc
  exact_mod_cast this

omit [Libm F64] in
theorem mid_of {y : ℝ} (h1 : 1 / 2 ^ 20 ≤ y) (h2 : y ≤ 2 ^ 1000) : Mid y :=
  ⟨le_trans (one_div_le_one_div_of_le (by positivity) (pow_le_pow_right₀ (by norm_num) (by norm_num))) h1,
    h2⟩

omit [Libm F64] in
theorem exp690 {X : ℝ} (h : X ≤ 690) : Real.exp X ≤ 2 ^ 996 := by
  rw [← Real.le_log_iff_exp_le (by positivity), Real.log_pow]
  have := Real.log_two_gt_d9
  norm_num at this ⊢
  linarith

omit [Libm F64] in
/-- the exponential branch -/
theorem i_branch' {ey a p q : F64} {E P Q : ℝ} (he : Rel ey E (1 / 2 ^ 51)) (e1 : 1 / 2 ^ 982 ≤ E) (e2 : E ≤ 2 ^ 996) (h15 : 15 ≤ a.val) (h690 : a.val ≤ 690)
    (hp : Rel p P (1 / 10 ^ 14)) (hp1 : 1 / 2 ^ 4 ≤ p.val ∧ p.val ≤ 2) (hq : Rel q Q (1 / 10 ^ 14)) (hq1 : 1 / 2 ^ 4 ≤ q.val ∧ q.val ≤ 2) :
    Rel (ey * p / (F64.sqrt a * q)) (E * P / (√a.val * Q)) 2.2e-14 ∧ P ≤ 3 ∧ 3.8 * 0.0624 ≤ √a.val * Q := by
  have h0 : 0 < a.val := by linarith
  have hf : a.isFin = true := fin_of_abs (c := 691) (by norm_num) (by rw [abs_of_pos h0]; linarith)
  have hs1 : 3.8 ≤ √a.val := Real.le_sqrt_of_sq_le (by norm_num; linarith)
  have hs2 : √a.val ≤ 27 := Real.sqrt_le_iff.mpr ⟨by norm_num, by linarith⟩
  have bp := hp.bounds
  have bq := hq.bounds
  have P1 : 0.0624 ≤ P := by norm_num at bp hp1 ⊢; linarith [bp.2, hp1.1]
  have P2 : P ≤ 3 := by norm_num at bp hp1 ⊢; linarith [bp.1, hp1.2]
  have Q1 : 0.0624 ≤ Q := by norm_num at bq hq1 ⊢; linarith [bq.2, hq1.1]
  have Q2 : Q ≤ 3 := by norm_num at bq hq1 ⊢; linarith [bq.1, hq1.2]
  have hE := he.pos
  have lowM : ∀ y : ℝ, 1 / 2 ^ 982 * (1 / 2 ^ 12) ≤ y → 1 / 2 ^ 1000 ≤ y := by
    intro y h
    refine le_trans ?_ h
    rw [div_mul_div_comm, ← pow_add, one_mul]
    exact one_div_le_one_div_of_le (by positivity) (pow_le_pow_right₀ (by norm_num) (by norm_num))
  have hsq : Rel (F64.sqrt a) (√a.val) (0 + (1 + 0) / 2 ^ 53) :=
    rel_round (F64.sqrt_spec hf h0).2.1 (mid_of (by norm_num at hs1 ⊢; linarith) (hs2.trans (le_trans (by norm_num : (27:ℝ) ≤ 2 ^ 5) (pow_le_pow_right₀ (by norm_num) (by norm_num))))) (by norm_num) (by simp)
  have hEP0 : 1 / 2 ^ 982 * 0.0624 ≤ E * P := mul_le_mul e1 P1 (by norm_num) hE.le
  have hEP1 : E * P ≤ 2 ^ 996 * 3 := mul_le_mul e2 P2 hp.pos.le (by positivity)
  have w0 : (0:ℝ) < 1 / 2 ^ 982 := by positivity
  have hn := rel_mul he hp ⟨lowM _ (le_trans (mul_le_mul_of_nonneg_left (by norm_num) w0.le) hEP0), (hEP1.trans (by
    rw [show (2:ℝ) ^ 1000 = 2 ^ 996 * 16 by rw [show (16:ℝ) = 2 ^ 4 by norm_num, ← pow_add]]
    exact mul_le_mul_of_nonneg_left (by norm_num) (by positivity)))⟩ (by norm_num)
  have hSQ0 : 3.8 * 0.0624 ≤ √a.val * Q := mul_le_mul hs1 Q1 (by norm_num) (by linarith)
  have hSQ1 : √a.val * Q ≤ 27 * 3 := mul_le_mul hs2 Q2 hq.pos.le (by norm_num)
  have hd := rel_mul hsq hq (mid_of (le_trans (by norm_num) hSQ0) (hSQ1.trans (le_trans (by norm_num : (27 * 3:ℝ) ≤ 2 ^ 7) (pow_le_pow_right₀ (by norm_num) (by norm_num))))) (by norm_num)
  refine ⟨(rel_div (η := 2.15e-14) hn hd ⟨lowM _ ?_, ?_⟩ (by norm_num) (by norm_num) (by norm_num)).mono (by norm_num), P2, hSQ0⟩
  · rw [le_div_iff₀ hd.pos]
    refine le_trans ?_ hEP0
    rw [mul_assoc]
    refine mul_le_mul_of_nonneg_left ?_ w0.le
    calc 1 / 2 ^ 12 * (√a.val * Q) ≤ 1 / 2 ^ 12 * (27 * 3) := by gcongr
      _ ≤ _ := by norm_num
  · rw [div_le_iff₀ hd.pos]
    refine hEP1.trans ?_
    rw [show (2:ℝ) ^ 1000 = 2 ^ 996 * 16 by rw [show (16:ℝ) = 2 ^ 4 by norm_num, ← pow_add], mul_assoc]
    refine mul_le_mul_of_nonneg_left ?_ (by positivity)
    norm_num at hSQ0 ⊢
    linarith

theorem i_branch (L : LibmUlp) {y a p q : F64} {P Q : ℝ} (hy : y.isFin = true) (hya : y.val = a.val) (h15 : 15 ≤ a.val) (h690 : a.val ≤ 690)
    (hp : Rel p P (1 / 10 ^ 14)) (hp1 : 1 / 2 ^ 4 ≤ p.val ∧ p.val ≤ 2) (hq : Rel q Q (1 / 10 ^ 14)) (hq1 : 1 / 2 ^ 4 ≤ q.val ∧ q.val ≤ 2) :
    Rel (Libm.exp y * p / (F64.sqrt a * q)) (Real.exp a.val * P / (√a.val * Q)) 2.2e-14 := by
  have he : Rel (Libm.exp y) (Real.exp a.val) (1 / 2 ^ 51) := by
    have := rel_exp L (X := a.val) (η := 0) hy (by rw [hya]; simp) (by norm_num) (by linarith) (by linarith)
    simpa using this
  have e1 : 1 ≤ Real.exp a.val := Real.one_le_exp (by linarith)
  refine (i_branch' he (le_trans ?_ e1) (exp690 h690) h15 h690 hp hp1 hq hq1).1
  rw [div_le_one (by positivity)]; exact one_le_pow₀ (by norm_num)

omit [Libm F64] in
theorem i_right_ge {x : F64} (_ : x.isFin = true) (hx : 15 ≤ |x.val|) : (Arith.abs x <ᶠ (15.0 : F64)) = false := by
  rw [Bool.eq_false_iff]
  intro h
  have h : F64.lt x.abs 15.0 = true := h
  rw [lt_iff] at h
  have h2 := h.2.2
  rw [val_abs, val_of_int (x := (15.0 : F64)) 15 (by decide +kernel)] at h2
  push_cast at h2
  linarith

theorem i0_acc_right (L : LibmUlp) {x : F64} (h15 : 15 ≤ |x.val|) (h690 : |x.val| ≤ 690) : Rel (i0 x) (besselIR 0 x.val) 3.3e-13 := by
  have hf : x.isFin = true := fin_of_abs (c := 691) (by norm_num) (by linarith)
  have hva := val_abs x
  have h15' : 15 ≤ x.abs.val := by rw [hva]; exact h15
  have h690' : x.abs.val ≤ 690 := by rw [hva]; exact h690
  have hfa : x.abs.isFin = true := fin_of_abs (c := 691) (by norm_num) (by rw [hva, abs_abs]; linarith)
  obtain ⟨t1, t2, t3, t4⟩ := t15 h15' h690'
  obtain ⟨p1, p2⟩ := piecesE_rel t1 t2 t3 t4 i0pp_pc
  obtain ⟨q1, q2⟩ := piecesE_rel t1 t2 t3 t4 i0qq_pc
  have hb := i_branch L hfa rfl h15' h690' p1 p2 q1 q2
  have e1 : i0 x = Libm.exp x.abs * evF (fun _ => (15.0 : F64) / x.abs) (polyE zE I0PPx) / (F64.sqrt x.abs * evF (fun _ => (15.0 : F64) / x.abs) (polyE zE I0QQx)) := by
    unfold i0
    simp only [i_right_ge hf h15, polyE_F' (I0PPx_F (fun _ => (15.0 : F64) / x.abs)) (by decide), polyE_F' (I0QQx_F (fun _ => (15.0 : F64) / x.abs)) (by decide)]
    rw [if_neg (by simp)]
    simp only [zE, evF]
    norm_num
    rfl
  have e2 : i0 x.val = Real.exp x.abs.val * evR (fun _ => 15 / x.abs.val) (polyE zE I0PPx) / (√x.abs.val * evR (fun _ => 15 / x.abs.val) (polyE zE I0QQx)) := by
    have h : (Arith.abs x.val <ᶠ (15.0:ℝ)) = false := by
      show decide (|x.val| < (15.0:ℝ)) = false
      rw [decide_eq_false_iff_not]; norm_num; exact h15
    unfold i0
    simp only [h, polyE_R' (I0PPx_R (fun _ => 15 / x.abs.val)) (by decide), polyE_R' (I0QQx_R (fun _ => 15 / x.abs.val)) (by decide)]
    rw [if_neg (by simp), hva]
    simp only [zE, evR]
    norm_num
    rfl
  rw [← e1, ← e2] at hb
  have h2 := Bes.i0_right h15
  have hp : 0 < besselIR 0 x.val := by rw [← Bes.I0_abs]; exact Bes.I_pos 0 (by linarith)
  refine ⟨hb.fin, hp, (abs_sub_le _ (i0 x.val) _).trans ?_⟩
  have h3 := hb.err
  have h4 := abs_le.1 h2
  norm_num at h2 h3 h4 ⊢
  linarith [h4.2]

theorem i1_acc_right (L : LibmUlp) {x : F64} (h15 : 15 ≤ x.val) (h690 : x.val ≤ 690) : Rel (i1 x) (besselIR 1 x.val) 3.3e-13 := by
  have h0 : 0 < x.val := by linarith
  have hf : x.isFin = true := fin_of_abs (c := 691) (by norm_num) (by rw [abs_of_pos h0]; linarith)
  have hva : x.abs.val = x.val := by rw [val_abs, abs_of_pos h0]
  have h15' : 15 ≤ x.abs.val := by rw [hva]; exact h15
  have h690' : x.abs.val ≤ 690 := by rw [hva]; exact h690
  obtain ⟨t1, t2, t3, t4⟩ := t15 h15' h690'
  obtain ⟨p1, p2⟩ := piecesE_rel t1 t2 t3 t4 i1pp_pc
  obtain ⟨q1, q2⟩ := piecesE_rel t1 t2 t3 t4 i1qq_pc
  have hb := i_branch L hf hva.symm h15' h690' p1 p2 q1 q2
  have e1 : i1 x = Libm.exp x * evF (fun _ => (15.0 : F64) / x.abs) (polyE zE I1PPx) / (F64.sqrt x.abs * evF (fun _ => (15.0 : F64) / x.abs) (polyE zE I1QQx)) := by
    have hlt : (x <ᶠ (0.0 : F64)) = false := by
      rw [Bool.eq_false_iff]
      intro h
      have h : F64.lt x 0.0 = true := h
      rw [lt_iff] at h
      have h2 := h.2.2
      rw [val_of_int (x := (0.0 : F64)) 0 (by decide +kernel)] at h2
      push_cast at h2
      linarith
    unfold i1
    simp only [i_right_ge hf (by rw [abs_of_pos h0]; exact h15), hlt, polyE_F' (I1PPx_F (fun _ => (15.0 : F64) / x.abs)) (by decide), polyE_F' (I1QQx_F (fun _ => (15.0 : F64) / x.abs)) (by decide)]
    rw [if_neg (by simp), if_neg (by simp)]
    simp only [zE, evF]
    norm_num
    rfl
  have e2 : i1 x.val = Real.exp x.abs.val * evR (fun _ => 15 / x.abs.val) (polyE zE I1PPx) / (√x.abs.val * evR (fun _ => 15 / x.abs.val) (polyE zE I1QQx)) := by
    have h : (Arith.abs x.val <ᶠ (15.0:ℝ)) = false := by
      show decide (|x.val| < (15.0:ℝ)) = false
      rw [decide_eq_false_iff_not, abs_of_pos h0]; norm_num; exact h15
    have hlt : (x.val <ᶠ (0.0:ℝ)) = false := by
      show decide (x.val < (0.0:ℝ)) = false
      rw [decide_eq_false_iff_not]; norm_num; exact h0.le
    unfold i1
    simp only [h, hlt, polyE_R' (I1PPx_R (fun _ => 15 / x.abs.val)) (by decide), polyE_R' (I1QQx_R (fun _ => 15 / x.abs.val)) (by decide)]
    rw [if_neg (by simp), if_neg (by simp), hva]
    simp only [zE, evR]
    have ha : (Arith.abs x.val : ℝ) = x.val := abs_of_pos h0
    rw [ha]
    norm_num
    rfl
  rw [← e1, ← e2] at hb
  have h2 := Bes.i1_right h15
  have hp : 0 < besselIR 1 x.val := Bes.I_pos 1 h0
  refine ⟨hb.fin, hp, (abs_sub_le _ (i1 x.val) _).trans ?_⟩
  have h3 := hb.err
  have h4 := abs_le.1 h2
  norm_num at h2 h3 h4 ⊢
  linarith [h4.2]


omit [Libm F64] in
theorem exp680 {X : ℝ} (h : -680 ≤ X) : 1 / 2 ^ 982 ≤ Real.exp X := by
  rw [← Real.log_le_iff_le_exp (by positivity), Real.log_div (by norm_num) (by positivity), Real.log_one, Real.log_pow]
  have := Real.log_two_gt_d9
  norm_num at this ⊢
  linarith

/-- `i1` evaluates `exp(x)` instead of `exp(|x|)` at negative arguments -/
theorem i1_neg_small (L : LibmUlp) {x : F64} (h15 : x.val ≤ -15) (h680 : -680 ≤ x.val) : (i1 x).isFin = true ∧ |(i1 x).val| ≤ 1 / 10 ^ 5 := by
  have h0 : x.val < 0 := by linarith
  have hf : x.isFin = true := fin_of_abs (c := 691) (by norm_num) (by rw [abs_of_neg h0]; linarith)
  have hva : x.abs.val = -x.val := by rw [val_abs, abs_of_neg h0]
  have h15' : 15 ≤ x.abs.val := by rw [hva]; linarith
  have h690' : x.abs.val ≤ 690 := by rw [hva]; linarith
  obtain ⟨t1, t2, t3, t4⟩ := t15 h15' h690'
  obtain ⟨p1, p2⟩ := piecesE_rel t1 t2 t3 t4 i1pp_pc
  obtain ⟨q1, q2⟩ := piecesE_rel t1 t2 t3 t4 i1qq_pc
  have he : Rel (Libm.exp x) (Real.exp x.val) (1 / 2 ^ 51) := by
    have := rel_exp L (X := x.val) (η := 0) hf (by simp) (by norm_num) (by linarith) (by linarith)
    simpa using this
  obtain ⟨hb, hP, hS⟩ := i_branch' he (exp680 h680) (exp690 (by linarith)) h15' h690' p1 p2 q1 q2
  have e1 : i1 x = -(Libm.exp x * evF (fun _ => (15.0 : F64) / x.abs) (polyE zE I1PPx) / (F64.sqrt x.abs * evF (fun _ => (15.0 : F64) / x.abs) (polyE zE I1QQx))) := by
    have hlt : (x <ᶠ (0.0 : F64)) = true := by
      have h00 : (0.0 : F64).val = 0 := by exact_mod_cast val_of_int (x := (0.0 : F64)) 0 (by decide +kernel)
      show F64.lt x 0.0 = true
      rw [lt_iff, h00]
      exact ⟨isFin_notNaN hf, by decide +kernel, h0⟩
    unfold i1
    simp only [i_right_ge hf (by rw [abs_of_neg h0]; linarith), hlt, polyE_F' (I1PPx_F (fun _ => (15.0 : F64) / x.abs)) (by decide), polyE_F' (I1QQx_F (fun _ => (15.0 : F64) / x.abs)) (by decide)]
    rw [if_neg (by simp), if_pos trivial]
    simp only [zE, evF]
    norm_num
    rfl
  have hE : Real.exp x.val ≤ 4e-7 := by
    have h1 : Real.exp x.val ≤ Real.exp (-15) := Real.exp_le_exp.2 h15
    have h2 := Bes.exp15
    have h3 : 3.2e6 ≤ Real.exp 15 := by have := (abs_le.1 h2).1; norm_num at this ⊢; linarith
    rw [Real.exp_neg] at h1
    have h4 : (Real.exp 15)⁻¹ ≤ (3.2e6)⁻¹ := inv_anti₀ (by norm_num) h3
    norm_num at h4 ⊢
    linarith
  have hv : |(i1 x).val| ≤ 1 / 10 ^ 5 := by
    rw [e1, val_neg, abs_neg, abs_of_pos (hb.val_pos (by norm_num))]
    refine hb.bounds.2.trans ?_
    have hS0 : 0 < √x.abs.val * evR (fun _ => 15 / x.abs.val) (polyE zE I1QQx) := lt_of_lt_of_le (by norm_num) hS
    have : Real.exp x.val * evR (fun _ => 15 / x.abs.val) (polyE zE I1PPx) / (√x.abs.val * evR (fun _ => 15 / x.abs.val) (polyE zE I1QQx)) ≤ 4e-7 * 3 / (3.8 * 0.0624) := by
      refine div_le_div₀ (by norm_num) (mul_le_mul hE hP p1.pos.le (by norm_num)) (by norm_num) hS
    norm_num at this ⊢
    linarith
  exact ⟨fin_of_abs (c := 1) (by norm_num) (lt_of_le_of_lt hv (by norm_num)), hv⟩

end BesX
end Verif
