import Verif.Proofs.BesselF3
import Verif.Proofs.BesselInF4
import Verif.Proofs.GcfF8

/-!
# `In` of order 0 and 1 for `710 ≤ x ≤ 713` (src/bessel.rs): a refutation of C72

`exp(x)` overflows although `I_0(x) ≈ exp(x)/√(2πx)` does not.
-/

namespace Verif
open F64 Bes ZPoly

/-- `exp` overflows to infinity (the true threshold is 709.78) -/
def ExpOver [Libm F64] : Prop := ∀ y : F64, y.isFin = true → 710 ≤ y.val → Libm.exp y = inf

theorem exp710 {r : ℝ} (h : 710 ≤ r) : HUGE ≤ Real.exp r := by
  rw [HUGE_eq, ← Real.log_le_iff_le_exp (by positivity), Real.log_pow]
  have := Real.log_two_lt_d9
  norm_num at this ⊢
  linarith

theorem ideal_over : @ExpOver idealLibm := by
  intro y hf hy
  show (if y.isNaN then nan else if y.isInf then (if y.neg then 0.0 else inf) else ofReal (Real.exp y.val) : F64) = inf
  rw [isFin_notNaN hf, isFin_notInf hf]
  simp only [Bool.false_eq_true, if_false]
  have h1 : (ofReal (Real.exp y.val)).val = HUGE := by
    rw [ofReal_val]
    refine le_antisymm (RN_le_inf _) ?_
    have := RN_mono (exp710 hy)
    rw [← inf_val, RN_val inf_isNaN] at this
    rw [← inf_val]; exact this
  have h2 : (ofReal (Real.exp y.val)).isInf = true := by
    rcases fin_or_inf (ofReal_nn (Real.exp y.val)) with h | h
    · have := isFin_iff_val.1 h
      rw [h1, abs_of_pos (lt_of_lt_of_le (by norm_num) HUGE_ge)] at this
      exact absurd this (lt_irrefl _)
    · exact h
  have h3 : (ofReal (Real.exp y.val)).neg = false := by
    show decide (Real.exp y.val < 0) = false
    rw [decide_eq_false_iff_not]; exact not_lt.2 (Real.exp_pos _).le
  rw [isInf_cases h2, h3]; rfl

set_option maxRecDepth 100000
namespace BesX

theorem t15w {a : F64} (hf : a.isFin = true) (h15 : 15 ≤ a.val) :
    ((15.0 : F64) / a).isFin = true ∧ |((15.0 : F64) / a).val - 15 / a.val| ≤ (2 ^ 108 : ℕ) / FlErr.U ∧ 0 ≤ ((15.0 : F64) / a).val ∧ ((15.0 : F64) / a).val ≤ 1 := by
  have h0 : 0 < a.val := by linarith
  have e15 : (15.0 : F64).val = 15 := by exact_mod_cast val_of_int (x := (15.0 : F64)) 15 (by decide +kernel)
  obtain ⟨-, d, -⟩ := div_spec (a := (15.0 : F64)) (by decide +kernel) hf h0.ne'
  rw [e15] at d
  have q0 : 0 ≤ 15 / a.val := by positivity
  have q1 : 15 / a.val ≤ 1 := by rw [div_le_one h0]; exact h15
  have hH := HUGE_ge
  have r := RN_err' (x := 15 / a.val) (by rw [abs_of_nonneg q0]; exact lt_of_le_of_lt q1 (lt_of_lt_of_le (by norm_num) hH))
  rw [abs_of_nonneg q0] at r
  have m1 : 15 / a.val / 2 ^ 53 ≤ 1 / 2 ^ 53 := by gcongr
  have m2 : (1:ℝ) / 2 ^ 1075 ≤ 1 / 2 ^ 100 := one_div_le_one_div_of_le (by positivity) (pow_le_pow_right₀ (by norm_num) (by norm_num))
  have lo : 0 ≤ RN (15 / a.val) := by
    have := RN_mono q0
    rwa [RN_zero] at this
  have hi : RN (15 / a.val) ≤ 1 := by
    have := RN_mono q1
    rwa [RN_one] at this
  rw [isFin_iff_val, d]
  refine ⟨?_, ?_, lo, hi⟩
  · rw [abs_of_nonneg lo]; exact lt_of_le_of_lt hi (lt_of_lt_of_le (by norm_num) hH)
  · refine r.trans ((add_le_add m1 m2).trans ?_)
    unfold FlErr.U; norm_num

/-- `inf * p / (sqrt a * q)` -/
theorem i_inf {a p q : F64} (hf : a.isFin = true) (h1 : 15 ≤ a.val) (h2 : a.val ≤ 10^15)
    (hp : p.isFin = true) (hp1 : 0 < p.val) (hq : q.isFin = true) (hq1 : 1 / 2^4 ≤ q.val ∧ q.val ≤ 2) :
    inf * p / (F64.sqrt a * q) = inf := by
  have h0 : 0 < a.val := by linarith
  have s1 : 1 ≤ √a.val := Real.le_sqrt_of_sq_le (by norm_num; linarith)
  have s2 : √a.val ≤ 10^8 := Real.sqrt_le_iff.mpr ⟨by norm_num, h2.trans (by norm_num)⟩
  obtain ⟨-, sv, sn⟩ := F64.sqrt_spec hf h0
  obtain ⟨r1, r2⟩ := Gcf.rn_rel (y := √a.val) (le_trans (by norm_num) s1) (s2.trans (by norm_num))
  rw [← sv] at r1 r2
  obtain ⟨r3, r4⟩ := abs_le.1 r2
  have fs := isFin_iff_val.2 r1
  have t1 : 1 / 2 ≤ (F64.sqrt a).val := by norm_num at r3 ⊢; linarith
  have t2 : (F64.sqrt a).val ≤ 10^9 := by norm_num at r4 s2 ⊢; linarith
  obtain ⟨-, mv, mn⟩ := mul_spec fs hq
  have m1 : 1 / 2 * (1 / 2^4) ≤ (F64.sqrt a).val * q.val := mul_le_mul t1 hq1.1 (by norm_num) (by linarith)
  have m2 : (F64.sqrt a).val * q.val ≤ 10^9 * 2 := mul_le_mul t2 hq1.2 (le_trans (by norm_num) hq1.1) (by norm_num)
  obtain ⟨u1, -⟩ := Gcf.rn_rel (y := (F64.sqrt a).val * q.val) (le_trans (by norm_num) m1) (m2.trans (by norm_num))
  rw [← mv] at u1
  have q0 : 0 < q.val := lt_of_lt_of_le (by norm_num) hq1.1
  have e1 : inf * p = inf := by
    rw [F64.mul_inf inf_isNaN (isFin_notNaN hp) (Or.inl inf_isInf) (notZero_of_inf inf_isInf) (val_ne_zero.1 hp1.ne'), neg_of_val_pos hp1]; rfl
  rw [e1, div_inf_left inf_isInf (isFin_iff_val.2 u1), mn, sn, neg_of_val_pos q0]; rfl

theorem rg0_le {x : ℝ} (hx : 15 ≤ x) : rg iP0 iQ0 x ≤ 0.41 := by
  have hx0 : 0 < x := by linarith
  have t0 : 0 ≤ 15 / x := by positivity
  have t1 : 15 / x ≤ 1 := by rw [div_le_one hx0]; exact hx
  have q := iQ0_pos t0 t1
  have h := pos01 0 6 t0 t1 (sub (smul 41 iQ0) (smul 100 iP0)) (by decide +kernel) (by decide +kernel)
  rw [ev_sub, ev_smul, ev_smul] at h
  unfold rg
  rw [div_le_iff₀ q]
  push_cast at h
  linarith

/-- `I_0(x)` is below half the overflow threshold -/
theorem I0_713 {x : ℝ} (h : 700 ≤ x) (h2 : x ≤ 713) : besselIR 0 x < 2^1023 := by
  have x0 : 0 < x := by linarith
  have hs : 0 < √x := Real.sqrt_pos.mpr x0
  have hV : besselIR 0 x = Real.exp x / √x * V0 x := by
    unfold V0; rw [Real.exp_neg]; field_simp
  have u := (abs_le.1 (uI (by linarith : 15 ≤ x)).1).1
  have r := rg0_le (by linarith : 15 ≤ x)
  have V1 : V0 x ≤ 0.42 := by norm_num at u r ⊢; linarith
  have s26 : 26 ≤ √x := Real.le_sqrt_of_sq_le (by norm_num; linarith)
  have e9 : Real.exp 709 < 2^1023 := by
    rw [← Real.lt_log_iff_exp_lt (by positivity), Real.log_pow]
    have := Real.log_two_gt_d9
    norm_num at this ⊢
    linarith
  have e4 : Real.exp 4 ≤ 55 := by
    have e : Real.exp 4 = (Real.exp 1)^4 := by rw [← Real.exp_nat_mul]; norm_num
    rw [e]
    exact (pow_le_pow_left₀ (Real.exp_pos _).le Real.exp_one_lt_d9.le 4).trans (by norm_num)
  have ex : Real.exp x ≤ Real.exp 709 * 55 := by
    calc Real.exp x ≤ Real.exp (709 + 4) := Real.exp_le_exp.2 (by linarith)
      _ = Real.exp 709 * Real.exp 4 := Real.exp_add _ _
      _ ≤ _ := mul_le_mul_of_nonneg_left e4 (Real.exp_pos _).le
  have p9 := Real.exp_pos (709:ℝ)
  calc besselIR 0 x = Real.exp x / √x * V0 x := hV
    _ ≤ Real.exp x / √x * 0.42 := mul_le_mul_of_nonneg_left V1 (by positivity)
    _ ≤ Real.exp 709 * 55 / 26 * 0.42 := by
        refine mul_le_mul_of_nonneg_right ?_ (by norm_num)
        exact div_le_div₀ (by positivity) ex (by norm_num) s26
    _ ≤ Real.exp 709 := by linarith only [p9]
    _ < _ := e9

end BesX

open BesX FlErr in
/-- C72 is false of the code just below the overflow threshold: `In(0, ±x)` and `In(1, x)` are infinite for every `710 ≤ x ≤ 713`, although
`I_1(x) ≤ I_0(x) < 2^1023`, less than half the largest finite number.  (`ExpOver`: `exp` is infinite from 710 on.) -/
theorem I_overflows [Cfg] [Libm F64] (E : ExpOver) {x : F64} (h1 : 710 ≤ x.val) (h2 : x.val ≤ 713) :
    In 0 x = .ok inf ∧ In 0 (-x) = .ok inf ∧ In 1 x = .ok inf ∧ besselIR 1 x.val ≤ besselIR 0 x.val ∧ besselIR 0 x.val < 2^1023 := by
  have x0 : 0 < x.val := by linarith
  have hf : x.isFin = true := isFin_of_abs (b := 1000) (by rw [abs_of_pos x0]; linarith) (by norm_num)
  have hva := val_abs x
  rw [abs_of_pos x0] at hva
  have hfa : x.abs.isFin = true := isFin_of_abs (b := 1000) (by rw [hva, abs_of_pos x0]; linarith) (by norm_num)
  have h15 : 15 ≤ |x.val| := by rw [abs_of_pos x0]; linarith
  have h15' : 15 ≤ x.abs.val := by rw [hva]; linarith
  have hup : x.abs.val ≤ 10^15 := by rw [hva]; norm_num; linarith
  obtain ⟨t1, t2, t3, t4⟩ := t15w hfa h15'
  have e0 : i0 x = inf := by
    obtain ⟨p1, p2⟩ := piecesE_rel t1 t2 t3 t4 i0pp_pc
    obtain ⟨q1, q2⟩ := piecesE_rel t1 t2 t3 t4 i0qq_pc
    have e1 : i0 x = Libm.exp x.abs * evF (fun _ => (15.0 : F64) / x.abs) (polyE zE I0PPx) / (F64.sqrt x.abs * evF (fun _ => (15.0 : F64) / x.abs) (polyE zE I0QQx)) := by
      unfold i0
      simp only [i_right_ge hf h15, polyE_F' (I0PPx_F (fun _ => (15.0 : F64) / x.abs)) (by decide), polyE_F' (I0QQx_F (fun _ => (15.0 : F64) / x.abs)) (by decide)]
      rw [if_neg (by simp)]
      simp only [zE, evF]
      norm_num
      rfl
    rw [e1, E x.abs hfa (by rw [hva]; exact h1)]
    exact i_inf hfa h15' hup p1.fin (lt_of_lt_of_le (by norm_num) p2.1) q1.fin q2
  have e1 : i1 x = inf := by
    obtain ⟨p1, p2⟩ := piecesE_rel t1 t2 t3 t4 i1pp_pc
    obtain ⟨q1, q2⟩ := piecesE_rel t1 t2 t3 t4 i1qq_pc
    have hlt : (x <ᶠ (0.0 : F64)) = false := by
      rw [Bool.eq_false_iff]
      intro h
      have h : F64.lt x 0.0 = true := h
      rw [lt_iff, zero_val] at h
      linarith [h.2.2]
    have e1 : i1 x = Libm.exp x * evF (fun _ => (15.0 : F64) / x.abs) (polyE zE I1PPx) / (F64.sqrt x.abs * evF (fun _ => (15.0 : F64) / x.abs) (polyE zE I1QQx)) := by
      unfold i1
      simp only [i_right_ge hf h15, hlt, polyE_F' (I1PPx_F (fun _ => (15.0 : F64) / x.abs)) (by decide), polyE_F' (I1QQx_F (fun _ => (15.0 : F64) / x.abs)) (by decide)]
      rw [if_neg (by simp), if_neg (by simp)]
      simp only [zE, evF]
      norm_num
      rfl
    rw [e1, E x hf h1]
    exact i_inf hfa h15' hup p1.fin (lt_of_lt_of_le (by norm_num) p2.1) q1.fin q2
  have r0 : ∀ y : F64, In 0 y = .ok (i0 y) := fun _ => rfl
  have r1 : ∀ y : F64, In 1 y = .ok (i1 y) := fun _ => rfl
  refine ⟨by rw [r0, e0], by rw [r0, i0_neg, e0], by rw [r1, e1], ?_, I0_713 (by linarith) h2⟩
  have := I_anti 0 x0.le
  simpa using this

/-- the hypotheses of `I_overflows` are met by `x = 711` and the correctly rounded functions -/
example : ∃ _ : Libm F64, ExpOver ∧ 710 ≤ (711.0 : F64).val ∧ (711.0 : F64).val ≤ 713 := by
  have e : (711.0 : F64).val = 711 := by exact_mod_cast val_of_int (x := (711.0 : F64)) 711 (by decide +kernel)
  exact ⟨idealLibm, ideal_over, by rw [e]; norm_num, by rw [e]; norm_num⟩

end Verif
