import Verif.Proofs.BesselK7
import Verif.Proofs.BesselF3

/-! Rounding errors of `k0`, `k1` for `1 < x ≤ 680`. -/

namespace Verif
namespace BesX
open FlErr F64

/-- relative error `1/K`, value in `[1, 1024]` -/
def relC3 (K : ℕ) (r : B) : Bool := relC K r && decide (2 ^ 159 ≤ r.l) && decide (r.u ≤ 2 ^ 170)

theorem relC3_sound {a : F64} {A : ℝ} {K : ℕ} (hK : 0 < K) {r : B} (h : FlErr.In a A r) (hc : relC3 K r = true) :
    Rel a A (1 / K) ∧ 1 / 2 ≤ a.val ∧ a.val ≤ 1024 := by
  simp only [relC3, Bool.and_eq_true, decide_eq_true_eq] at hc
  refine ⟨(relC_sound hK h hc.1.1).1, le_trans ?_ h.lo, h.hi.trans ?_⟩
  · rw [le_div_iff₀ FlErr.U_pos]
    have : ((2 ^ 159 : ℤ) : ℝ) ≤ r.l := by exact_mod_cast hc.1.2
    refine le_trans ?_ this
    unfold FlErr.U; norm_num
  · rw [div_le_iff₀ FlErr.U_pos]
    have : (r.u : ℝ) ≤ ((2 ^ 170 : ℤ) : ℝ) := by exact_mod_cast hc.2
    refine this.trans ?_
    unfold FlErr.U; norm_num

set_option maxRecDepth 100000
theorem k0pp_pc : piecesE (polyE (.var 0) K0PPx) (relC3 (10 ^ 14)) (2 ^ 108) (2 ^ 155) 32 0 = true := by decide +kernel
theorem k0qq_pc : piecesE (polyE (.var 0) K0QQx) (relC3 (10 ^ 14)) (2 ^ 108) (2 ^ 155) 32 0 = true := by decide +kernel
theorem k1pp_pc : piecesE (polyE (.var 0) K1PPx) (relC3 (10 ^ 14)) (2 ^ 108) (2 ^ 155) 32 0 = true := by decide +kernel
theorem k1qq_pc : piecesE (polyE (.var 0) K1QQx) (relC3 (10 ^ 14)) (2 ^ 108) (2 ^ 155) 32 0 = true := by decide +kernel

/-- `1.0 / x` -/
theorem t1 {a : F64} (h1 : 1 ≤ a.val) (h680 : a.val ≤ 680) :
    ((1.0 : F64) / a).isFin = true ∧ |((1.0 : F64) / a).val - 1 / a.val| ≤ (2 ^ 108 : ℕ) / FlErr.U ∧ 0 ≤ ((1.0 : F64) / a).val ∧ ((1.0 : F64) / a).val ≤ 1 := by
  have hf : a.isFin = true := fin_of_abs (c := 691) (by norm_num) (by rw [abs_of_pos (by linarith)]; linarith)
  have h0 : 0 < a.val := by linarith
  have e1 : (1.0 : F64).val = 1 := by exact_mod_cast val_of_int (x := (1.0 : F64)) 1 (by decide +kernel)
  obtain ⟨-, d, -⟩ := div_spec (a := (1.0 : F64)) (by decide +kernel) hf h0.ne'
  rw [e1] at d
  have q0 : 0 ≤ 1 / a.val := by positivity
  have q1 : 1 / a.val ≤ 1 := by rw [div_le_one h0]; exact h1
  have hH := HUGE_ge
  have r := RN_err' (x := 1 / a.val) (by rw [abs_of_nonneg q0]; exact lt_of_le_of_lt q1 (lt_of_lt_of_le (by norm_num) hH))
  rw [abs_of_nonneg q0] at r
  have m1 : 1 / a.val / 2 ^ 53 ≤ 1 / 2 ^ 53 := by gcongr
  have m2 : (1:ℝ) / 2 ^ 1075 ≤ 1 / 2 ^ 100 := one_div_le_one_div_of_le (by positivity) (pow_le_pow_right₀ (by norm_num) (by norm_num))
  have lo : 0 ≤ RN (1 / a.val) := by
    have := RN_mono q0
    rwa [RN_zero] at this
  have hi : RN (1 / a.val) ≤ 1 := by
    have := RN_mono q1
    rwa [RN_one] at this
  rw [isFin_iff_val, d]
  refine ⟨?_, ?_, lo, hi⟩
  · rw [abs_of_nonneg lo]; exact lt_of_le_of_lt hi (lt_of_lt_of_le (by norm_num) hH)
  · refine r.trans ((add_le_add m1 m2).trans ?_)
    unfold FlErr.U; norm_num

theorem piecesE_rel3 {E : Ex} {t : F64} {T : ℝ} (hf : t.isFin = true) (he : |t.val - T| ≤ (2 ^ 108 : ℕ) / FlErr.U) (h0 : 0 ≤ t.val) (h1 : t.val ≤ 1)
    (h : piecesE E (relC3 (10 ^ 14)) (2 ^ 108) (2 ^ 155) 32 0 = true) :
    Rel (evF (fun _ => t) E) (evR (fun _ => T) E) (1 / 10 ^ 14) ∧ 1 / 2 ≤ (evF (fun _ => t) E).val ∧ (evF (fun _ => t) E).val ≤ 1024 := by
  obtain ⟨r, hr, hc⟩ := piecesE_sound hf he 32 0 (by norm_num) h (by simpa using h0) (by unfold FlErr.U; norm_num; exact h1)
  have := relC3_sound (by norm_num) hr hc
  exact_mod_cast this

variable [Libm F64]

theorem k_branch (L : LibmUlp) {a p q : F64} {P Q : ℝ} (h1 : 1 ≤ a.val) (h680 : a.val ≤ 680)
    (hp : Rel p P (1 / 10 ^ 14)) (hp1 : 1 / 2 ≤ p.val ∧ p.val ≤ 1024) (hq : Rel q Q (1 / 10 ^ 14)) (hq1 : 1 / 2 ≤ q.val ∧ q.val ≤ 1024) :
    Rel (Libm.exp (-a) * p / (F64.sqrt a * q)) (Real.exp (-a.val) * P / (√a.val * Q)) 2.2e-14 := by
  have h0 : 0 < a.val := by linarith
  have hf : a.isFin = true := fin_of_abs (c := 691) (by norm_num) (by rw [abs_of_pos h0]; linarith)
  have he : Rel (Libm.exp (-a)) (Real.exp (-a.val)) (1 / 2 ^ 51) := by
    have := rel_exp L (x := -a) (X := -a.val) (η := 0) (by rw [isFin_neg]; exact hf) (by rw [val_neg]; simp) (by norm_num) (by linarith) (by linarith)
    simpa using this
  have e1 := exp680 (X := -a.val) (by linarith)
  have e2 : Real.exp (-a.val) ≤ 1 := Real.exp_le_one_iff.2 (by linarith)
  have hs1 : 1 ≤ √a.val := Real.le_sqrt_of_sq_le (by norm_num; linarith)
  have hs2 : √a.val ≤ 27 := Real.sqrt_le_iff.mpr ⟨by norm_num, by linarith⟩
  have bp := hp.bounds
  have bq := hq.bounds
  have P1 : 0.49 ≤ P := by norm_num at bp hp1 ⊢; linarith [bp.2, hp1.1]
  have P2 : P ≤ 1025 := by norm_num at bp hp1 ⊢; linarith [bp.1, hp1.2]
  have Q1 : 0.49 ≤ Q := by norm_num at bq hq1 ⊢; linarith [bq.2, hq1.1]
  have Q2 : Q ≤ 1025 := by norm_num at bq hq1 ⊢; linarith [bq.1, hq1.2]
  have hE := he.pos
  have lowM : ∀ y : ℝ, 1 / 2 ^ 982 * (1 / 2 ^ 17) ≤ y → 1 / 2 ^ 1000 ≤ y := by
    intro y h
    refine le_trans ?_ h
    rw [div_mul_div_comm, ← pow_add, one_mul]
    exact one_div_le_one_div_of_le (by positivity) (pow_le_pow_right₀ (by norm_num) (by norm_num))
  have p1000 : ∀ y : ℝ, y ≤ 2 ^ 20 → y ≤ 2 ^ 1000 := fun y h => h.trans (pow_le_pow_right₀ (by norm_num) (by norm_num))
  have hsq : Rel (F64.sqrt a) (√a.val) (0 + (1 + 0) / 2 ^ 53) :=
    rel_round (F64.sqrt_spec hf h0).2.1 (mid_of (le_trans (by norm_num) hs1) (p1000 _ (hs2.trans (by norm_num)))) (by norm_num) (by simp)
  have hEP0 : 1 / 2 ^ 982 * 0.49 ≤ Real.exp (-a.val) * P := mul_le_mul e1 P1 (by norm_num) hE.le
  have hEP1 : Real.exp (-a.val) * P ≤ 1 * 1025 := mul_le_mul e2 P2 hp.pos.le (by positivity)
  have w0 : (0:ℝ) < 1 / 2 ^ 982 := by positivity
  have hn := rel_mul he hp ⟨lowM _ (le_trans (mul_le_mul_of_nonneg_left (by norm_num) w0.le) hEP0), p1000 _ (hEP1.trans (by norm_num))⟩ (by norm_num)
  have hSQ0 : 1 * 0.49 ≤ √a.val * Q := mul_le_mul hs1 Q1 (by norm_num) (by linarith)
  have hSQ1 : √a.val * Q ≤ 27 * 1025 := mul_le_mul hs2 Q2 hq.pos.le (by norm_num)
  have hd := rel_mul hsq hq (mid_of (le_trans (by norm_num) hSQ0) (p1000 _ (hSQ1.trans (by norm_num)))) (by norm_num)
  refine (rel_div (η := 2.15e-14) hn hd ⟨lowM _ ?_, p1000 _ ?_⟩ (by norm_num) (by norm_num) (by norm_num)).mono (by norm_num)
  · rw [le_div_iff₀ hd.pos]
    refine le_trans ?_ hEP0
    rw [mul_assoc]
    refine mul_le_mul_of_nonneg_left ?_ w0.le
    calc 1 / 2 ^ 17 * (√a.val * Q) ≤ 1 / 2 ^ 17 * (27 * 1025) := by gcongr
      _ ≤ _ := by norm_num
  · rw [div_le_iff₀ hd.pos]
    refine hEP1.trans ?_
    norm_num at hSQ0 ⊢
    linarith

omit [Libm F64] in
theorem k_right_ge {x : F64} (hx : 1 < x.val) : (x ≤ᶠ (1.0 : F64)) = false := by
  rw [Bool.eq_false_iff]
  intro h
  have h : F64.le x 1.0 = true := h
  rw [le_iff] at h
  have h2 := h.2.2
  rw [val_of_int (x := (1.0 : F64)) 1 (by decide +kernel)] at h2
  push_cast at h2
  linarith

omit [Libm F64] in
theorem k_right_geR {x : ℝ} (hx : 1 < x) : (x ≤ᶠ (1.0 : ℝ)) = false := by
  show decide (x ≤ (1.0:ℝ)) = false
  rw [decide_eq_false_iff_not]; norm_num; exact hx

theorem k0_acc_right (L : LibmUlp) {x : F64} (h1 : 1 < x.val) (h680 : x.val ≤ 680) : Rel (k0 x) (besselKR 0 x.val) 9.3e-13 := by
  have h0 : 0 < x.val := by linarith
  obtain ⟨t1, t2, t3, t4⟩ := t1 h1.le h680
  obtain ⟨p1, p2⟩ := piecesE_rel3 t1 t2 t3 t4 k0pp_pc
  obtain ⟨q1, q2⟩ := piecesE_rel3 t1 t2 t3 t4 k0qq_pc
  have hb := k_branch L h1.le h680 p1 p2 q1 q2
  have e1 : k0 x = Libm.exp (-x) * evF (fun _ => (1.0 : F64) / x) (polyE (.var 0) K0PPx) / (F64.sqrt x * evF (fun _ => (1.0 : F64) / x) (polyE (.var 0) K0QQx)) := by
    unfold k0
    simp only [k_right_ge h1, polyE_F' (K0PPx_F (fun _ => (1.0 : F64) / x)) (by decide), polyE_F' (K0QQx_F (fun _ => (1.0 : F64) / x)) (by decide)]
    rw [if_neg (by simp)]
    simp only [evF]
    rfl
  have e2 : k0 x.val = Real.exp (-x.val) * evR (fun _ => 1 / x.val) (polyE (.var 0) K0PPx) / (√x.val * evR (fun _ => 1 / x.val) (polyE (.var 0) K0QQx)) := by
    unfold k0
    simp only [k_right_geR h1, polyE_R' (K0PPx_R (fun _ => 1 / x.val)) (by decide), polyE_R' (K0QQx_R (fun _ => 1 / x.val)) (by decide)]
    rw [if_neg (by simp)]
    simp only [evR]
    norm_num
    rfl
  rw [← e1, ← e2] at hb
  have h2 := Bes.k0_exact h0
  refine ⟨hb.fin, Bes.K_pos h0 0, (abs_sub_le _ (k0 x.val) _).trans ?_⟩
  have h3 := hb.err
  have h4 := abs_le.1 h2
  norm_num at h2 h3 h4 ⊢
  linarith [h4.2]

theorem k1_acc_right (L : LibmUlp) {x : F64} (h1 : 1 < x.val) (h680 : x.val ≤ 680) : Rel (k1 x) (besselKR 1 x.val) 9.3e-13 := by
  have h0 : 0 < x.val := by linarith
  obtain ⟨t1, t2, t3, t4⟩ := t1 h1.le h680
  obtain ⟨p1, p2⟩ := piecesE_rel3 t1 t2 t3 t4 k1pp_pc
  obtain ⟨q1, q2⟩ := piecesE_rel3 t1 t2 t3 t4 k1qq_pc
  have hb := k_branch L h1.le h680 p1 p2 q1 q2
  have e1 : k1 x = Libm.exp (-x) * evF (fun _ => (1.0 : F64) / x) (polyE (.var 0) K1PPx) / (F64.sqrt x * evF (fun _ => (1.0 : F64) / x) (polyE (.var 0) K1QQx)) := by
    unfold k1
    simp only [k_right_ge h1, polyE_F' (K1PPx_F (fun _ => (1.0 : F64) / x)) (by decide), polyE_F' (K1QQx_F (fun _ => (1.0 : F64) / x)) (by decide)]
    rw [if_neg (by simp)]
    simp only [evF]
    rfl
  have e2 : k1 x.val = Real.exp (-x.val) * evR (fun _ => 1 / x.val) (polyE (.var 0) K1PPx) / (√x.val * evR (fun _ => 1 / x.val) (polyE (.var 0) K1QQx)) := by
    unfold k1
    simp only [k_right_geR h1, polyE_R' (K1PPx_R (fun _ => 1 / x.val)) (by decide), polyE_R' (K1QQx_R (fun _ => 1 / x.val)) (by decide)]
    rw [if_neg (by simp)]
    simp only [evR]
    norm_num
    rfl
  rw [← e1, ← e2] at hb
  have h2 := Bes.k1_exact h0
  refine ⟨hb.fin, Bes.K_pos h0 1, (abs_sub_le _ (k1 x.val) _).trans ?_⟩
  have h3 := hb.err
  have h4 := abs_le.1 h2
  norm_num at h2 h3 h4 ⊢
  linarith [h4.2]

end BesX
end Verif
