import Verif.Proofs.BesselK5

/-! `k0` and `k1` in exact arithmetic: the differential equations of the error for `0 < x ≤ 1`. -/

namespace Verif
namespace Bes
open ZPoly Real Set Filter Topology

/-- the rational function `A/B` at `x²` -/
noncomputable def rz (A B : List ℤ) (x : ℝ) : ℝ := ev A (x ^ 2) / ev B (x ^ 2)
/-- its derivative in `x²` -/
noncomputable def rz' (A B : List ℤ) (x : ℝ) : ℝ := ev (dd A B) (x ^ 2) / ev B (x ^ 2) ^ 2

theorem rz_deriv (A B : List ℤ) {x : ℝ} (hB : ev B (x ^ 2) ≠ 0) : HasDerivAt (rz A B) (rz' A B x * (2 * x)) x := by
  have hy : HasDerivAt (fun x : ℝ => x ^ 2) (2 * x) x := by
    refine (hasDerivAt_pow 2 x).congr_deriv ?_
    push_cast; ring
  have h3 := ((hasDerivAt_ev A (x ^ 2)).comp x hy).div ((hasDerivAt_ev B (x ^ 2)).comp x hy) hB
  refine h3.congr_deriv ?_
  simp only [Function.comp_apply]
  rw [rz', dd, ev_sub, ev_mul, ev_mul]
  field_simp

theorem cmp1_pos {p : List ℤ} {k : ℤ} (hk : 0 < k) (h1 : 0 < p.headD 0) (h2 : nonneg p = true) {z : ℝ} (hz : z ≤ 1) : 0 < ev (smul k (cmp1 p)) z := by
  rw [ev_smul, ev_cmp1]
  exact mul_pos (by exact_mod_cast hk) (ev_pos_of' h1 h2 (by linarith))

theorem LB_pos {z : ℝ} (hz : z ≤ 1) : 0 < ev LB z := cmp1_pos (by decide) (by decide +kernel) (by decide +kernel) hz
theorem MB_pos {z : ℝ} (hz : z ≤ 1) : 0 < ev MB z := cmp1_pos (by decide) (by decide +kernel) (by decide +kernel) hz
theorem CB_pos {z : ℝ} (hz : z ≤ 1) : 0 < ev CB z := cmp1_pos (by decide) (by decide +kernel) (by decide +kernel) hz
theorem DB_pos {z : ℝ} (hz : z ≤ 1) : 0 < ev DB z := cmp1_pos (by decide) (by decide +kernel) (by decide +kernel) hz

/-- the value of `k0` on `(0, 1]` -/
noncomputable def k0L (x : ℝ) : ℝ := rz LA LB x - rz MA MB x * log x
/-- `x` times the value of `k1` on `(0, 1]` -/
noncomputable def k1L (x : ℝ) : ℝ := x ^ 2 * (rz CA CB x + rz DA DB x * log x) + 1

noncomputable def lE (x : ℝ) : ℝ := k0L x - besselKR 0 x
noncomputable def lW (x : ℝ) : ℝ := k1L x - x * besselKR 1 x
noncomputable def lr0 (x : ℝ) : ℝ := x * (2 * rz' LA LB x + rz CA CB x) + x * log x * (rz DA DB x - 2 * rz' MA MB x) + (1 - rz MA MB x) / x
noncomputable def lr1 (x : ℝ) : ℝ := (2 * rz CA CB x + rz DA DB x + 2 * x ^ 2 * rz' CA CB x + rz LA LB x) +
  log x * (2 * rz DA DB x + 2 * x ^ 2 * rz' DA DB x - rz MA MB x)

theorem sq_le1 {x : ℝ} (hx : 0 < x) (hx1 : x ≤ 1) : x ^ 2 ≤ 1 := by nlinarith

theorem lE_deriv (x : ℝ) (hx : 0 < x) (hx1 : x ≤ 1) : HasDerivAt lE (-(lW x) / x + lr0 x) x := by
  have hz := sq_le1 hx hx1
  have h := (((rz_deriv LA LB (LB_pos hz).ne').sub ((rz_deriv MA MB (MB_pos hz).ne').mul (hasDerivAt_log hx.ne'))).sub (K0_deriv hx))
  refine h.congr_deriv ?_
  rw [lW, k1L, lr0]
  field_simp
  ring

theorem lW_deriv (x : ℝ) (hx : 0 < x) (hx1 : x ≤ 1) : HasDerivAt lW (-(x * lE x) + x * lr1 x) x := by
  have hz := sq_le1 hx hx1
  have h := (((hasDerivAt_pow 2 x).mul ((rz_deriv CA CB (CB_pos hz).ne').add ((rz_deriv DA DB (DB_pos hz).ne').mul (hasDerivAt_log hx.ne')))).add_const 1).sub
    ((hasDerivAt_id x).mul (K1_deriv hx))
  refine h.congr_deriv ?_
  simp only [Pi.add_apply, Pi.mul_apply, id]
  rw [lE, k0L, lr1]
  push_cast
  field_simp
  ring

theorem resl {t s d r n : ℕ} {k e : ℤ} {N W : List ℤ} (h : resOn t s d r n 0 k e N W = true) (hs : 0 < s) (hn : n ≠ 0) (hk : 0 ≤ k) (he : 0 < e)
    (hsn : s = 2 * r * n) {x : ℝ} (hx : 0 < x) (hx1 : x ≤ 1) (hW : 0 < ev W (x ^ 2)) :
    |ev N (x ^ 2) / (x ^ 2 * ev W (x ^ 2))| ≤ k / e := by
  have hz := sq_le1 hx hx1
  have hz0 : 0 < x ^ 2 := by positivity
  have hs' : (s:ℝ) = 2 * r * n := by exact_mod_cast hsn
  have hs0 : (0:ℝ) ≤ s := by positivity
  have := resOn_sound hs hn hk he h (y := x ^ 2) hz0.le (by push_cast; positivity)
    (by rw [Int.cast_zero, zero_add, ← hs']; nlinarith) hW.le
  rw [abs_div, abs_of_pos (mul_pos hz0 hW), div_le_iff₀ (mul_pos hz0 hW)]
  linarith

theorem lr0_le (x : ℝ) (hx : 0 < x) (hx1 : x ≤ 1) : |lr0 x| ≤ 1.1e-13 + 3.8e-17 / x := by
  have hz := sq_le1 hx hx1
  have hz0 : x ^ 2 ≠ 0 := by positivity
  have pL := LB_pos hz
  have pM := MB_pos hz
  have pC := CB_pos hz
  have pD := DB_pos hz
  have hb : (mb:ℝ) = 999999999999999962570 := by unfold mb; norm_num
  have ha : (ma:ℝ) = 1000000000000000000000 := by unfold ma; norm_num
  have w1 : 0 < ev Wl1 (x ^ 2) := by
    rw [Wl1, ev_smul, ev_mul, ev_mul, ev_mul, hb]
    positivity
  have w2 : 0 < ev Wl2 (x ^ 2) := by
    rw [Wl2, ev_mul, ev_mul]; positivity
  have c1 := resl cert_l1 (by norm_num) (by norm_num) (by norm_num) (by norm_num) (by norm_num) hx hx1 w1
  have c2 := resl cert_l2 (by norm_num) (by norm_num) (by norm_num) (by norm_num) (by norm_num) hx hx1 w2
  have hb0 : (mb:ℝ) ≠ 0 := by rw [hb]; norm_num
  have e1 : ev Nl1 (x ^ 2) / (x ^ 2 * ev Wl1 (x ^ 2)) = 2 * rz' LA LB x + rz CA CB x + (ma / mb - rz MA MB x) / x ^ 2 := by
    simp only [Nl1, Wl1, ev_add, ev_sub, ev_smul, ev_mul, ev_sh, rz', rz]
    push_cast
    generalize (mb:ℝ) = b at hb0 ⊢
    generalize (ma:ℝ) = a
    field_simp
  have e2 : ev Nl2 (x ^ 2) / (x ^ 2 * ev Wl2 (x ^ 2)) = rz DA DB x - 2 * rz' MA MB x := by
    simp only [Nl2, Wl2, ev_add, ev_sub, ev_smul, ev_mul, ev_sh, rz', rz]
    push_cast
    field_simp
  rw [e1] at c1
  rw [e2] at c2
  have e3 : lr0 x = x * (2 * rz' LA LB x + rz CA CB x + (ma / mb - rz MA MB x) / x ^ 2) + x * log x * (rz DA DB x - 2 * rz' MA MB x) + (1 - ma / mb) / x := by
    rw [lr0]
    generalize (mb:ℝ) = b at hb0 ⊢
    generalize (ma:ℝ) = a
    field_simp
    ring
  rw [e3]
  have hl0 : log x ≤ 0 := log_nonpos hx.le hx1
  have hl : x * (-log x) ≤ 1 - x := by
    have h := log_le_sub_one_of_pos (inv_pos.2 hx)
    rw [log_inv] at h
    calc x * (-log x) ≤ x * (x⁻¹ - 1) := mul_le_mul_of_nonneg_left h hx.le
      _ = 1 - x := by field_simp
  have t1 : |x * (2 * rz' LA LB x + rz CA CB x + (ma / mb - rz MA MB x) / x ^ 2)| ≤ x * 1.1e-13 := by
    rw [abs_mul, abs_of_pos hx]
    refine mul_le_mul_of_nonneg_left (c1.trans (by norm_num)) hx.le
  have t2 : |x * log x * (rz DA DB x - 2 * rz' MA MB x)| ≤ (1 - x) * 1.1e-13 := by
    rw [abs_mul, abs_mul, abs_of_pos hx, abs_of_nonpos hl0]
    refine mul_le_mul hl (c2.trans (by norm_num)) (abs_nonneg _) (by linarith)
  have t3 : |(1 - (ma:ℝ) / mb) / x| ≤ 3.8e-17 / x := by
    rw [abs_div, abs_of_pos hx]
    refine div_le_div_of_nonneg_right ?_ hx.le
    rw [hb, ha]
    norm_num [abs_le]
  refine (abs_add_le _ _).trans ((add_le_add ((abs_add_le _ _).trans (add_le_add t1 t2)) t3).trans ?_)
  linarith

theorem lr1_le (x : ℝ) (hx : 0 < x) (hx1 : x ≤ 1) : |lr1 x| ≤ 4e-15 + 1.2e-15 * (-log x) := by
  have hz := sq_le1 hx hx1
  have hz0 : x ^ 2 ≠ 0 := by positivity
  have pL := LB_pos hz
  have pM := MB_pos hz
  have pC := CB_pos hz
  have pD := DB_pos hz
  have w3 : 0 < ev Wl3 (x ^ 2) := by rw [Wl3, ev_mul, ev_mul, ev_mul]; positivity
  have w4 : 0 < ev Wl4 (x ^ 2) := by rw [Wl4, ev_mul, ev_mul]; positivity
  have c1 := resl cert_l3 (by norm_num) (by norm_num) (by norm_num) (by norm_num) (by norm_num) hx hx1 w3
  have c2 := resl cert_l4 (by norm_num) (by norm_num) (by norm_num) (by norm_num) (by norm_num) hx hx1 w4
  have e1 : ev Nl3 (x ^ 2) / (x ^ 2 * ev Wl3 (x ^ 2)) = 2 * rz CA CB x + rz DA DB x + 2 * x ^ 2 * rz' CA CB x + rz LA LB x := by
    simp only [Nl3, Wl3, ev_add, ev_sub, ev_smul, ev_mul, ev_sh, rz', rz]
    push_cast
    field_simp
    try ring
  have e2 : ev Nl4 (x ^ 2) / (x ^ 2 * ev Wl4 (x ^ 2)) = 2 * rz DA DB x + 2 * x ^ 2 * rz' DA DB x - rz MA MB x := by
    simp only [Nl4, Wl4, ev_add, ev_sub, ev_smul, ev_mul, ev_sh, rz', rz]
    push_cast
    field_simp
    try ring
  rw [e1] at c1
  rw [e2] at c2
  have hl0 : log x ≤ 0 := log_nonpos hx.le hx1
  rw [lr1]
  refine (abs_add_le _ _).trans (add_le_add (c1.trans (by norm_num)) ?_)
  rw [abs_mul, abs_of_nonpos hl0, mul_comm]
  exact mul_le_mul_of_nonneg_right (c2.trans (by norm_num)) (by linarith)

end Bes
end Verif
