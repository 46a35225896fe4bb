import Verif.Proofs.BesselY2
import Verif.Proofs.BesselF4

/-! `y0`, `y1` for `0 < x < 8`, in exact arithmetic, against the series. -/

namespace Verif
namespace Bes
open ZPoly Real

theorem twopi_close : |2 / π - 0.63661977236758134308| ≤ 1e-20 := by
  have h1 := Real.pi_gt_d20
  have h2 := Real.pi_lt_d20
  have hp := Real.pi_pos
  rw [abs_le]
  constructor
  · have : 0.63661977236758134307 ≤ 2 / π := by rw [le_div_iff₀ hp]; norm_num at *; linarith
    linarith
  · have : 2 / π ≤ 0.63661977236758134309 := by rw [div_le_iff₀ hp]; norm_num at *; linarith
    linarith

theorem W0_l1 : l1 64 W0z ≤ 2000 * WL0.natAbs := by decide +kernel
theorem W1_l1 : l1 64 W1z ≤ 2000 * WL1.natAbs := by decide +kernel

theorem W_bound {p : List ℤ} {L : ℤ} (hL : 0 < L) (h : l1 64 p ≤ 2000 * L.natAbs) {y : ℝ} (h0 : 0 ≤ y) (h1 : y ≤ 64) : |ev p y / L| ≤ 2000 := by
  have a := l1_bound 64 y (by rw [abs_of_nonneg h0]; exact_mod_cast h1) p
  have hL' : (0:ℝ) < L := by exact_mod_cast hL
  rw [abs_div, abs_of_pos hL', div_le_iff₀ hL']
  refine a.trans ?_
  have e : ((2000 * L.natAbs : ℕ) : ℝ) = 2000 * L := by
    push_cast; rw [Nat.cast_natAbs, Int.cast_abs, abs_of_pos hL']
  rw [← e]; exact_mod_cast h

/-- `s` close to `c`, `T` close to `W`, `R` close to `sT`: `R` close to `cW` -/
theorem chain {R s T c W e1 : ℝ} (h1 : |R - s * T| ≤ e1) (h2 : |c - s| ≤ 1e-20) (h3 : |T| ≤ 2000) (h4 : |W - T| ≤ 1 / 10 ^ 26) (h5 : |c| ≤ 1) :
    |R - c * W| ≤ e1 + 3e-17 := by
  have e : R - c * W = (R - s * T) - (c - s) * T - c * (W - T) := by ring
  have a1 : |(c - s) * T| ≤ 1e-20 * 2000 := by rw [abs_mul]; gcongr
  have a2 : |c * (W - T)| ≤ 1 * (1 / 10 ^ 26) := by rw [abs_mul]; gcongr
  rw [e]
  have t1 := abs_sub (R - s * T - (c - s) * T) (c * (W - T))
  have t2 := abs_sub (R - s * T) ((c - s) * T)
  norm_num at *
  linarith

theorem WL0_pos : 0 < WL0 := by decide +kernel
theorem WL1_pos : 0 < WL1 := by decide +kernel

theorem y0_rat {x : ℝ} (h0 : 0 < x) (h8 : x < 8) : |(ev y0N (x ^ 2) / 10 ^ 31) / (ev Y0Sz (x ^ 2) / 10 ^ 36) - 1 / π * Wn 0 (-(x ^ 2 / 4))| ≤ 1.03e-15 := by
  have hy : x ^ 2 < 64 := by nlinarith
  have hD := ev_pos_of (p := Y0Sz) (y := x ^ 2) (by decide +kernel) (by decide +kernel) (sq_nonneg x)
  have h := yOK_sound 300 (10 ^ 15) _ (by norm_num) _ _ 31 36 WL0 WL0_pos _ 4 8 y0_cert (x ^ 2) (sq_nonneg x) (by norm_num; exact hy) hD
  have t := twopi_close
  have c := chain h (c := 1 / π) (by
    have e : 1 / π = 2 / π / 2 := by ring
    rw [e]; push_cast; rw [abs_le] at *; constructor <;> norm_num at * <;> linarith [t.1, t.2])
    (W_bound WL0_pos W0_l1 (sq_nonneg x) hy.le) (Wn_poly 0 (by norm_num) _ WL0_pos _ W0_ok W0_len (sq_nonneg x) hy.le)
    (by rw [abs_of_pos (by positivity), div_le_one Real.pi_pos]; linarith [Real.pi_gt_three])
  refine c.trans ?_
  norm_num

theorem y1_rat {x : ℝ} (h0 : 0 < x) (h8 : x < 8) : |(ev y1N (x ^ 2) / 10 ^ 30) / (ev Y1Sz (x ^ 2) / 10 ^ 32) - 1 / (2 * π) * Wn 1 (-(x ^ 2 / 4))| ≤ 5.3e-16 := by
  have hy : x ^ 2 < 64 := by nlinarith
  have hD := ev_pos_of (p := Y1Sz) (y := x ^ 2) (by decide +kernel) (by decide +kernel) (sq_nonneg x)
  have h := yOK_sound 300 (2 * 10 ^ 15) _ (by norm_num) _ _ 30 32 WL1 WL1_pos _ 2 16 y1_cert (x ^ 2) (sq_nonneg x) (by norm_num; exact hy) hD
  have t := twopi_close
  have c := chain h (c := 1 / (2 * π)) (by
    have e : 1 / (2 * π) = 2 / π / 4 := by field_simp; norm_num
    rw [e]; push_cast; rw [abs_le] at *; constructor <;> norm_num at * <;> linarith [t.1, t.2])
    (W_bound WL1_pos W1_l1 (sq_nonneg x) hy.le) (Wn_poly 1 (by norm_num) _ WL1_pos _ W1_ok W1_len (sq_nonneg x) hy.le)
    (by rw [abs_of_pos (by positivity), div_le_one (by positivity)]; linarith [Real.pi_gt_three])
  refine c.trans ?_
  norm_num

/-- `Y_0` with the logarithm split off -/
theorem Y0_split {x : ℝ} (hx : 0 < x) : besselYR 0 x = 2 / π * besselJR 0 x * Real.log x + 1 / π * Wn 0 (-(x ^ 2 / 4)) +
    2 / π * ((Real.eulerMascheroniConstant - Real.log 2 - qg) * besselJR 0 x) := by
  rw [Y0_eq, besselJR_eq, Wn, Real.log_div hx.ne' (by norm_num)]
  ring

theorem Y1_split {x : ℝ} (hx : 0 < x) : besselYR 1 x = 2 / π * (besselJR 1 x * Real.log x - 1 / x) + x * (1 / (2 * π) * Wn 1 (-(x ^ 2 / 4))) +
    2 / π * ((Real.eulerMascheroniConstant - Real.log 2 - qg) * besselJR 1 x) := by
  rw [Y1_eq hx.ne', besselJR_eq, Wn, Real.log_div hx.ne' (by norm_num)]
  field_simp
  ring

theorem y0_left_eq {x : ℝ} (hx : x < 8) : y0 x = (ev y0N (x ^ 2) / 10 ^ 31) / (ev Y0Sz (x ^ 2) / 10 ^ 36) + 2 / π * j0 x * Real.log x := by
  have h : (x <ᶠ (8.0:ℝ)) = true := by
    show decide (x < (8.0:ℝ)) = true
    rw [decide_eq_true_eq]; norm_num; exact hx
  unfold y0
  simp only [h, if_true, rat_exact, Y0Rz_eq, Y0Sz_eq]
  rw [y0N, ev_comp]
  simp only [ev]
  push_cast
  rw [show (64:ℝ) + x ^ 2 * (-1 + x ^ 2 * 0) = 64 - x ^ 2 by ring]
  rfl

theorem y1_left_eq {x : ℝ} (hx : x < 8) : y1 x = x * ((ev y1N (x ^ 2) / 10 ^ 30) / (ev Y1Sz (x ^ 2) / 10 ^ 32)) + 2 / π * (j1 x * Real.log x - 1 / x) := by
  have h : (x <ᶠ (8.0:ℝ)) = true := by
    show decide (x < (8.0:ℝ)) = true
    rw [decide_eq_true_eq]; norm_num; exact hx
  unfold y1
  simp only [h, if_true, rat_exact, Y1Rz_eq, Y1Sz_eq]
  rw [y1N, ev_comp]
  simp only [ev]
  push_cast
  rw [show (64:ℝ) + x ^ 2 * (-1 + x ^ 2 * 0) = 64 - x ^ 2 by ring, show (1.0:ℝ) = 1 by norm_num, mul_div_assoc x]
  rfl

theorem twopi_le : 2 / π ≤ 0.637 := by have := (abs_le.1 twopi_close).2; norm_num at *; linarith

theorem y0_left {x : ℝ} (h0 : 0 < x) (h8 : x < 8) : |y0 x - besselYR 0 x| ≤ 1.1e-15 + 6.4e-15 * |Real.log x| := by
  have r := y0_rat h0 h8
  have j := j0_left (x := x) (by rw [abs_of_pos h0]; exact h8)
  have g := qg_close
  have J := (BesX.J_le_one x).1
  have p := twopi_le
  have p0 : 0 < 2 / π := by positivity
  rw [y0_left_eq h8, Y0_split h0]
  set R := (ev y0N (x ^ 2) / 10 ^ 31) / (ev Y0Sz (x ^ 2) / 10 ^ 36)
  have e : R + 2 / π * j0 x * Real.log x - (2 / π * besselJR 0 x * Real.log x + 1 / π * Wn 0 (-(x ^ 2 / 4)) +
    2 / π * ((Real.eulerMascheroniConstant - Real.log 2 - qg) * besselJR 0 x)) =
    (R - 1 / π * Wn 0 (-(x ^ 2 / 4))) + 2 / π * ((j0 x - besselJR 0 x) * Real.log x) - 2 / π * ((Real.eulerMascheroniConstant - Real.log 2 - qg) * besselJR 0 x) := by ring
  rw [e]
  have a1 : |2 / π * ((j0 x - besselJR 0 x) * Real.log x)| ≤ 0.637 * (1.001e-14 * |Real.log x|) := by
    rw [abs_mul, abs_mul, abs_of_pos p0]; gcongr
  have a2 : |2 / π * ((Real.eulerMascheroniConstant - Real.log 2 - qg) * besselJR 0 x)| ≤ 0.637 * (3e-17 * 1) := by
    rw [abs_mul, abs_mul, abs_of_pos p0]; gcongr
  have t1 := abs_sub (R - 1 / π * Wn 0 (-(x ^ 2 / 4)) + 2 / π * ((j0 x - besselJR 0 x) * Real.log x)) (2 / π * ((Real.eulerMascheroniConstant - Real.log 2 - qg) * besselJR 0 x))
  have t2 := abs_add_le (R - 1 / π * Wn 0 (-(x ^ 2 / 4))) (2 / π * ((j0 x - besselJR 0 x) * Real.log x))
  have l0 := abs_nonneg (Real.log x)
  refine t1.trans ?_
  linarith

theorem y1_left {x : ℝ} (h0 : 0 < x) (h8 : x < 8) : |y1 x - besselYR 1 x| ≤ 2e-17 + x * (5.3e-16 + 8.1e-16 * |Real.log x|) := by
  have r := y1_rat h0 h8
  have j := j1_left (x := x) (by rw [abs_of_pos h0]; exact h8)
  have g := qg_close
  have J := (BesX.J_le_one x).2
  have p := twopi_le
  have p0 : 0 < 2 / π := by positivity
  rw [abs_of_pos h0] at j
  rw [y1_left_eq h8, Y1_split h0]
  set R := (ev y1N (x ^ 2) / 10 ^ 30) / (ev Y1Sz (x ^ 2) / 10 ^ 32)
  have e : x * R + 2 / π * (j1 x * Real.log x - 1 / x) - (2 / π * (besselJR 1 x * Real.log x - 1 / x) + x * (1 / (2 * π) * Wn 1 (-(x ^ 2 / 4))) +
    2 / π * ((Real.eulerMascheroniConstant - Real.log 2 - qg) * besselJR 1 x)) =
    x * (R - 1 / (2 * π) * Wn 1 (-(x ^ 2 / 4))) + 2 / π * ((j1 x - besselJR 1 x) * Real.log x) - 2 / π * ((Real.eulerMascheroniConstant - Real.log 2 - qg) * besselJR 1 x) := by ring
  rw [e]
  have a0 : |x * (R - 1 / (2 * π) * Wn 1 (-(x ^ 2 / 4)))| ≤ x * 5.3e-16 := by
    rw [abs_mul, abs_of_pos h0]; gcongr
  have a1 : |2 / π * ((j1 x - besselJR 1 x) * Real.log x)| ≤ 0.637 * (1.26e-15 * (x * |Real.log x|)) := by
    rw [abs_mul, abs_mul, abs_of_pos p0, ← mul_assoc (1.26e-15)]; gcongr
  have a2 : |2 / π * ((Real.eulerMascheroniConstant - Real.log 2 - qg) * besselJR 1 x)| ≤ 0.637 * (3e-17 * 1) := by
    rw [abs_mul, abs_mul, abs_of_pos p0]; gcongr
  have t1 := abs_sub (x * (R - 1 / (2 * π) * Wn 1 (-(x ^ 2 / 4))) + 2 / π * ((j1 x - besselJR 1 x) * Real.log x)) (2 / π * ((Real.eulerMascheroniConstant - Real.log 2 - qg) * besselJR 1 x))
  have t2 := abs_add_le (x * (R - 1 / (2 * π) * Wn 1 (-(x ^ 2 / 4)))) (2 / π * ((j1 x - besselJR 1 x) * Real.log x))
  have l0 := mul_nonneg h0.le (abs_nonneg (Real.log x))
  refine t1.trans ?_
  have e2 : x * (5.3e-16 + 8.1e-16 * |Real.log x|) = x * 5.3e-16 + 8.1e-16 * (x * |Real.log x|) := by ring
  rw [e2]
  generalize x * |Real.log x| = w at *
  linarith

end Bes
end Verif
