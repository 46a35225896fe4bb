import Verif.Proofs.BesselLeft

/-! `j0`, `j1` for `|x| < 8` and `i0`, `i1` for `|x| < 15`, in exact arithmetic, against the power series. -/

namespace Verif
namespace Bes
open ZPoly

theorem ev_pos_of {p : List ℤ} {y : ℝ} (h : nonneg p = true) (h0 : 0 < p.headD 0) (hy : 0 ≤ y) : 0 < ev p y := by
  cases p with
  | nil => simp at h0
  | cons a p =>
    simp only [nonneg, Bool.and_eq_true] at h
    exact ev_pos a p y (by simpa using h0) h.2 hy

theorem sq_lt {x b : ℝ} (hx : |x| < b) : x ^ 2 < b ^ 2 := by
  rw [← sq_abs x]
  have := abs_nonneg x
  nlinarith

theorem j0_left_eq {x : ℝ} (hx : |x| < 8) : j0 x = (ev j0N (x ^ 2) / 10 ^ 61) / (ev J0Sz (x ^ 2) / 10 ^ 31) := by
  have h : (Arith.abs x <ᶠ (8.0:ℝ)) = true := by
    show decide (|x| < (8.0:ℝ)) = true
    rw [decide_eq_true_eq]; norm_num; exact hx
  unfold j0
  simp only [h, if_true, rat_exact, J0Rz_eq, J0Sz_eq]
  rw [j0N, ev_mul, ev_mul, ev_comp]
  simp only [ev, XJ00, XJ10]
  push_cast
  rw [show (64:ℝ) + x ^ 2 * (-1 + x ^ 2 * 0) = 64 - x ^ 2 by ring]
  congr 1
  ring

theorem j1_left_eq {x : ℝ} (hx : |x| < 8) : j1 x = x * ((ev j1N (x ^ 2) / 10 ^ 60) / (ev J1Sz (x ^ 2) / 10 ^ 31)) := by
  have h : (Arith.abs x <ᶠ (8.0:ℝ)) = true := by
    show decide (|x| < (8.0:ℝ)) = true
    rw [decide_eq_true_eq]; norm_num; exact hx
  unfold j1
  simp only [h, if_true, rat_exact, J1Rz_eq, J1Sz_eq]
  rw [j1N, ev_mul, ev_mul, ev_comp]
  simp only [ev, XJ01, XJ11]
  push_cast
  rw [show (64:ℝ) + x ^ 2 * (-1 + x ^ 2 * 0) = 64 - x ^ 2 by ring, ← mul_div_assoc]
  congr 1
  ring

theorem i0_left_eq {x : ℝ} (hx : |x| < 15) : i0 x = (ev I0Pz (x ^ 2) / 10 ^ 45) / (ev i0D (x ^ 2) / 10 ^ 28) := by
  have h : (Arith.abs x <ᶠ (15.0:ℝ)) = true := by
    show decide (|x| < (15.0:ℝ)) = true
    rw [decide_eq_true_eq]; norm_num; exact hx
  unfold i0
  simp only [h, if_true, poly_exact, I0Pz_eq, I0Qz_eq]
  rw [i0D, ev_comp]
  simp only [ev]
  push_cast
  rw [show (225:ℝ) + x ^ 2 * (-1 + x ^ 2 * 0) = 225.0 - x * x by norm_num; ring, pow_two]

theorem i1_left_eq {x : ℝ} (hx : |x| < 15) : i1 x = x * ((ev I1Pz (x ^ 2) / 10 ^ 46) / (ev i1D (x ^ 2) / 10 ^ 28)) := by
  have h : (Arith.abs x <ᶠ (15.0:ℝ)) = true := by
    show decide (|x| < (15.0:ℝ)) = true
    rw [decide_eq_true_eq]; norm_num; exact hx
  unfold i1
  simp only [h, if_true, poly_exact, I1Pz_eq, I1Qz_eq]
  rw [i1D, ev_comp]
  simp only [ev]
  push_cast
  rw [show (225:ℝ) + x ^ 2 * (-1 + x ^ 2 * 0) = 225.0 - x * x by norm_num; ring, pow_two]
  ring

theorem tailJ (n : ℕ) (hn : n ≤ 1) {y : ℝ} (hy0 : 0 ≤ y) (hy : y < 64) :
    2 * (|((-1:ℤ):ℝ) * y / 4| ^ 30 / ((30:ℕ).factorial * (30 + n).factorial : ℝ)) ≤ 1 / 10 ^ 27 := by
  have h1 : |((-1:ℤ):ℝ) * y / 4| ≤ 16 := by
    rw [abs_div, abs_mul]; norm_num; rw [abs_of_nonneg hy0]; linarith
  have h2 : |((-1:ℤ):ℝ) * y / 4| ^ 30 ≤ 16 ^ 30 := pow_le_pow_left₀ (abs_nonneg _) h1 30
  have h3 : ((30:ℕ).factorial * (30:ℕ).factorial : ℝ) ≤ ((30:ℕ).factorial * (30 + n).factorial : ℝ) := by
    gcongr; omega
  have h4 : (0:ℝ) < ((30:ℕ).factorial * (30:ℕ).factorial : ℝ) := by positivity
  calc 2 * (|((-1:ℤ):ℝ) * y / 4| ^ 30 / ((30:ℕ).factorial * (30 + n).factorial : ℝ)) ≤ 2 * (16 ^ 30 / ((30:ℕ).factorial * (30:ℕ).factorial : ℝ)) := by
        gcongr
    _ ≤ 1 / 10 ^ 27 := by norm_num [Nat.factorial]

theorem truncJ (n : ℕ) (hn : n ≤ 1) {x : ℝ} (hx : |x| < 8) : |SB n (-(x ^ 2 / 4)) - hs n (((-1:ℤ):ℝ) * x ^ 2 / 4) 29 0| ≤ 1 / 10 ^ 27 := by
  have hy : x ^ 2 < 64 := by have := sq_lt hx; linarith
  have hf : ((n.factorial : ℕ) : ℝ) = 1 := by interval_cases n <;> simp
  have ht := sb_trunc n 29 (((-1:ℤ):ℝ) * x ^ 2 / 4) (by
    rw [abs_div, abs_mul]; norm_num; linarith)
  rw [hf, div_one, show ((-1:ℤ):ℝ) * x ^ 2 / 4 = -(x ^ 2 / 4) by push_cast; ring] at ht
  have ht2 := tailJ n hn (sq_nonneg x) hy
  rw [show ((-1:ℤ):ℝ) * x ^ 2 / 4 = -(x ^ 2 / 4) by push_cast; ring] at ht2 ⊢
  exact ht.trans ht2

theorem j0_left {x : ℝ} (hx : |x| < 8) : |j0 x - besselJR 0 x| ≤ 1.001e-14 := by
  have hy : x ^ 2 < 64 := by have := sq_lt hx; linarith
  have hD := ev_pos_of (p := J0Sz) (y := x ^ 2) (by decide +kernel) (by decide +kernel) (sq_nonneg x)
  have h := left_abs 295 (10 ^ 14) (by norm_num) 1 j0N J0Sz 61 31 0 (-1) 29 4 8 j0_cert (x ^ 2) (sq_nonneg x) (by norm_num; exact hy) hD
  rw [← j0_left_eq hx] at h
  have ht := truncJ 0 (by norm_num) hx
  rw [besselJR_eq, pow_zero, one_mul]
  push_cast at h
  rw [one_mul] at h
  push_cast at ht
  rw [abs_le] at *
  constructor <;> norm_num at * <;> linarith

theorem j1_left {x : ℝ} (hx : |x| < 8) : |j1 x - besselJR 1 x| ≤ 1.26e-15 * |x| := by
  have hy : x ^ 2 < 64 := by have := sq_lt hx; linarith
  have hD := ev_pos_of (p := J1Sz) (y := x ^ 2) (by decide +kernel) (by decide +kernel) (sq_nonneg x)
  have h := left_abs 295 (4 * 10 ^ 14) (by norm_num) 2 j1N J1Sz 60 31 1 (-1) 29 4 8 j1_cert (x ^ 2) (sq_nonneg x) (by norm_num; exact hy) hD
  have ht := truncJ 1 (by norm_num) hx
  rw [besselJR_eq, pow_one, j1_left_eq hx]
  push_cast at h ht
  set q := (ev j1N (x ^ 2) / 10 ^ 60) / (ev J1Sz (x ^ 2) / 10 ^ 31)
  have e : x * q - x / 2 * SB 1 (-(x ^ 2 / 4)) = x * ((2 * q - SB 1 (-(x ^ 2 / 4))) / 2) := by ring
  rw [e, abs_mul, mul_comm]
  refine mul_le_mul_of_nonneg_right ?_ (abs_nonneg x)
  rw [abs_le] at *
  constructor <;> norm_num at * <;> linarith

theorem tailI (n : ℕ) (hn : n ≤ 1) {y : ℝ} (hy0 : 0 ≤ y) (hy : y < 225) :
    2 * (|((1:ℤ):ℝ) * y / 4| ^ 40 / ((40:ℕ).factorial * (40 + n).factorial : ℝ)) ≤ 1 / 10 ^ 24 := by
  have h1 : |((1:ℤ):ℝ) * y / 4| ≤ 225 / 4 := by
    rw [abs_div, abs_mul]; norm_num; rw [abs_of_nonneg hy0]; linarith
  have h2 : |((1:ℤ):ℝ) * y / 4| ^ 40 ≤ (225 / 4) ^ 40 := pow_le_pow_left₀ (abs_nonneg _) h1 40
  have h3 : ((40:ℕ).factorial * (40:ℕ).factorial : ℝ) ≤ ((40:ℕ).factorial * (40 + n).factorial : ℝ) := by
    gcongr; omega
  have h4 : (0:ℝ) < ((40:ℕ).factorial * (40:ℕ).factorial : ℝ) := by positivity
  calc 2 * (|((1:ℤ):ℝ) * y / 4| ^ 40 / ((40:ℕ).factorial * (40 + n).factorial : ℝ)) ≤ 2 * ((225 / 4) ^ 40 / ((40:ℕ).factorial * (40:ℕ).factorial : ℝ)) := by
        gcongr
    _ ≤ 1 / 10 ^ 24 := by norm_num [Nat.factorial]

theorem truncI (n : ℕ) (hn : n ≤ 1) {x : ℝ} (hx : |x| < 15) : |SB n (x ^ 2 / 4) - hs n (((1:ℤ):ℝ) * x ^ 2 / 4) 39 0| ≤ 1 / 10 ^ 24 := by
  have hy : x ^ 2 < 225 := by have := sq_lt hx; linarith
  have hf : ((n.factorial : ℕ) : ℝ) = 1 := by interval_cases n <;> simp
  have ht := sb_trunc n 39 (((1:ℤ):ℝ) * x ^ 2 / 4) (by
    rw [abs_div, abs_mul]; norm_num; linarith)
  rw [hf, div_one, show ((1:ℤ):ℝ) * x ^ 2 / 4 = (x ^ 2 / 4) by push_cast; ring] at ht
  have ht2 := tailI n hn (sq_nonneg x) hy
  rw [show ((1:ℤ):ℝ) * x ^ 2 / 4 = (x ^ 2 / 4) by push_cast; ring] at ht2 ⊢
  exact ht.trans ht2

theorem sb_ge_one (n : ℕ) (hn : n ≤ 1) {u : ℝ} (hu : 0 ≤ u) : 1 ≤ SB n u := by
  have hf : ((n.factorial : ℕ) : ℝ) = 1 := by interval_cases n <;> simp
  unfold SB
  have h := (sb_summable n u).sum_le_tsum {0} (fun i _ => by positivity)
  simp at h
  rw [hf] at h
  simpa using h

theorem i0_left {x : ℝ} (hx : |x| < 15) : |i0 x - besselIR 0 x| ≤ 2.51e-14 * besselIR 0 x := by
  have hy : x ^ 2 < 225 := by have := sq_lt hx; linarith
  have hD : 0 < ev i0D (x ^ 2) := by
    rw [i0D, ev_comp]
    refine ev_pos_of (p := I0Qz) (by decide +kernel) (by decide +kernel) ?_
    simp [ev]; linarith
  have h := left_rel 220 (4 * 10 ^ 13) (by norm_num) 1 I0Pz i0D 45 28 0 1 39 3 38 i0_cert (x ^ 2) (sq_nonneg x) (by norm_num; linarith) hD
  rw [← i0_left_eq hx] at h
  have ht := truncI 0 (by norm_num) hx
  rw [besselIR_eq, pow_zero, one_mul]
  have h1 := sb_ge_one 0 (by norm_num) (by positivity : 0 ≤ x ^ 2 / 4)
  push_cast at h ht
  rw [one_mul] at h
  rw [abs_le] at *
  constructor <;> norm_num at * <;> linarith

theorem i1_left {x : ℝ} (hx : |x| < 15) : |i1 x - besselIR 1 x| ≤ 1.01e-14 * |besselIR 1 x| := by
  have hy : x ^ 2 < 225 := by have := sq_lt hx; linarith
  have hD : 0 < ev i1D (x ^ 2) := by
    rw [i1D, ev_comp]
    refine ev_pos_of (p := I1Qz) (by decide +kernel) (by decide +kernel) ?_
    simp [ev]; linarith
  have h := left_rel 220 (10 ^ 14) (by norm_num) 2 I1Pz i1D 46 28 1 1 39 5 23 i1_cert (x ^ 2) (sq_nonneg x) (by norm_num; linarith) hD
  have ht := truncI 1 (by norm_num) hx
  have h1 := sb_ge_one 1 (by norm_num) (by positivity : 0 ≤ x ^ 2 / 4)
  rw [besselIR_eq, pow_one, i1_left_eq hx]
  push_cast at h ht
  set q := (ev I1Pz (x ^ 2) / 10 ^ 46) / (ev i1D (x ^ 2) / 10 ^ 28)
  have e : x * q - x / 2 * SB 1 (x ^ 2 / 4) = (x / 2) * (2 * q - SB 1 (x ^ 2 / 4)) := by ring
  rw [e, abs_mul, abs_mul, mul_left_comm, abs_of_pos (by linarith : 0 < SB 1 (x ^ 2 / 4))]
  refine mul_le_mul_of_nonneg_left ?_ (abs_nonneg _)
  rw [abs_le] at *
  constructor <;> norm_num at * <;> linarith

end Bes
end Verif
