import Verif.Proofs.BesselRight3
import Mathlib.Analysis.SpecialFunctions.Trigonometric.Series

/-! The values at `x = 8`, and the error of `j0`, `j1` for `x ≥ 8` in exact arithmetic. -/

namespace Verif
namespace Bes
open ZPoly Real

/-- truncation of a series whose terms at least halve from `m` on -/
theorem trunc_half {a : ℕ → ℝ} {S : ℝ} (h : HasSum a S) (m : ℕ) (hh : ∀ j, |a (j + m + 1)| ≤ |a (j + m)| * (1 / 2)) :
    |S - ∑ n ∈ Finset.range m, a n| ≤ 2 * |a m| := by
  have hb : ∀ j : ℕ, ‖a (j + m)‖ ≤ |a m| * (1 / 2) ^ j := by
    intro j
    induction j with
    | zero => simp
    | succ j ih =>
      rw [Real.norm_eq_abs] at *
      rw [show j + 1 + m = j + m + 1 by omega, pow_succ, ← mul_assoc]
      exact (hh j).trans (mul_le_mul_of_nonneg_right ih (by norm_num))
  have hg : HasSum (fun j : ℕ => |a m| * (1 / 2 : ℝ) ^ j) (|a m| * 2) := hasSum_geometric_two.mul_left _
  have h1 := tsum_of_norm_bounded hg hb
  rw [← h.tsum_eq, ← h.summable.sum_add_tsum_nat_add m, add_sub_cancel_left]
  rw [Real.norm_eq_abs] at h1
  linarith

theorem half_step {F p q d1 d2 : ℝ} (hF : F ≠ 0) (hd : 128 ≤ d1 * d2) (h1 : d1 ≠ 0) (h2 : d2 ≠ 0) :
    |q * (-1) * (p * 8 * 8) / (d1 * (d2 * F))| ≤ |q * p / F| * (1 / 2) := by
  have e : q * (-1) * (p * 8 * 8) / (d1 * (d2 * F)) = q * p / F * (-64 / (d1 * d2)) := by field_simp; norm_num
  rw [e, abs_mul]
  refine mul_le_mul_of_nonneg_left ?_ (abs_nonneg _)
  rw [abs_div, abs_of_pos (by linarith : 0 < d1 * d2), div_le_iff₀ (by linarith)]
  norm_num; linarith

theorem cos8 : |cos 8 - (-0.145500033808613525869)| ≤ 1e-20 := by
  have h := trunc_half (Real.hasSum_cos 8) 27 (by
    intro j
    rw [show 2 * (j + 27 + 1) = (2 * (j + 27)) + 1 + 1 by ring, Nat.factorial_succ, Nat.factorial_succ, pow_succ (8:ℝ), pow_succ (8:ℝ),
      pow_succ (-1:ℝ)]
    have hj : (0:ℝ) ≤ j := Nat.cast_nonneg j
    rw [Nat.cast_mul, Nat.cast_mul]
    refine half_step (by exact_mod_cast Nat.factorial_ne_zero _) ?_ (Nat.cast_ne_zero.mpr (by omega)) (Nat.cast_ne_zero.mpr (by omega))
    push_cast; nlinarith)
  have h2 : 2 * |(-1:ℝ) ^ 27 * 8 ^ (2 * 27) / ((2 * 27).factorial : ℕ)| ≤ 1e-21 := by norm_num [Nat.factorial]
  have h3 : |∑ n ∈ Finset.range 27, (-1:ℝ) ^ n * 8 ^ (2 * n) / ((2 * n).factorial : ℕ) - (-0.145500033808613525869)| ≤ 1e-21 := by
    norm_num [Finset.sum_range_succ, Nat.factorial]
  rw [abs_le] at *
  constructor <;> linarith [h.1, h.2, h3.1, h3.2]

theorem sin8 : |sin 8 - 0.989358246623381777808| ≤ 1e-20 := by
  have h := trunc_half (Real.hasSum_sin 8) 27 (by
    intro j
    rw [show 2 * (j + 27 + 1) + 1 = (2 * (j + 27) + 1) + 1 + 1 by ring, Nat.factorial_succ (2 * (j + 27) + 1 + 1), Nat.factorial_succ (2 * (j + 27) + 1), pow_succ (8:ℝ) (2 * (j + 27) + 1 + 1), pow_succ (8:ℝ) (2 * (j + 27) + 1),
      pow_succ (-1:ℝ)]
    have hj : (0:ℝ) ≤ j := Nat.cast_nonneg j
    rw [Nat.cast_mul, Nat.cast_mul]
    refine half_step (by exact_mod_cast Nat.factorial_ne_zero _) ?_ (Nat.cast_ne_zero.mpr (by omega)) (Nat.cast_ne_zero.mpr (by omega))
    push_cast; nlinarith)
  have h2 : 2 * |(-1:ℝ) ^ 27 * 8 ^ (2 * 27 + 1) / ((2 * 27 + 1).factorial : ℕ)| ≤ 1e-21 := by norm_num [Nat.factorial]
  have h3 : |∑ n ∈ Finset.range 27, (-1:ℝ) ^ n * 8 ^ (2 * n + 1) / ((2 * n + 1).factorial : ℕ) - 0.989358246623381777808| ≤ 1e-21 := by
    norm_num [Finset.sum_range_succ, Nat.factorial]
  rw [abs_le] at *
  constructor <;> linarith [h.1, h.2, h3.1, h3.2]

theorem J0_8 : |besselJR 0 8 - 0.171650807137553906091| ≤ 1e-20 := by
  have h := sb_trunc 0 29 (-16) (by norm_num)
  rw [besselJR_eq, pow_zero, one_mul, show -((8:ℝ) ^ 2 / 4) = -16 by norm_num]
  have h2 : 2 * (|(-16:ℝ)| ^ (29 + 1) / ((29 + 1 : ℕ).factorial * (29 + 1 + 0 : ℕ).factorial : ℝ)) ≤ 1e-21 := by
    norm_num [Nat.factorial]
  have h3 : |hs 0 (-16) 29 0 / ((0:ℕ).factorial : ℝ) - 0.171650807137553906091| ≤ 1e-21 := by
    norm_num [hs, Nat.factorial]
  rw [abs_le] at *
  constructor <;> linarith [h.1, h.2, h3.1, h3.2]

theorem J1_8 : |besselJR 1 8 - 0.234636346853914624381| ≤ 1e-20 := by
  have h := sb_trunc 1 29 (-16) (by norm_num)
  rw [besselJR_eq, pow_one, show -((8:ℝ) ^ 2 / 4) = -16 by norm_num]
  have h2 : 2 * (|(-16:ℝ)| ^ (29 + 1) / ((29 + 1 : ℕ).factorial * (29 + 1 + 1 : ℕ).factorial : ℝ)) ≤ 1e-22 := by
    norm_num [Nat.factorial]
  have h3 : |8 / 2 * (hs 1 (-16) 29 0 / ((1:ℕ).factorial : ℝ)) - 0.234636346853914624381| ≤ 1e-21 := by
    norm_num [hs, Nat.factorial]
  rw [abs_le] at *
  constructor <;> linarith [h.1, h.2, h3.1, h3.2]

theorem sqrt8pi : |√(8 * π) - 5.01325654926200100483| ≤ 1e-19 := by
  have h1 := Real.pi_gt_d20
  have h2 := Real.pi_lt_d20
  rw [abs_le]
  constructor
  · have : (5.01325654926200100473:ℝ) ≤ √(8 * π) := by
      apply Real.le_sqrt_of_sq_le; norm_num; linarith
    linarith
  · have : √(8 * π) ≤ 5.01325654926200100493 := by
      apply Real.sqrt_le_iff.mpr; constructor
      · norm_num
      · norm_num; linarith
    linarith

theorem tab8 : |rt A0 B0 8 - 0.998926852336330051872| ≤ 1e-20 ∧ |rt C0 D0 8 - (-0.015488193571221054134)| ≤ 1e-20 ∧
    |rt A1 B1 8 - 1.001798103396139853359| ≤ 1e-20 ∧ |rt C1 D1 8 - 0.046682403515064802588| ≤ 1e-20 := by
  have e : (64:ℝ) / 8 ^ 2 = 1 := by norm_num
  unfold rt
  rw [e]
  refine ⟨?_, ?_, ?_, ?_⟩
  · rw [A0, B0]; simp only [ev_add, ev_smul, J0PNz, J0PDz, ev]; norm_num
  · rw [C0, D0]; simp only [ev_add, ev_smul, J0QNz, J0QDz, ev]; norm_num
  · rw [A1, B1]; simp only [J1PNz, J1PDz, ev]; norm_num
  · rw [C1, D1]; simp only [ev_add, ev_smul, J1QNz, J1QDz, ev]; norm_num

theorem mul_close {a b a0 b0 : ℝ} (ha : |a - a0| ≤ 2e-19) (hb : |b - b0| ≤ 2e-19) (h1 : |a0| ≤ 6) (h2 : |b0| ≤ 6) : |a * b - a0 * b0| ≤ 1e-17 := by
  have e : a * b - a0 * b0 = (a - a0) * (b - b0) + a0 * (b - b0) + (a - a0) * b0 := by ring
  have e1 : |(a - a0) * (b - b0)| ≤ 2e-19 * 2e-19 := by rw [abs_mul]; gcongr
  have e2 : |a0 * (b - b0)| ≤ 6 * 2e-19 := by rw [abs_mul]; gcongr
  have e3 : |(a - a0) * b0| ≤ 2e-19 * 6 := by rw [abs_mul]; gcongr
  rw [e]
  have t1 := abs_add_le ((a - a0) * (b - b0) + a0 * (b - b0)) ((a - a0) * b0)
  have t2 := abs_add_le ((a - a0) * (b - b0)) (a0 * (b - b0))
  norm_num at *
  linarith

/-- `√(2/π)` -/
noncomputable def κ : ℝ := √(2 / π)

theorem κ_sq : κ ^ 2 = 2 / π := Real.sq_sqrt (by positivity)
theorem κ_pos : 0 < κ := Real.sqrt_pos.mpr (by positivity)
theorem κ_le : κ ≤ 0.8 := by
  apply Real.sqrt_le_iff.mpr
  have := Real.pi_gt_d20
  refine ⟨by norm_num, ?_⟩
  rw [div_le_iff₀ (by positivity)]
  norm_num; linarith

theorem κ_sqrtpi : κ * √2 / 2 * √π = 1 := by
  have h : κ * √π = √2 := by
    unfold κ
    rw [← Real.sqrt_mul (by positivity)]
    congr 1; field_simp
  have h2 : √2 * √2 = (2:ℝ) := Real.mul_self_sqrt (by norm_num)
  calc κ * √2 / 2 * √π = κ * √π * √2 / 2 := by ring
    _ = 1 := by rw [h, h2]; norm_num

theorem init (X c s P Q J : ℝ) (h : |(c + s) * P - (s - c) * Q - √(8 * π) * J| ≤ X) :
    |κ * ((c * (√2 / 2) + s * (√2 / 2)) * P - (s * (√2 / 2) - c * (√2 / 2)) * Q) - √8 * J| ≤ X := by
  have hp : 1 ≤ √π := by rw [Real.one_le_sqrt]; linarith [Real.pi_gt_three]
  have e : √π * (κ * ((c * (√2 / 2) + s * (√2 / 2)) * P - (s * (√2 / 2) - c * (√2 / 2)) * Q) - √8 * J) =
      (c + s) * P - (s - c) * Q - √(8 * π) * J := by
    rw [Real.sqrt_mul (by norm_num)]
    have := κ_sqrtpi
    linear_combination ((c + s) * P - (s - c) * Q) * this
  rw [← e, abs_mul, abs_of_pos (by linarith)] at h
  refine le_trans ?_ h
  exact le_mul_of_one_le_left (abs_nonneg _) hp

theorem init0 : |κ * S0 8 - √8 * besselJR 0 8| ≤ 1e-15 := by
  obtain ⟨t1, t2, t3, t4⟩ := tab8
  have hc := cos8
  have hs := sin8
  have hj := J0_8
  have hq := sqrt8pi
  unfold S0
  rw [cos_sub, sin_sub, cos_pi_div_four, sin_pi_div_four, show (8:ℝ) / 8 = 1 by norm_num, one_mul]
  refine init _ _ _ _ _ _ ?_
  have c1 : |(cos 8 + sin 8) - 0.843858212814768251939| ≤ 2e-19 := by
    rw [abs_le] at *; constructor <;> linarith [hc.1, hc.2, hs.1, hs.2]
  have c2 : |(sin 8 - cos 8) - 1.134858280431995303677| ≤ 2e-19 := by
    rw [abs_le] at *; constructor <;> linarith [hc.1, hc.2, hs.1, hs.2]
  have m1 := mul_close c1 (t1.trans (by norm_num)) (by norm_num) (by norm_num)
  have m2 := mul_close c2 (t2.trans (by norm_num)) (by norm_num) (by norm_num)
  have m3 := mul_close (hq.trans (by norm_num)) (hj.trans (by norm_num)) (by norm_num) (by norm_num)
  rw [abs_le] at *
  constructor <;> linarith [m1.1, m1.2, m2.1, m2.2, m3.1, m3.2]

theorem init1 : |κ * S1 8 - √8 * besselJR 1 8| ≤ 1e-15 := by
  obtain ⟨t1, t2, t3, t4⟩ := tab8
  have hc := cos8
  have hs := sin8
  have hj := J1_8
  have hq := sqrt8pi
  unfold S1
  rw [cos_sub, sin_sub, cos_pi_div_four, sin_pi_div_four, show (8:ℝ) / 8 = 1 by norm_num, one_mul]
  have e : ((sin 8 * (√2 / 2) - cos 8 * (√2 / 2)) * rt A1 B1 8 + (cos 8 * (√2 / 2) + sin 8 * (√2 / 2)) * rt C1 D1 8) =
     ((cos 8 * (√2 / 2) + sin 8 * (√2 / 2)) * rt C1 D1 8 - (sin 8 * (√2 / 2) - cos 8 * (√2 / 2)) * (-rt A1 B1 8)) := by ring
  rw [e]
  refine init _ _ _ _ _ _ ?_
  have c1 : |(cos 8 + sin 8) - 0.843858212814768251939| ≤ 2e-19 := by
    rw [abs_le] at *; constructor <;> linarith [hc.1, hc.2, hs.1, hs.2]
  have c2 : |(sin 8 - cos 8) - 1.134858280431995303677| ≤ 2e-19 := by
    rw [abs_le] at *; constructor <;> linarith [hc.1, hc.2, hs.1, hs.2]
  have m1 := mul_close c1 (t4.trans (by norm_num)) (by norm_num) (by norm_num)
  have m2 := mul_close c2 (t3.trans (by norm_num)) (by norm_num) (by norm_num)
  have m3 := mul_close (hq.trans (by norm_num)) (hj.trans (by norm_num)) (by norm_num) (by norm_num)
  rw [mul_neg]
  rw [abs_le] at *
  constructor <;> linarith [m1.1, m1.2, m2.1, m2.2, m3.1, m3.2]

theorem sqrtJ_deriv {J : ℝ → ℝ} {J' x : ℝ} (hx : 0 < x) (h : HasDerivAt J J' x) :
    HasDerivAt (fun x => √x * J x) (√x * J x / (2 * x) + √x * J') x := by
  have d := (Real.hasDerivAt_sqrt hx.ne').mul h
  refine d.congr_deriv ?_
  have hs : √x * √x = x := Real.mul_self_sqrt hx.le
  have hs0 : √x ≠ 0 := (Real.sqrt_pos.mpr hx).ne'
  have e : √x * J x / (2 * x) = √x * J x / (2 * (√x * √x)) := by rw [hs]
  rw [e]
  field_simp

/-- the corrected approximations are within `1.3e-12/√x` -/
theorem right_err {x : ℝ} (hx : 8 ≤ x) :
    |κ * S0 x - √x * besselJR 0 x| ≤ 1.3e-12 ∧ |κ * S1 x - √x * besselJR 1 x| ≤ 1.3e-12 := by
  have h := energy (u0 := fun x => κ * S0 x - √x * besselJR 0 x) (u1 := fun x => κ * S1 x - √x * besselJR 1 x)
    (ρ0 := fun x => κ * R0 x) (ρ1 := fun x => κ * R1 x) (r := 4.8e-12) (η := 1e-15) (by norm_num)
    (by
      intro x hx
      have hx0 : 0 < x := by linarith
      have d := ((S0_deriv hx0).const_mul κ).sub (sqrtJ_deriv hx0 (J0_deriv x))
      refine d.congr_deriv ?_
      field_simp; ring)
    (by
      intro x hx
      have hx0 : 0 < x := by linarith
      have d := ((S1_deriv hx0).const_mul κ).sub (sqrtJ_deriv hx0 (J1_deriv hx0.ne'))
      refine d.congr_deriv ?_
      field_simp; ring)
    (by
      intro x hx
      have := (R_bound hx).1
      rw [abs_mul, abs_of_pos κ_pos]
      calc κ * |R0 x| ≤ 0.8 * (6e-12 / x ^ 2) := by gcongr; exact κ_le
        _ = _ := by ring)
    (by
      intro x hx
      have := (R_bound hx).2
      rw [abs_mul, abs_of_pos κ_pos]
      calc κ * |R1 x| ≤ 0.8 * (6e-12 / x ^ 2) := by gcongr; exact κ_le
        _ = _ := by ring)
    init0 init1 hx
  constructor
  · apply abs_le_of_sq_le_sq _ (by norm_num)
    nlinarith [sq_nonneg (κ * S1 x - √x * besselJR 1 x)]
  · apply abs_le_of_sq_le_sq _ (by norm_num)
    nlinarith [sq_nonneg (κ * S0 x - √x * besselJR 0 x)]

end Bes
end Verif
