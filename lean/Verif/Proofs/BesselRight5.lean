import Verif.Proofs.BesselRight4

/-! The model's `j0`, `j1` in exact arithmetic. -/

namespace Verif
namespace Bes
open ZPoly Real

theorem J0_even (x : ℝ) : besselJR 0 (-x) = besselJR 0 x := by rw [besselJR_eq, besselJR_eq]; simp
theorem J1_odd (x : ℝ) : besselJR 1 (-x) = -besselJR 1 x := by rw [besselJR_eq, besselJR_eq]; simp; ring

theorem J0_abs (x : ℝ) : besselJR 0 |x| = besselJR 0 x := by
  rcases abs_choice x with h | h <;> rw [h]
  exact J0_even x

theorem hat_P0 {y : ℝ} (hy : 0 ≤ y) : polySum y J0PN / polySum y J0PD = ev A0 y / ev B0 y - 1e-16 := by
  have h : 0 < ev J0PDz y := ev_pos_of (by decide +kernel) (by decide +kernel) hy
  rw [J0PNz_eq, J0PDz_eq, A0, B0, ev_add, ev_smul, ev_smul]
  push_cast; field_simp; ring
theorem hat_Q0 {y : ℝ} (hy : 0 ≤ y) : polySum y J0QN / polySum y J0QD = ev C0 y / ev D0 y + 8e-17 := by
  have h : 0 < ev J0QDz y := ev_pos_of (by decide +kernel) (by decide +kernel) hy
  rw [J0QNz_eq, J0QDz_eq, C0, D0, ev_add, ev_smul, ev_smul, ev_smul]
  push_cast; field_simp; ring
theorem hat_P1 {y : ℝ} (hy : 0 ≤ y) : polySum y J1PN / polySum y J1PD = ev A1 y / ev B1 y := by
  have h : 0 < ev J1PDz y := ev_pos_of (by decide +kernel) (by decide +kernel) hy
  rw [J1PNz_eq, J1PDz_eq, A1, B1]
  field_simp
theorem hat_Q1 {y : ℝ} (hy : 0 ≤ y) : polySum y J1QN / polySum y J1QD = ev C1 y / ev D1 y - 9e-17 := by
  have h : 0 < ev J1QDz y := ev_pos_of (by decide +kernel) (by decide +kernel) hy
  rw [J1QNz_eq, J1QDz_eq, C1, D1, ev_add, ev_smul, ev_smul, ev_smul]
  push_cast; field_simp; ring

/-- the asymptotic form, with the original tables -/
theorem asy0 {a : ℝ} (ha : 8 ≤ a) :
    |√(2 / π / a) * (cos (a - π / 4) * polySum ((8 / a) ^ 2) J0PN / polySum ((8 / a) ^ 2) J0PD -
      8 / a * sin (a - π / 4) * polySum ((8 / a) ^ 2) J0QN / polySum ((8 / a) ^ 2) J0QD) - besselJR 0 a| ≤ 1.301e-12 / √a := by
  have ha0 : 0 < a := by linarith
  have hs : 0 < √a := Real.sqrt_pos.mpr ha0
  have hz0 : 0 < 8 / a := by positivity
  have hz1 : 8 / a ≤ 1 := by rw [div_le_one ha0]; exact ha
  obtain ⟨h, -⟩ := right_err ha
  rw [Real.sqrt_div (by positivity), ← κ, mul_div_assoc, mul_div_assoc, hat_P0 (by positivity), hat_Q0 (by positivity)]
  have ey : (8 / a) ^ 2 = 64 / a ^ 2 := by rw [div_pow]; norm_num
  rw [ey]
  have e : κ / √a * (cos (a - π / 4) * (ev A0 (64 / a ^ 2) / ev B0 (64 / a ^ 2) - 1e-16) -
      8 / a * sin (a - π / 4) * (ev C0 (64 / a ^ 2) / ev D0 (64 / a ^ 2) + 8e-17)) - besselJR 0 a =
      ((κ * S0 a - √a * besselJR 0 a) - κ * (cos (a - π / 4) * 1e-16 + sin (a - π / 4) * (8 / a * 8e-17))) / √a := by
    unfold S0 rt
    field_simp
    ring
  rw [e, abs_div, abs_of_pos hs]
  refine div_le_div_of_nonneg_right ?_ hs.le
  have hb := cs_bound (cos (a - π / 4)) (sin (a - π / 4)) 1e-16 (8 / a * 8e-17) 1e-16 (cos_sq_add_sin_sq _)
    (by rw [abs_of_pos] <;> norm_num) (by
      rw [abs_of_pos (by positivity)]; norm_num at *; linarith)
  have hk : |κ * (cos (a - π / 4) * 1e-16 + sin (a - π / 4) * (8 / a * 8e-17))| ≤ 0.8 * (1.5 * 1e-16) := by
    rw [abs_mul, abs_of_pos κ_pos]
    have := κ_le
    gcongr
  have := abs_sub (κ * S0 a - √a * besselJR 0 a) (κ * (cos (a - π / 4) * 1e-16 + sin (a - π / 4) * (8 / a * 8e-17)))
  norm_num at *
  linarith

theorem asy1 {a : ℝ} (ha : 8 ≤ a) :
    |√(2 / π / a) * (cos (a - 3 * (π / 4)) * polySum ((8 / a) ^ 2) J1PN / polySum ((8 / a) ^ 2) J1PD -
      8 / a * sin (a - 3 * (π / 4)) * polySum ((8 / a) ^ 2) J1QN / polySum ((8 / a) ^ 2) J1QD) - besselJR 1 a| ≤ 1.301e-12 / √a := by
  have ha0 : 0 < a := by linarith
  have hs : 0 < √a := Real.sqrt_pos.mpr ha0
  have hz0 : 0 < 8 / a := by positivity
  have hz1 : 8 / a ≤ 1 := by rw [div_le_one ha0]; exact ha
  obtain ⟨-, h⟩ := right_err ha
  have hcos : cos (a - 3 * (π / 4)) = sin (a - π / 4) := by
    rw [show a - 3 * (π / 4) = (a - π / 4) - π / 2 by ring, cos_sub_pi_div_two]
  have hsin : sin (a - 3 * (π / 4)) = -cos (a - π / 4) := by
    rw [show a - 3 * (π / 4) = (a - π / 4) - π / 2 by ring, sin_sub_pi_div_two]
  rw [hcos, hsin]
  rw [Real.sqrt_div (by positivity), ← κ, mul_div_assoc, mul_div_assoc, hat_P1 (by positivity), hat_Q1 (by positivity)]
  have ey : (8 / a) ^ 2 = 64 / a ^ 2 := by rw [div_pow]; norm_num
  rw [ey]
  have e : κ / √a * (sin (a - π / 4) * (ev A1 (64 / a ^ 2) / ev B1 (64 / a ^ 2)) -
      8 / a * -cos (a - π / 4) * (ev C1 (64 / a ^ 2) / ev D1 (64 / a ^ 2) - 9e-17)) - besselJR 1 a =
      ((κ * S1 a - √a * besselJR 1 a) - κ * (cos (a - π / 4) * (8 / a * 9e-17) + sin (a - π / 4) * 0)) / √a := by
    unfold S1 rt
    field_simp
    ring
  rw [e, abs_div, abs_of_pos hs]
  refine div_le_div_of_nonneg_right ?_ hs.le
  have hb := cs_bound (cos (a - π / 4)) (sin (a - π / 4)) (8 / a * 9e-17) 0 1e-16 (cos_sq_add_sin_sq _)
    (by rw [abs_of_pos (by positivity)]; norm_num at *; linarith) (by norm_num)
  have hk : |κ * (cos (a - π / 4) * (8 / a * 9e-17) + sin (a - π / 4) * 0)| ≤ 0.8 * (1.5 * 1e-16) := by
    rw [abs_mul, abs_of_pos κ_pos]
    have := κ_le
    gcongr
  have := abs_sub (κ * S1 a - √a * besselJR 1 a) (κ * (cos (a - π / 4) * (8 / a * 9e-17) + sin (a - π / 4) * 0))
  norm_num at *
  linarith

theorem j0_right {x : ℝ} (hx : 8 ≤ |x|) : |j0 x - besselJR 0 x| ≤ 1.301e-12 / √|x| := by
  have h : (Arith.abs x <ᶠ (8.0:ℝ)) = false := by
    show decide (|x| < (8.0:ℝ)) = false
    rw [decide_eq_false_iff_not]; norm_num; exact hx
  rw [← J0_abs]
  refine le_trans (le_of_eq ?_) (asy0 hx)
  congr 2
  unfold j0
  simp only [h, asp_exact]
  rw [one0, one_mul]
  rfl

theorem j1_right {x : ℝ} (hx : 8 ≤ |x|) : |j1 x - besselJR 1 x| ≤ 1.301e-12 / √|x| := by
  have h : (Arith.abs x <ᶠ (8.0:ℝ)) = false := by
    show decide (|x| < (8.0:ℝ)) = false
    rw [decide_eq_false_iff_not]; norm_num; exact hx
  have ha := asy1 hx
  have e : j1 x = if x < 0 then -(√(2 / π / |x|) * (cos (|x| - 3 * (π / 4)) * polySum ((8 / |x|) ^ 2) J1PN / polySum ((8 / |x|) ^ 2) J1PD -
      8 / |x| * sin (|x| - 3 * (π / 4)) * polySum ((8 / |x|) ^ 2) J1QN / polySum ((8 / |x|) ^ 2) J1QD)) else
      (√(2 / π / |x|) * (cos (|x| - 3 * (π / 4)) * polySum ((8 / |x|) ^ 2) J1PN / polySum ((8 / |x|) ^ 2) J1PD -
      8 / |x| * sin (|x| - 3 * (π / 4)) * polySum ((8 / |x|) ^ 2) J1QN / polySum ((8 / |x|) ^ 2) J1QD)) := by
    unfold j1
    simp only [h, asp_exact]
    rw [show (3.0:ℝ) = 3 by norm_num]
    have hz : (x <ᶠ (0.0:ℝ)) = decide (x < 0) := by
      show decide (x < (0.0:ℝ)) = _
      norm_num
    rw [hz]
    simp only [decide_eq_true_eq]
    rfl
  rw [e]
  split
  · rename_i hneg
    have e2 : besselJR 1 x = -besselJR 1 |x| := by rw [abs_of_neg hneg, J1_odd, neg_neg]
    rw [e2, ← neg_add', abs_neg, ← sub_eq_add_neg]
    exact ha
  · rename_i hneg
    rw [abs_of_nonneg (not_lt.mp hneg)] at *
    exact ha

end Bes
end Verif
