import Verif.Proofs.BesselSer
import Verif.Tables.BesselZ
import Mathlib.Analysis.SpecialFunctions.Trigonometric.Deriv
import Mathlib.Analysis.SpecialFunctions.Sqrt
import Mathlib.Analysis.SpecialFunctions.ExpDeriv
import Mathlib.Analysis.Real.Pi.Bounds
import Mathlib.Analysis.Complex.ExponentialBounds

/-! The approximations of `j0` and `j1` for `x ≥ 8` in exact arithmetic: they satisfy the differential equations of the Bessel functions up to a
small residual, and an energy estimate turns this into a bound on the error. -/

namespace Verif
namespace Bes
open ZPoly Real

/-! ## the energy estimate -/

/-- Let `u0' = u0/(2x) - u1 + ρ0`, `u1' = u0 - u1/(2x) + ρ1` for `x ≥ 8` with `|ρi| ≤ r/x²`.  Then `u0² + u1²` stays small if it is at `8`. -/
theorem energy {u0 u1 ρ0 ρ1 : ℝ → ℝ} {r η : ℝ} (hr : 0 ≤ r)
    (h0 : ∀ x, 8 ≤ x → HasDerivAt u0 (u0 x / (2 * x) - u1 x + ρ0 x) x)
    (h1 : ∀ x, 8 ≤ x → HasDerivAt u1 (u0 x - u1 x / (2 * x) + ρ1 x) x)
    (b0 : ∀ x, 8 ≤ x → |ρ0 x| ≤ r / x ^ 2) (b1 : ∀ x, 8 ≤ x → |ρ1 x| ≤ r / x ^ 2)
    (i0 : |u0 8| ≤ η) (i1 : |u1 8| ≤ η) {x : ℝ} (hx : 8 ≤ x) : u0 x ^ 2 + u1 x ^ 2 ≤ 7.1 * η ^ 2 + 0.071 * r ^ 2 := by
  set k : ℝ := 136 / 15 with hk
  set b : ℝ := 289 / 1024 * r ^ 2 with hb
  set F : ℝ → ℝ := fun x => u0 x ^ 2 + u1 x ^ 2 - u0 x * u1 x / x with hF
  have hG : ∀ x, 8 ≤ x → 15 / 16 * (u0 x ^ 2 + u1 x ^ 2) ≤ F x := by
    intro x hx
    have : u0 x * u1 x / x ≤ (u0 x ^ 2 + u1 x ^ 2) / 16 := by
      rw [div_le_iff₀ (by linarith)]
      nlinarith [sq_nonneg (u0 x - u1 x), sq_nonneg (u0 x), sq_nonneg (u1 x)]
    simp only [hF]; linarith
  have hdF : ∀ x, 8 ≤ x → HasDerivAt F (u0 x * u1 x / x ^ 2 + ρ0 x * (2 * u0 x - u1 x / x) + ρ1 x * (2 * u1 x - u0 x / x)) x := by
    intro x hx
    have hx0 : x ≠ 0 := by linarith
    have d := (((h0 x hx).pow 2).add ((h1 x hx).pow 2)).sub (((h0 x hx).mul (h1 x hx)).div (hasDerivAt_id x) hx0)
    refine d.congr_deriv ?_
    simp only [id, Pi.mul_apply]
    field_simp
    ring
  have hF' : ∀ x, 8 ≤ x → u0 x * u1 x / x ^ 2 + ρ0 x * (2 * u0 x - u1 x / x) + ρ1 x * (2 * u1 x - u0 x / x) ≤ (k * F x + b) / x ^ 2 := by
    intro x hx
    have hx0 : 0 < x := by linarith
    have hq : ∀ u v ρ : ℝ, |ρ| ≤ r / x ^ 2 → ρ * (2 * u - v / x) ≤ r / x ^ 2 * (2 * |u| + |v| / 8) := by
      intro u v ρ h
      calc ρ * (2 * u - v / x) ≤ |ρ| * |2 * u - v / x| := by rw [← abs_mul]; exact le_abs_self _
        _ ≤ r / x ^ 2 * (2 * |u| + |v| / 8) := by
          refine mul_le_mul h ?_ (abs_nonneg _) (by positivity)
          calc |2 * u - v / x| ≤ |2 * u| + |v / x| := abs_sub _ _
            _ ≤ 2 * |u| + |v| / 8 := by
              rw [abs_mul, abs_div, abs_two, abs_of_pos hx0]
              gcongr
    have q0 := hq (u0 x) (u1 x) (ρ0 x) (b0 x hx)
    have q1 := hq (u1 x) (u0 x) (ρ1 x) (b1 x hx)
    have e : r / x ^ 2 * (2 * |u0 x| + |u1 x| / 8) + r / x ^ 2 * (2 * |u1 x| + |u0 x| / 8) = (17 / 8 * r * (|u0 x| + |u1 x|)) / x ^ 2 := by
      field_simp; ring
    have hg := hG x hx
    have m : u0 x * u1 x + 17 / 8 * r * (|u0 x| + |u1 x|) ≤ k * F x + b := by
      have h2 : k * F x ≥ 8.5 * (u0 x ^ 2 + u1 x ^ 2) := by rw [hk]; linarith
      have h3 : u0 x * u1 x ≤ (u0 x ^ 2 + u1 x ^ 2) / 2 := by nlinarith [sq_nonneg (u0 x - u1 x)]
      have h4 : ∀ u : ℝ, 17 / 8 * r * |u| ≤ 8 * u ^ 2 + 289 / 2048 * r ^ 2 := by
        intro u
        rw [← sq_abs u]
        nlinarith [sq_nonneg (|u| - 17 / 128 * r)]
      have := h4 (u0 x)
      have := h4 (u1 x)
      rw [hb]
      linarith
    calc _ ≤ u0 x * u1 x / x ^ 2 + (17 / 8 * r * (|u0 x| + |u1 x|)) / x ^ 2 := by linarith
      _ = (u0 x * u1 x + 17 / 8 * r * (|u0 x| + |u1 x|)) / x ^ 2 := by rw [add_div]
      _ ≤ _ := by gcongr
  have hanti : AntitoneOn (fun x => (F x + b / k) * Real.exp (k / x)) (Set.Ici 8) := by
    have hd : ∀ x, 8 ≤ x → HasDerivAt (fun x => (F x + b / k) * Real.exp (k / x))
        ((u0 x * u1 x / x ^ 2 + ρ0 x * (2 * u0 x - u1 x / x) + ρ1 x * (2 * u1 x - u0 x / x)) * Real.exp (k / x) +
          (F x + b / k) * (Real.exp (k / x) * (-k / x ^ 2))) x := by
      intro x hx
      have hx0 : x ≠ 0 := by linarith
      have d1 : HasDerivAt (fun x : ℝ => k / x) (-k / x ^ 2) x := by
        have := (hasDerivAt_inv hx0).const_mul k
        refine (this.congr_deriv ?_).congr_of_eventuallyEq ?_
        · field_simp
        · filter_upwards with z; rw [div_eq_mul_inv]
      exact ((hdF x hx).add_const _).mul d1.exp
    refine antitoneOn_of_deriv_nonpos (convex_Ici 8) (fun x hx => (hd x hx).continuousAt.continuousWithinAt) ?_ ?_
    · intro x hx; rw [interior_Ici] at hx; exact (hd x (le_of_lt hx)).differentiableAt.differentiableWithinAt
    · intro x hx
      rw [interior_Ici] at hx
      have hx8 : 8 ≤ x := le_of_lt hx
      rw [(hd x hx8).deriv]
      have h2 := hF' x hx8
      have e : (F x + b / k) * (Real.exp (k / x) * (-k / x ^ 2)) = -((k * F x + b) / x ^ 2 * Real.exp (k / x)) := by
        have : k ≠ 0 := by norm_num [hk]
        have : x ≠ 0 := by linarith
        field_simp
      rw [e]
      have := mul_le_mul_of_nonneg_right h2 (Real.exp_pos (k / x)).le
      linarith
  have hle := hanti (Set.mem_Ici.mpr le_rfl) (Set.mem_Ici.mpr hx) hx
  simp only at hle
  have hkx : 1 ≤ Real.exp (k / x) := Real.one_le_exp (by rw [hk]; positivity)
  have hk8 : Real.exp (k / 8) ≤ 3.11 := by
    have h3 : Real.exp (k / 8) = Real.exp 1 * Real.exp (2 / 15) := by rw [← Real.exp_add, hk]; norm_num
    have h4 : Real.exp (2 / 15) ≤ 1.1427 := by
      have := Real.exp_bound' (x := 2 / 15) (by norm_num) (by norm_num) (n := 4) (by norm_num)
      refine this.trans ?_
      norm_num [Finset.sum_range_succ, Nat.factorial]
    have h5 := Real.exp_one_lt_d9
    rw [h3]
    nlinarith [Real.exp_pos 1, Real.exp_pos (2 / 15)]
  have hbk : b / k = 289 / 1024 * r ^ 2 * (15 / 136) := by rw [hb, hk]; ring
  have hF8 : F 8 ≤ 2.125 * η ^ 2 := by
    simp only [hF]
    have a0 : u0 8 ^ 2 ≤ η ^ 2 := by rw [← sq_abs]; exact pow_le_pow_left₀ (abs_nonneg _) i0 2
    have a1 : u1 8 ^ 2 ≤ η ^ 2 := by rw [← sq_abs]; exact pow_le_pow_left₀ (abs_nonneg _) i1 2
    nlinarith [sq_nonneg (u0 8 + u1 8)]
  have hgx := hG x hx
  have hbk0 : 0 ≤ b / k := by rw [hbk]; positivity
  have hFx : 0 ≤ F x := le_trans (by positivity) hgx
  have hF80 : 0 ≤ F 8 := le_trans (by positivity) (hG 8 le_rfl)
  have h6 : F x + b / k ≤ (F 8 + b / k) * 3.11 := by
    calc F x + b / k ≤ (F x + b / k) * Real.exp (k / x) := le_mul_of_one_le_right (by positivity) hkx
      _ ≤ (F 8 + b / k) * Real.exp (k / 8) := hle
      _ ≤ _ := by gcongr
  rw [hbk] at h6
  nlinarith [sq_nonneg r, sq_nonneg η]

end Bes
end Verif
