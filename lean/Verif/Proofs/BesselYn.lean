import Verif.Proofs.BesselY4
import Verif.Proofs.BesselJn

/-! `Y_n`: three-term recurrence, the Casoratian `J_{n+1} Y_n - J_n Y_{n+1} = 2/(πx)`, and the representation of
every solution of the recurrence by `J_n` and `Y_n`. -/

namespace Verif
namespace Bes
open Real

/-- the finite sum, times `(x/2)^n` -/
noncomputable def GY (n : ℕ) (y : ℝ) : ℝ := ∑ k ∈ Finset.range n, ((n - k - 1).factorial / k.factorial : ℝ) * y ^ k

theorem GY_rec (n : ℕ) (y : ℝ) : GY (n + 2) y + y * GY n y = (n + 1) * GY (n + 1) y + y ^ (n + 1) / (n + 1).factorial := by
  unfold GY
  rw [Finset.sum_range_succ (n := n + 1), Finset.sum_range_succ' (n := n), Finset.sum_range_succ' (n := n), Finset.mul_sum, mul_add, Finset.mul_sum]
  have e : ∑ k ∈ Finset.range n, (((n + 2) - (k + 1) - 1).factorial / (k + 1).factorial : ℝ) * y ^ (k + 1)
      + ∑ k ∈ Finset.range n, y * (((n - k - 1).factorial / k.factorial : ℝ) * y ^ k)
      = ∑ k ∈ Finset.range n, ((n:ℝ) + 1) * ((((n + 1) - (k + 1) - 1).factorial / (k + 1).factorial : ℝ) * y ^ (k + 1)) := by
    rw [← Finset.sum_add_distrib]
    refine Finset.sum_congr rfl fun k hk => ?_
    obtain ⟨m, rfl⟩ : ∃ m, n = m + k + 1 := ⟨n - k - 1, by have := Finset.mem_range.1 hk; omega⟩
    rw [show m + k + 1 + 2 - (k + 1) - 1 = m + 1 by omega, show m + k + 1 - k - 1 = m by omega, show m + k + 1 + 1 - (k + 1) - 1 = m by omega,
      Nat.factorial_succ k, Nat.factorial_succ m]
    have hk0 : (k.factorial : ℝ) ≠ 0 := by positivity
    have hk1 : ((k:ℝ) + 1) ≠ 0 := by positivity
    push_cast
    field_simp
    ring
  have e2 : ((n + 2 - (n + 1) - 1).factorial : ℝ) = 1 := by rw [show n + 2 - (n + 1) - 1 = 0 by omega]; simp
  have e3 : ((n + 2 - 0 - 1).factorial : ℝ) = (n + 1) * (n + 1 - 0 - 1).factorial := by
    rw [show n + 2 - 0 - 1 = n + 1 by omega, show n + 1 - 0 - 1 = n by omega, Nat.factorial_succ]; push_cast; ring
  rw [e2, e3]
  simp only [Nat.factorial_zero, Nat.cast_one, div_one, pow_zero, mul_one] at *
  rw [div_eq_mul_one_div (y ^ (n + 1)), mul_comm (y ^ (n + 1))]
  linarith

theorem shc_rec (n k : ℕ) : ((n:ℝ) + 1) * shc (n + 1) (k + 1) + shc (n + 2) k = shc n (k + 1) := by
  unfold shc
  rw [show k + 1 + (n + 1) = k + 1 + n + 1 by ring, show k + (n + 2) = k + 1 + n + 1 by ring, hm_succ (k + 1 + n), hm_succ k,
    Nat.factorial_succ (k + 1 + n), Nat.factorial_succ k]
  have h1 : (k.factorial : ℝ) ≠ 0 := by positivity
  have h2 : ((k + 1 + n).factorial : ℝ) ≠ 0 := by positivity
  have h3 : ((k:ℝ) + 1) ≠ 0 := by positivity
  have h4 : ((k:ℝ) + 1 + n + 1) ≠ 0 := by positivity
  push_cast
  field_simp
  ring

theorem SH_rec (n : ℕ) (u : ℝ) : ((n:ℝ) + 1) * SH (n + 1) u + u * SH (n + 2) u = SH n u + 1 / (n + 1).factorial := by
  unfold SH PS
  rw [(sh_summable n u).tsum_eq_zero_add, (sh_summable (n + 1) u).tsum_eq_zero_add, mul_add, ← tsum_mul_left, ← tsum_mul_left, add_assoc,
    ← Summable.tsum_add]
  · have e : ((n:ℝ) + 1) * (shc (n + 1) 0 * u ^ 0) = shc n 0 * u ^ 0 + 1 / (n + 1).factorial := by
      unfold shc
      rw [zero_add, zero_add, hm_succ, Nat.factorial_succ, hm_zero]
      have h2 := fpos n
      have h3 : ((n:ℝ) + 1) ≠ 0 := by positivity
      push_cast
      simp only [Nat.factorial_zero, Nat.cast_one, one_mul, pow_zero, mul_one, zero_add]
      field_simp
    rw [e, add_right_comm]
    congr 1
    congr 1
    refine tsum_congr fun k => ?_
    rw [← shc_rec n k]; ring
  · exact ((summable_nat_add_iff 1).mpr (sh_summable (n + 1) u)).mul_left _
  · exact (sh_summable (n + 2) u).mul_left _

/-- `Y_n` with the powers of `x/2` collected -/
theorem besselYR_G (n : ℕ) (x : ℝ) : besselYR n x = 2 / π * (Real.log (x / 2) + Real.eulerMascheroniConstant) * ((x / 2) ^ n * SB n (-(x ^ 2 / 4)))
    - 1 / π * (GY n ((x / 2) ^ 2) / (x / 2) ^ n) - 1 / π * ((x / 2) ^ n * SH n (-(x ^ 2 / 4))) := by
  rw [besselYR_eq, besselJR_eq]
  have e : ∑ k ∈ Finset.range n, ((n - k - 1).factorial / k.factorial : ℝ) * ((x / 2) ^ (2 * k) / (x / 2) ^ n) = GY n ((x / 2) ^ 2) / (x / 2) ^ n := by
    unfold GY
    rw [Finset.sum_div]
    refine Finset.sum_congr rfl fun k _ => ?_
    rw [← pow_mul]; ring
  rw [e]; ring

theorem Y_rec (k : ℕ) {x : ℝ} (hx : 0 < x) : besselYR (k + 2) x = (k + 1 : ℕ) * (2 / x) * besselYR (k + 1) x - besselYR k x := by
  have r1 := sb_rec k (-(x ^ 2 / 4))
  have r2 := SH_rec k (-(x ^ 2 / 4))
  have r3 := GY_rec k ((x / 2) ^ 2)
  rw [besselYR_G, besselYR_G, besselYR_G]
  have hu : -(x ^ 2 / 4) = -((x / 2) ^ 2) := by ring
  rw [hu] at r1 r2 ⊢
  have h2 : 2 / x = 1 / (x / 2) := by field_simp
  rw [h2]
  have hh : 0 < x / 2 := by positivity
  generalize x / 2 = h at *
  generalize SB k (-(h ^ 2)) = b0 at *
  generalize SB (k + 1) (-(h ^ 2)) = b1 at *
  generalize SB (k + 2) (-(h ^ 2)) = b2 at *
  generalize SH k (-(h ^ 2)) = s0 at *
  generalize SH (k + 1) (-(h ^ 2)) = s1 at *
  generalize SH (k + 2) (-(h ^ 2)) = s2 at *
  generalize GY k (h ^ 2) = g0 at *
  generalize GY (k + 1) (h ^ 2) = g1 at *
  generalize GY (k + 2) (h ^ 2) = g2 at *
  have hf : (((k + 1).factorial : ℕ) : ℝ) ≠ 0 := by positivity
  generalize (((k + 1).factorial : ℕ) : ℝ) = F at *
  generalize Real.log h + Real.eulerMascheroniConstant = l at *
  have eg : g2 = (k + 1) * g1 + (h ^ 2) ^ (k + 1) / F - h ^ 2 * g0 := by linarith
  have eb : b0 = (k + 1) * b1 + -(h ^ 2) * b2 := by linarith
  have es : s0 = (k + 1) * s1 + -(h ^ 2) * s2 - 1 / F := by linarith
  rw [eg, eb, es, ← pow_mul]
  push_cast
  have hp : π ≠ 0 := Real.pi_ne_zero
  field_simp
  ring

/-- the Casoratian at order 0 -/
noncomputable def casYJ (x : ℝ) : ℝ :=
  SB 0 (-(x ^ 2 / 4)) + x ^ 2 / 4 * (SB 0 (-(x ^ 2 / 4)) * SH 1 (-(x ^ 2 / 4)) - SB 1 (-(x ^ 2 / 4)) * SH 0 (-(x ^ 2 / 4)))

theorem cas_eq {x : ℝ} (hx : 0 < x) : x * (besselJR 1 x * besselYR 0 x - besselJR 0 x * besselYR 1 x) = 2 / π * casYJ x := by
  rw [Y0_eq, Y1_eq hx.ne', besselJR_eq, besselJR_eq, casYJ]
  field_simp
  ring

theorem cas_deriv {x : ℝ} (hx : 0 < x) : HasDerivAt (fun x => x * (besselJR 1 x * besselYR 0 x - besselJR 0 x * besselYR 1 x)) 0 x := by
  have h := (hasDerivAt_id x).mul (((J1_deriv hx.ne').mul (Y0_deriv hx)).sub ((J0_deriv x).mul (Y1_deriv hx)))
  refine h.congr_deriv ?_
  simp only [id, Pi.mul_apply, Pi.sub_apply]
  field_simp
  ring

theorem SH_cont (n : ℕ) : Continuous (SH n) :=
  continuous_iff_continuousAt.2 fun u => (ps_deriv (shc_bound n) u).continuousAt

theorem SB_cont (n : ℕ) : Continuous (SB n) :=
  continuous_iff_continuousAt.2 fun u => (sb_deriv n u).continuousAt

theorem cas_cont : Continuous casYJ := by
  unfold casYJ
  have := SB_cont 0
  have := SB_cont 1
  have := SH_cont 0
  have := SH_cont 1
  fun_prop

theorem cas_one {x : ℝ} (hx : 0 < x) : casYJ x = 1 := by
  have hd : ∀ y ∈ Set.Ioo 0 x, HasDerivAt casYJ 0 y := by
    intro y hy
    have h := (cas_deriv hy.1).const_mul (π / 2)
    rw [mul_zero] at h
    refine h.congr_of_eventuallyEq ?_
    filter_upwards [lt_mem_nhds hy.1] with z hz
    rw [cas_eq hz]
    have hp : π ≠ 0 := Real.pi_ne_zero
    field_simp
  obtain ⟨c, hc, e⟩ := exists_hasDerivAt_eq_slope casYJ (fun _ => 0) hx cas_cont.continuousOn hd
  have h0 : casYJ 0 = 1 := by
    have : SB 0 0 = 1 := by
      have := u_QQ 0
      linarith
    unfold casYJ; simp [this]
  rw [eq_div_iff (by linarith)] at e
  linarith

theorem casoratian {x : ℝ} (hx : 0 < x) : ∀ n, besselJR (n + 1) x * besselYR n x - besselJR n x * besselYR (n + 1) x = 2 / (π * x)
  | 0 => by
    have h := cas_eq hx
    rw [cas_one hx, mul_one] at h
    have hp : π ≠ 0 := Real.pi_ne_zero
    rw [eq_div_iff (by positivity)]
    rw [eq_div_iff hp] at h
    linarith
  | n + 1 => by
    have ih := casoratian hx n
    rw [show n + 1 + 1 = n + 2 by ring, J_rec n hx.ne', Y_rec n hx]
    rw [← ih]; ring

/-- the coefficients of the solution of the recurrence with the first two values `e0`, `e1` -/
noncomputable def caJ (x e0 e1 : ℝ) : ℝ := π * x / 2 * (e1 * besselYR 0 x - e0 * besselYR 1 x)
noncomputable def caY (x e0 e1 : ℝ) : ℝ := π * x / 2 * (e0 * besselJR 1 x - e1 * besselJR 0 x)

/-- every solution of the recurrence -/
theorem sol_eq {x : ℝ} (hx : 0 < x) {e : ℕ → ℝ} (hr : ∀ k, e (k + 2) = (k + 1 : ℕ) * (2 / x) * e (k + 1) - e k) :
    ∀ n, e n = caJ x (e 0) (e 1) * besselJR n x + caY x (e 0) (e 1) * besselYR n x := by
  have c := casoratian hx 0
  have hc : π * x / 2 * (besselJR 1 x * besselYR 0 x - besselJR 0 x * besselYR 1 x) = 1 := by
    rw [c]; have hp : π ≠ 0 := Real.pi_ne_zero
    field_simp
  intro n
  induction n using Nat.strong_induction_on with
  | _ n ih =>
    rcases n with _ | _ | n
    · unfold caJ caY
      linear_combination (-(e 0)) * hc
    · unfold caJ caY
      linear_combination (-(e 1)) * hc
    · rw [hr n, ih (n + 1) (by omega), ih n (by omega), J_rec n hx.ne', Y_rec n hx]
      ring

end Bes
end Verif
