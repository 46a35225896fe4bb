import Verif.SpecBesselY
import Verif.Proofs.BesselSer
import Mathlib.Analysis.SpecialFunctions.Log.Deriv

/-! The power series of the Bessel functions of the second kind: convergence and derivatives. -/

namespace Verif
namespace Bes
open Real

/-- `H_k` -/
noncomputable def hm (k : ℕ) : ℝ := ((harmonic k : ℚ) : ℝ)

theorem hm_zero : hm 0 = 0 := by simp [hm]
theorem hm_succ (k : ℕ) : hm (k + 1) = hm k + 1 / (k + 1) := by
  unfold hm; rw [harmonic_succ]; push_cast; rw [one_div]
theorem hm_nonneg : ∀ k, 0 ≤ hm k
  | 0 => by rw [hm_zero]
  | k + 1 => by rw [hm_succ]; have := hm_nonneg k; positivity
theorem hm_le : ∀ k, hm k ≤ k
  | 0 => by rw [hm_zero]; simp
  | k + 1 => by
    rw [hm_succ]
    have := hm_le k
    have : (1:ℝ) / (k + 1) ≤ 1 := by rw [div_le_one (by positivity)]; linarith [Nat.cast_nonneg (α := ℝ) k]
    push_cast; linarith
theorem hm_mono {m n : ℕ} (h : m ≤ n) : hm m ≤ hm n := by
  induction n, h using Nat.le_induction with
  | base => exact le_rfl
  | succ n _ ih => rw [hm_succ]; have : (0:ℝ) ≤ 1 / (n + 1) := by positivity
                   linarith
theorem hm_fact (k : ℕ) : hm k ≤ k.factorial := (hm_le k).trans (by exact_mod_cast Nat.self_le_factorial k)

/-- a power series -/
noncomputable def PS (c : ℕ → ℝ) (u : ℝ) : ℝ := ∑' k : ℕ, c k * u ^ k

theorem ps_bound {c : ℕ → ℝ} {B : ℝ} (hc : ∀ k, |c k| ≤ B / k.factorial) (u : ℝ) (k : ℕ) : ‖c k * u ^ k‖ ≤ B * (|u| ^ k / k.factorial) := by
  rw [Real.norm_eq_abs, abs_mul, abs_pow]
  have := mul_le_mul_of_nonneg_right (hc k) (by positivity : 0 ≤ |u| ^ k)
  refine this.trans (le_of_eq ?_); ring

theorem ps_summable {c : ℕ → ℝ} {B : ℝ} (hc : ∀ k, |c k| ≤ B / k.factorial) (u : ℝ) : Summable fun k => c k * u ^ k :=
  Summable.of_norm_bounded ((Real.summable_pow_div_factorial |u|).mul_left B) (ps_bound hc u)

theorem ps_dbound {c : ℕ → ℝ} {B : ℝ} (hc : ∀ k, |c k| ≤ B / k.factorial) (k : ℕ) : |((k:ℝ) + 1) * c (k + 1)| ≤ B / k.factorial := by
  rw [abs_mul, abs_of_pos (by positivity)]
  have h := mul_le_mul_of_nonneg_left (hc (k + 1)) (by positivity : (0:ℝ) ≤ (k:ℝ) + 1)
  refine h.trans (le_of_eq ?_)
  have := fpos k
  rw [Nat.factorial_succ]; push_cast; field_simp

theorem ps_deriv {c : ℕ → ℝ} {B : ℝ} (hc : ∀ k, |c k| ≤ B / k.factorial) (u : ℝ) :
    HasDerivAt (PS c) (PS (fun k => ((k:ℝ) + 1) * c (k + 1)) u) u := by
  set R := |u| + 1 with hR
  have hd := ps_dbound hc
  have key := hasDerivAt_tsum_of_isPreconnected (𝕜 := ℝ) (F := ℝ)
    (g := fun (k : ℕ) (y : ℝ) => c k * y ^ k)
    (g' := fun (k : ℕ) (y : ℝ) => c k * ((k : ℝ) * y ^ (k - 1)))
    (u := fun k : ℕ => |c k| * ((k : ℝ) * R ^ (k - 1))) (t := Metric.ball 0 R) (y₀ := 0) (y := u) ?_
    Metric.isOpen_ball (convex_ball 0 R).isPreconnected ?_ ?_ (by simp [R]; positivity) (ps_summable hc 0) (by simp [R])
  · have e : (∑' k : ℕ, c k * ((k : ℝ) * u ^ (k - 1))) = PS (fun k => ((k:ℝ) + 1) * c (k + 1)) u := by
      have hs : Summable fun k : ℕ => c k * ((k : ℝ) * u ^ (k - 1)) := by
        rw [← summable_nat_add_iff 1]
        refine (ps_summable hd u).congr fun k => ?_
        rw [Nat.add_sub_cancel]; push_cast; ring
      rw [hs.tsum_eq_zero_add]
      unfold PS
      simp only [Nat.cast_zero, zero_mul, mul_zero, zero_add]
      refine tsum_congr fun k => ?_
      rw [Nat.add_sub_cancel]; push_cast; ring
    rw [e] at key
    exact key
  · rw [← summable_nat_add_iff 1]
    have hd' : ∀ k, |(fun k : ℕ => |((k:ℝ) + 1) * c (k + 1)|) k| ≤ B / k.factorial := by intro k; rw [abs_abs]; exact hd k
    refine (ps_summable hd' R).congr fun k => ?_
    rw [Nat.add_sub_cancel, abs_mul, abs_of_pos (by positivity : (0:ℝ) < (k:ℝ) + 1)]; push_cast; ring
  · intro k y _
    exact (hasDerivAt_pow k y).const_mul _
  · intro k y hy
    have hy' : |y| ≤ R := by
      have := Metric.mem_ball.mp hy
      rw [Real.dist_eq, sub_zero] at this
      exact this.le
    rw [Real.norm_eq_abs, abs_mul, abs_mul, abs_pow, Nat.abs_cast]
    gcongr

/-- `∑ (H_k + H_{k+n}) u^k/(k!(k+n)!)` -/
noncomputable def shc (n k : ℕ) : ℝ := (hm k + hm (k + n)) / (k.factorial * (k + n).factorial : ℝ)
noncomputable def SH (n : ℕ) (u : ℝ) : ℝ := PS (shc n) u

theorem shc_bound (n k : ℕ) : |shc n k| ≤ 2 / k.factorial := by
  have h1 := fpos k
  have h2 := fpos (k + n)
  have h3 := hm_fact (k + n)
  have h4 := hm_mono (Nat.le_add_right k n)
  have h5 := hm_nonneg k
  have h6 := hm_nonneg (k + n)
  unfold shc
  rw [abs_of_nonneg (by positivity), div_le_div_iff₀ (by positivity) (by positivity)]
  nlinarith [mul_le_mul_of_nonneg_right (by linarith : hm k + hm (k+n) ≤ 2 * (k+n).factorial) (by linarith : (0:ℝ) ≤ k.factorial)]

theorem sh_summable (n : ℕ) (u : ℝ) : Summable fun k => shc n k * u ^ k := ps_summable (shc_bound n) u

theorem SB_ps (n : ℕ) (u : ℝ) : SB n u = PS (fun k => 1 / (k.factorial * (k + n).factorial : ℝ)) u := by
  unfold SB PS; refine tsum_congr fun k => ?_; ring

/-- `(u S_1)' = S_0` -/
theorem usb_deriv (u : ℝ) : HasDerivAt (fun u => u * SB 1 u) (SB 0 u) u := by
  have h := (hasDerivAt_id u).mul (sb_deriv 1 u)
  have hr := sb_rec 0 u
  refine h.congr_deriv ?_
  simp only [id] at *
  push_cast at hr
  linarith

/-- `∑ u^k/((k+1)!)²` -/
noncomputable def QQ (u : ℝ) : ℝ := PS (fun k => 1 / ((k + 1).factorial ^ 2 : ℝ)) u

theorem qq_bound (k : ℕ) : |1 / ((k + 1).factorial ^ 2 : ℝ)| ≤ 1 / k.factorial := by
  have h1 := fpos k
  rw [abs_of_pos (by positivity)]
  refine one_div_le_one_div_of_le (by linarith) ?_
  have h2 := fpos (k + 1)
  have : (k.factorial : ℝ) ≤ (k+1).factorial := by exact_mod_cast Nat.factorial_le (Nat.le_succ k)
  nlinarith

theorem u_QQ (u : ℝ) : u * QQ u = SB 0 u - 1 := by
  unfold QQ PS SB
  rw [(sb_summable 0 u).tsum_eq_zero_add, ← tsum_mul_left]
  simp only [Nat.factorial_zero, pow_zero, add_zero, Nat.cast_one, mul_one, div_one]
  rw [add_sub_cancel_left]
  refine tsum_congr fun k => ?_
  rw [pow_succ]; ring

theorem sh0_deriv (u : ℝ) : HasDerivAt (SH 0) (SH 1 u + QQ u) u := by
  have h := ps_deriv (shc_bound 0) u
  refine h.congr_deriv ?_
  unfold SH QQ PS
  rw [← (sh_summable 1 u).tsum_add (ps_summable qq_bound u)]
  refine tsum_congr fun k => ?_
  have h1 := fpos k
  unfold shc
  simp only [add_zero, hm_succ, Nat.factorial_succ]
  push_cast
  field_simp
  ring

theorem ush1_deriv (u : ℝ) : HasDerivAt (fun u => u * SH 1 u) (SH 0 u + SB 1 u) u := by
  have h := (hasDerivAt_id u).mul (ps_deriv (shc_bound 1) u)
  refine h.congr_deriv ?_
  have hs : Summable fun k : ℕ => (k:ℝ) * shc 1 k * u ^ k := by
    rw [← summable_nat_add_iff 1]
    refine ((ps_summable (ps_dbound (shc_bound 1)) u).mul_left u).congr fun k => ?_
    push_cast; ring
  have e : id u * PS (fun k => ((k:ℝ) + 1) * shc 1 (k + 1)) u = ∑' k : ℕ, (k:ℝ) * shc 1 k * u ^ k := by
    rw [hs.tsum_eq_zero_add]
    unfold PS
    rw [← tsum_mul_left]
    simp only [Nat.cast_zero, zero_mul, zero_add, id]
    refine tsum_congr fun k => ?_
    push_cast; ring
  rw [e, one_mul]
  rw [SB_ps]
  unfold SH PS
  rw [← (sh_summable 1 u).tsum_add hs, ← (sh_summable 0 u).tsum_add]
  · refine tsum_congr fun k => ?_
    have h1 := fpos k
    unfold shc
    simp only [add_zero, hm_succ, Nat.factorial_succ]
    push_cast
    field_simp
    ring
  · refine (sb_summable 1 u).congr fun k => ?_
    ring

/-! ## the Bessel functions of the second kind -/

theorem besselYR_eq (n : ℕ) (x : ℝ) : besselYR n x = 2 / π * Real.log (x / 2) * besselJR n x
    - 1 / π * ∑ k ∈ Finset.range n, ((n - k - 1).factorial / k.factorial : ℝ) * ((x / 2) ^ (2 * k) / (x / 2) ^ n)
    - 1 / π * ((x / 2) ^ n * (SH n (-(x ^ 2 / 4)) - 2 * Real.eulerMascheroniConstant * SB n (-(x ^ 2 / 4)))) := by
  unfold besselYR
  congr 2
  unfold SH PS SB
  rw [← tsum_mul_left, ← (sh_summable n _).tsum_sub ((sb_summable n _).mul_left _), ← tsum_mul_left]
  refine tsum_congr fun k => ?_
  rw [neg_pow (x ^ 2 / 4), show x ^ 2 / 4 = (x / 2) ^ 2 by ring, ← pow_mul, pow_add]
  unfold digammaNat shc hm
  rw [Nat.add_comm n k]
  ring

/-- `Y_0` -/
theorem Y0_eq (x : ℝ) : besselYR 0 x = 2 / π * ((Real.log (x / 2) + Real.eulerMascheroniConstant) * SB 0 (-(x ^ 2 / 4)) - SH 0 (-(x ^ 2 / 4)) / 2) := by
  rw [besselYR_eq, besselJR_eq]; simp; ring

theorem Y1_eq {x : ℝ} (hx : x ≠ 0) : besselYR 1 x = 2 / π * (-1 / x + (Real.log (x / 2) + Real.eulerMascheroniConstant) * (x / 2 * SB 1 (-(x ^ 2 / 4)))
    - x / 4 * SH 1 (-(x ^ 2 / 4))) := by
  rw [besselYR_eq, besselJR_eq]; simp; field_simp; ring

theorem u_deriv (x : ℝ) : HasDerivAt (fun x : ℝ => -(x ^ 2 / 4)) (-(x / 2)) x := by
  have h := ((hasDerivAt_pow 2 x).div_const 4).neg
  exact h.congr_deriv (by push_cast; ring)

theorem logh_deriv {x : ℝ} (hx : 0 < x) : HasDerivAt (fun x : ℝ => Real.log (x / 2) + Real.eulerMascheroniConstant) (1 / x) x := by
  have h := (((hasDerivAt_id x).div_const 2).log (by simp only [id]; positivity)).add_const Real.eulerMascheroniConstant
  refine h.congr_deriv ?_
  simp only [id]; field_simp

theorem Y0_deriv {x : ℝ} (hx : 0 < x) : HasDerivAt (besselYR 0) (-besselYR 1 x) x := by
  have e : besselYR 0 = fun x => 2 / π * ((Real.log (x / 2) + Real.eulerMascheroniConstant) * SB 0 (-(x ^ 2 / 4)) - SH 0 (-(x ^ 2 / 4)) / 2) :=
    funext Y0_eq
  have h := ((((logh_deriv hx).mul ((sb_deriv 0 _).comp x (u_deriv x))).sub (((sh0_deriv _).comp x (u_deriv x)).div_const 2)).const_mul (2 / π))
  rw [e, Y1_eq hx.ne']
  refine h.congr_deriv ?_
  have hq := u_QQ (-(x ^ 2 / 4))
  have hq' : QQ (-(x ^ 2 / 4)) = (1 - SB 0 (-(x ^ 2 / 4))) * 4 / x ^ 2 := by
    field_simp at hq ⊢; linarith
  simp only [Function.comp_apply]
  rw [hq']
  field_simp
  ring

theorem Y1_deriv {x : ℝ} (hx : 0 < x) : HasDerivAt (besselYR 1) (besselYR 0 x - besselYR 1 x / x) x := by
  have h1 := ((logh_deriv hx).mul ((usb_deriv _).comp x (u_deriv x))).const_mul (-2)
  have h2 := (ush1_deriv _).comp x (u_deriv x)
  have h3 := ((((h1.add h2).sub_const 1).const_mul (2 / π)).div (hasDerivAt_id x) hx.ne')
  have ev : besselYR 1 =ᶠ[nhds x] fun y => (2 / π * ((-2) * ((Real.log (y / 2) + Real.eulerMascheroniConstant) * (((fun u => u * SB 1 u) ∘ fun x => -(x ^ 2 / 4)) y))
      + (((fun u => u * SH 1 u) ∘ fun x => -(x ^ 2 / 4)) y) - 1)) / id y := by
    filter_upwards [lt_mem_nhds hx] with y hy
    rw [Y1_eq hy.ne']
    simp only [Function.comp_apply, id]
    field_simp
    ring
  refine (h3.congr_deriv ?_).congr_of_eventuallyEq ev
  rw [Y0_eq, Y1_eq hx.ne']
  simp only [Function.comp_apply, id, Pi.add_apply, Pi.mul_apply]
  field_simp
  ring

end Bes
end Verif
