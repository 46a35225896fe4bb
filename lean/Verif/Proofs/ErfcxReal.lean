import Verif.SpecFun
import Mathlib.Analysis.Calculus.MeanValue
import Mathlib.MeasureTheory.Integral.IntegralEqImproper

/-! # Real analysis for erfc and erfcx: derivative, positivity, an upper bound, and propagation of errors along the differential equation -/

namespace Verif
open MeasureTheory Filter Topology

/-- `2/√π` -/
noncomputable def kap : ℝ := 2 / Real.sqrt Real.pi

theorem kap_pos : 0 < kap := div_pos two_pos (Real.sqrt_pos.2 Real.pi_pos)

theorem gauss_cont : Continuous (fun t : ℝ => Real.exp (-t^2)) := by fun_prop

theorem erfcR_deriv (x : ℝ) : HasDerivAt erfcR (-(kap * Real.exp (-x^2))) x := by
  have h := intervalIntegral.integral_hasDerivAt_right (gauss_cont.intervalIntegrable 0 x)
    (gauss_cont.stronglyMeasurableAtFilter _ _) gauss_cont.continuousAt
  have h2 := (h.const_mul kap).const_sub 1
  exact h2

theorem erfcxR_deriv (x : ℝ) : HasDerivAt erfcxR (2 * x * erfcxR x - kap) x := by
  have h1 : HasDerivAt (fun x : ℝ => Real.exp (x^2)) (Real.exp (x^2) * (2 * x)) x := by
    have := (hasDerivAt_pow 2 x).exp
    simpa using this
  have h := h1.mul (erfcR_deriv x)
  refine h.congr_deriv ?_
  unfold erfcxR
  have : Real.exp (x^2) * Real.exp (-x^2) = 1 := by rw [← Real.exp_add]; simp
  have e2 : Real.exp (x^2) * -(kap * Real.exp (-x^2)) = -kap * (Real.exp (x^2) * Real.exp (-x^2)) := by ring
  rw [e2, this]; ring

theorem erfcR_tendsto : Tendsto erfcR atTop (𝓝 0) := by
  have hi : IntegrableOn (fun t : ℝ => Real.exp (-t^2)) (Set.Ioi 0) := by
    have := (integrable_exp_neg_mul_sq (b := 1) one_pos).integrableOn (s := Set.Ioi 0)
    simpa using this
  have h := intervalIntegral_tendsto_integral_Ioi 0 hi tendsto_id
  have hv : ∫ t in Set.Ioi (0:ℝ), Real.exp (-t^2) = Real.sqrt Real.pi / 2 := by
    have := integral_gaussian_Ioi 1
    simpa using this
  rw [hv] at h
  have h2 := (h.const_mul (2 / Real.sqrt Real.pi)).const_sub 1
  have hp : Real.sqrt Real.pi ≠ 0 := (Real.sqrt_pos.2 Real.pi_pos).ne'
  rw [show (1:ℝ) - 2 / Real.sqrt Real.pi * (Real.sqrt Real.pi / 2) = 0 by field_simp; norm_num] at h2
  exact h2

theorem erfcR_anti : StrictAnti erfcR := by
  apply strictAnti_of_deriv_neg
  intro x
  rw [(erfcR_deriv x).deriv]
  have := mul_pos kap_pos (Real.exp_pos (-x^2))
  linarith

theorem erfcR_nonneg (x : ℝ) : 0 ≤ erfcR x :=
  le_of_tendsto erfcR_tendsto ((eventually_ge_atTop x).mono fun y hy => erfcR_anti.antitone hy)

theorem erfcR_pos (x : ℝ) : 0 < erfcR x :=
  lt_of_le_of_lt (erfcR_nonneg (x+1)) (erfcR_anti (by linarith))

theorem erfcxR_pos (x : ℝ) : 0 < erfcxR x := mul_pos (Real.exp_pos _) (erfcR_pos x)

theorem erfcR_zero : erfcR 0 = 1 := by unfold erfcR erfR; simp
theorem erfcxR_zero : erfcxR 0 = 1 := by unfold erfcxR; rw [erfcR_zero]; simp

/-- `erfc(x) ≤ e^(-x²)/(x√π)` -/
theorem erfcR_le {x : ℝ} (hx : 0 < x) : erfcR x ≤ kap / (2 * x) * Real.exp (-x^2) := by
  have hd : ∀ y : ℝ, 0 < y → HasDerivAt (fun y => kap / (2 * y) * Real.exp (-y^2) - erfcR y) (-(kap / (2 * y^2) * Real.exp (-y^2))) y := by
    intro y hy
    have h1 : HasDerivAt (fun y : ℝ => Real.exp (-y^2)) (Real.exp (-y^2) * -(2 * y)) y := by
      have := (hasDerivAt_pow 2 y).neg.exp
      simpa using this
    have h0 : HasDerivAt (fun y : ℝ => kap / (2 * y)) (-(kap / (2 * y^2))) y := by
      have := ((hasDerivAt_inv hy.ne').const_mul (kap / 2))
      have h3 := this.congr_deriv (g' := -(kap / (2 * y^2))) (by field_simp)
      refine h3.congr_of_eventuallyEq ?_
      filter_upwards [eventually_ne_nhds hy.ne'] with z hz
      field_simp
    have h2 := (h0.mul h1).sub (erfcR_deriv y)
    refine h2.congr_deriv ?_
    field_simp
    ring
  have anti : AntitoneOn (fun y => kap / (2 * y) * Real.exp (-y^2) - erfcR y) (Set.Ici x) := by
    apply antitoneOn_of_deriv_nonpos (convex_Ici x)
    · intro y hy; exact (hd y (lt_of_lt_of_le hx hy)).continuousAt.continuousWithinAt
    · intro y hy; rw [interior_Ici] at hy; exact (hd y (hx.trans hy)).differentiableAt.differentiableWithinAt
    · intro y hy
      rw [interior_Ici] at hy
      rw [(hd y (hx.trans hy)).deriv]
      have := mul_pos (div_pos kap_pos (by have := hx.trans hy; positivity : (0:ℝ) < 2 * y^2)) (Real.exp_pos (-y^2))
      linarith
  have lim : Tendsto (fun y => kap / (2 * y) * Real.exp (-y^2) - erfcR y) atTop (𝓝 (0 * 0 - 0)) := by
    refine Tendsto.sub (Tendsto.mul ?_ ?_) erfcR_tendsto
    · have : Tendsto (fun y : ℝ => 2 * y) atTop atTop := tendsto_id.const_mul_atTop two_pos
      exact this.const_div_atTop kap
    · have h : Tendsto (fun y : ℝ => y^2) atTop atTop := tendsto_pow_atTop (by norm_num)
      exact (Real.tendsto_exp_neg_atTop_nhds_zero.comp h)
  have := le_of_tendsto lim ((eventually_ge_atTop x).mono fun y hy => anti (Set.mem_Ici.2 le_rfl) hy hy)
  simp only at this
  linarith

theorem erfcxR_le {x : ℝ} (hx : 0 < x) : erfcxR x ≤ kap / (2 * x) := by
  have h := mul_le_mul_of_nonneg_left (erfcR_le hx) (Real.exp_pos (x^2)).le
  have : Real.exp (x^2) * Real.exp (-x^2) = 1 := by rw [← Real.exp_add]; simp
  rw [mul_left_comm, this, mul_one] at h
  exact h

/-- Error propagation, from right to left: if `P` solves the differential equation of `erfcx` (in the coordinate `x = w(n+t)`) up to a
residual `ρ`, then its error at `t` is at most the damped error at 1 plus `2ρ`. -/
theorem row_error {w n ρ : ℝ} (hw : 0 < w) (hn : 1 < n) {P P' : ℝ → ℝ} (hP : ∀ t, HasDerivAt P (P' t) t)
    (hR : ∀ t, -1 ≤ t → t ≤ 1 → |P' t - 2 * w^2 * (n + t) * P t + w * kap| ≤ ρ) {t : ℝ} (h1 : -1 ≤ t) (h2 : t ≤ 1) :
    |P t - erfcxR (w * (n + t))| ≤
      |P 1 - erfcxR (w * (n + 1))| * Real.exp ((w * (n + t))^2 - (w * (n + 1))^2) + 2 * ρ := by
  have hρ : 0 ≤ ρ := (abs_nonneg _).trans (hR t h1 h2)
  set G : ℝ → ℝ := fun s => (P s - erfcxR (w * (n + s))) * Real.exp (-(w * (n + s))^2) with hG
  have hx : ∀ s : ℝ, HasDerivAt (fun s : ℝ => w * (n + s)) w s := fun s => by
    have := ((hasDerivAt_id s).const_add n).const_mul w
    simpa using this
  have hd : ∀ s : ℝ, HasDerivAt G ((P' s - 2 * w^2 * (n + s) * P s + w * kap) * Real.exp (-(w * (n + s))^2)) s := by
    intro s
    have hy := (erfcxR_deriv (w * (n + s))).comp s (hx s)
    have he : HasDerivAt (fun s : ℝ => Real.exp (-(w * (n + s))^2)) (Real.exp (-(w * (n + s))^2) * -(2 * (w * (n + s)) * w)) s := by
      have := ((hx s).pow 2).neg.exp
      simpa using this
    have := ((hP s).sub hy).mul he
    refine this.congr_deriv ?_
    simp only [Pi.sub_apply, Function.comp_apply]
    ring
  have hb := norm_image_sub_le_of_norm_deriv_le_segment' (f := G) (a := t) (b := 1) (C := ρ * Real.exp (-(w * (n + t))^2))
    (fun s _ => (hd s).hasDerivWithinAt) (fun s hs => by
      rw [Real.norm_eq_abs, abs_mul, abs_of_pos (Real.exp_pos _)]
      refine mul_le_mul (hR s (h1.trans hs.1) hs.2.le) (Real.exp_le_exp.2 ?_) (Real.exp_pos _).le hρ
      have a1 : 0 ≤ w * (n + t) := mul_nonneg hw.le (by linarith)
      have a2 : w * (n + t) ≤ w * (n + s) := mul_le_mul_of_nonneg_left (by linarith [hs.1]) hw.le
      have := pow_le_pow_left₀ a1 a2 2
      linarith) 1 ⟨h2, le_rfl⟩
  rw [Real.norm_eq_abs] at hb
  have hT : |G t| ≤ |G 1| + ρ * Real.exp (-(w * (n + t))^2) * (1 - t) := by
    have := abs_sub_abs_le_abs_sub (G t) (G 1)
    rw [abs_sub_comm] at this
    linarith
  have ea : ∀ s, |G s| = |P s - erfcxR (w * (n + s))| * Real.exp (-(w * (n + s))^2) := fun s => by
    rw [hG]; simp only; rw [abs_mul, abs_of_pos (Real.exp_pos _)]
  rw [ea, ea] at hT
  have hpos := Real.exp_pos (-(w * (n + t))^2)
  have e1 : Real.exp (-(w * (n + 1))^2) = Real.exp ((w * (n + t))^2 - (w * (n + 1))^2) * Real.exp (-(w * (n + t))^2) := by
    rw [← Real.exp_add]; congr 1; ring
  rw [e1] at hT
  have hT2 : |P t - erfcxR (w * (n + t))| * Real.exp (-(w * (n + t))^2) ≤
      (|P 1 - erfcxR (w * (n + 1))| * Real.exp ((w * (n + t))^2 - (w * (n + 1))^2) + 2 * ρ) * Real.exp (-(w * (n + t))^2) := by
    have : ρ * Real.exp (-(w * (n + t))^2) * (1 - t) ≤ ρ * Real.exp (-(w * (n + t))^2) * 2 :=
      mul_le_mul_of_nonneg_left (by linarith) (mul_nonneg hρ hpos.le)
    nlinarith
  exact le_of_mul_le_mul_right hT2 hpos

end Verif
