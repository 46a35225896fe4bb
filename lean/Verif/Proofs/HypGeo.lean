import Mathlib.Analysis.SpecificLimits.Normed
import Mathlib.Tactic

/-!
# Gauss' hypergeometric series at positive parameters, and its contiguous relations
-/

namespace Verif.Hyp
open Finset Filter

/-- coefficient of the hypergeometric series `F(α, β; γ; x)` -/
noncomputable def coef (α β γ : ℝ) (k : ℕ) : ℝ := ∏ i ∈ range k, (α + i) * (β + i) / ((γ + i) * (1 + i))

/-- Gauss' hypergeometric function `F(α, β; γ; x)` -/
noncomputable def F (α β γ x : ℝ) : ℝ := ∑' k, coef α β γ k * x ^ k

theorem coef_zero (α β γ : ℝ) : coef α β γ 0 = 1 := by simp [coef]

theorem coef_succ (α β γ : ℝ) (k : ℕ) : coef α β γ (k + 1) = coef α β γ k * ((α + k) * (β + k) / ((γ + k) * (1 + k))) := by
  unfold coef; rw [prod_range_succ]

theorem coef_comm (α β γ : ℝ) (k : ℕ) : coef α β γ k = coef β α γ k := by
  unfold coef; exact prod_congr rfl fun i _ => by ring

theorem F_comm (α β γ x : ℝ) : F α β γ x = F β α γ x := by
  unfold F; simp_rw [coef_comm α β]

theorem coef_nonneg {α β γ : ℝ} (hα : 0 ≤ α) (hβ : 0 ≤ β) (hγ : 0 < γ) (k : ℕ) : 0 ≤ coef α β γ k := by
  unfold coef
  refine prod_nonneg fun i _ => ?_
  have : (0:ℝ) ≤ i := Nat.cast_nonneg i
  positivity

theorem ratio_lim (α β γ x : ℝ) : Tendsto (fun k : ℕ => (α + k) * (β + k) / ((γ + k) * (1 + k)) * x) atTop (nhds x) := by
  have h : ∀ c : ℝ, Tendsto (fun k : ℕ => c / (k:ℝ)) atTop (nhds 0) := fun c => tendsto_const_div_atTop_nhds_zero_nat c
  have h2 : Tendsto (fun k : ℕ => (α / k + 1) * (β / k + 1) / ((γ / k + 1) * (1 / k + 1)) * x) atTop
      (nhds ((0 + 1) * (0 + 1) / ((0 + 1) * (0 + 1)) * x)) := by
    refine Tendsto.mul_const _ (Tendsto.div ?_ ?_ (by norm_num))
    · exact ((h α).add_const _).mul ((h β).add_const _)
    · exact ((h γ).add_const _).mul ((h 1).add_const _)
  rw [show ((0:ℝ) + 1) * (0 + 1) / ((0 + 1) * (0 + 1)) * x = x by ring] at h2
  refine h2.congr' ?_
  filter_upwards [eventually_gt_atTop 0] with k hk
  have hk' : (k:ℝ) ≠ 0 := by exact_mod_cast hk.ne'
  have e : ∀ c : ℝ, c / k + 1 = (c + k) / k := fun c => by field_simp
  rw [e, e, e, e]
  field_simp

theorem summable {α β γ x : ℝ} (hα : 0 ≤ α) (hβ : 0 ≤ β) (hγ : 0 < γ) (h0 : 0 ≤ x) (h1 : x < 1) : Summable fun k => coef α β γ k * x ^ k := by
  have hr : x < (1 + x) / 2 := by linarith
  refine summable_of_ratio_norm_eventually_le (r := (1 + x) / 2) (by linarith) ?_
  filter_upwards [(ratio_lim α β γ x).eventually_lt_const hr] with k hk
  have hk0 : (0:ℝ) ≤ k := Nat.cast_nonneg k
  have hc := coef_nonneg hα hβ hγ k
  rw [Real.norm_of_nonneg (mul_nonneg (coef_nonneg hα hβ hγ _) (pow_nonneg h0 _)), Real.norm_of_nonneg (mul_nonneg hc (pow_nonneg h0 _)), coef_succ,
    pow_succ]
  calc _ = ((α + k) * (β + k) / ((γ + k) * (1 + k)) * x) * (coef α β γ k * x ^ k) := by ring
    _ ≤ _ := mul_le_mul_of_nonneg_right hk.le (by positivity)

theorem F_ge_one {α β γ x : ℝ} (hα : 0 ≤ α) (hβ : 0 ≤ β) (hγ : 0 < γ) (h0 : 0 ≤ x) (h1 : x < 1) : 1 ≤ F α β γ x := by
  have h := (summable hα hβ hγ h0 h1).le_tsum 0 (fun j _ => mul_nonneg (coef_nonneg hα hβ hγ j) (pow_nonneg h0 j))
  unfold F; simpa [coef_zero] using h

theorem F_zero {α γ x : ℝ} : F α 0 γ x = 1 := by
  unfold F
  rw [tsum_eq_single 0]
  · simp [coef_zero]
  · intro k hk
    have : coef α 0 γ k = 0 := by
      unfold coef
      exact prod_eq_zero (mem_range.2 (Nat.pos_of_ne_zero hk)) (by simp)
    rw [this, zero_mul]

/-- `(α)_(k+1)` from the left -/
theorem coef_shift {α β γ : ℝ} (hγ : 0 < γ) (k : ℕ) :
    coef α β γ k = coef α (β + 1) (γ + 1) k * (β * (γ + k) / ((β + k) * γ)) ∨ β + k = 0 ∨ ∃ i < k, β + i = 0 := by
  by_cases hz : β + k = 0
  · exact Or.inr (Or.inl hz)
  by_cases hz2 : ∃ i < k, β + (i:ℝ) = 0
  · exact Or.inr (Or.inr hz2)
  left
  push Not at hz2
  induction k with
  | zero =>
    simp only [Nat.cast_zero, add_zero] at hz
    rw [coef_zero, coef_zero]; simp only [Nat.cast_zero, add_zero]; field_simp
  | succ k ih =>
    have h1 := hz2 k (Nat.lt_succ_self k)
    rw [coef_succ, coef_succ, ih h1 (fun i hi => hz2 i (by omega))]
    have hk : (0:ℝ) ≤ k := Nat.cast_nonneg k
    have n1 : γ + k ≠ 0 := by positivity
    have n2 : γ + (k + 1) ≠ 0 := by positivity
    have n3 : γ + 1 + k ≠ 0 := by positivity
    push_cast at hz ⊢
    field_simp
    ring

/-- the coefficients of `F(α, β; γ)` and of `F(α, β+1; γ+1)` -/
theorem coef_shift' {α β γ : ℝ} (hβ : 0 < β) (hγ : 0 < γ) (k : ℕ) :
    coef α β γ k = coef α (β + 1) (γ + 1) k * (β * (γ + k) / ((β + k) * γ)) := by
  have hk : (0:ℝ) ≤ k := Nat.cast_nonneg k
  rcases coef_shift (α := α) (β := β) hγ k with h | h | ⟨i, _, h⟩
  · exact h
  · exact absurd h (by positivity)
  · have : (0:ℝ) ≤ i := Nat.cast_nonneg i
    exact absurd h (by positivity)

theorem coef_up {α β γ : ℝ} (hα : 0 < α) (hβ : 0 ≤ β) (hγ : 0 < γ) (k : ℕ) :
    coef α (β + 1) (γ + 1) (k + 1) = coef (α + 1) (β + 1) (γ + 2) k * (α * (β + 1 + k) / ((γ + 1) * (k + 1))) := by
  have hk : (0:ℝ) ≤ k := Nat.cast_nonneg k
  rw [coef_succ, coef_comm α, coef_shift' hα (by linarith) k, coef_comm (β + 1), show γ + 1 + 1 = γ + 2 by ring]
  have n1 : γ + 1 + k ≠ 0 := by positivity
  have n2 : α + k ≠ 0 := by positivity
  field_simp
  ring

theorem coef_low {α β γ : ℝ} (hα : 0 < α) (hβ : 0 ≤ β) (hγ : 0 < γ) (k : ℕ) :
    coef α β γ (k + 1) = coef (α + 1) (β + 1) (γ + 2) k * (α * β * (γ + k + 1) / (γ * (γ + 1) * (k + 1))) := by
  have hk : (0:ℝ) ≤ k := Nat.cast_nonneg k
  rcases hβ.eq_or_lt with h | h
  · subst h
    have : coef α 0 γ (k + 1) = 0 := by
      unfold coef
      exact prod_eq_zero (mem_range.2 (Nat.succ_pos k)) (by simp)
    rw [this]; ring
  · rw [coef_shift' h hγ, coef_up hα hβ hγ]
    have n1 : β + 1 + k ≠ 0 := by positivity
    have n3 : β + (k + 1) ≠ 0 := by positivity
    push_cast
    field_simp
    ring

/-- `F(α, β; γ) - F(α, β+1; γ+1) = -α(γ-β)/(γ(γ+1)) x F(α+1, β+1; γ+2)` -/
theorem contiguous {α β γ x : ℝ} (hα : 0 < α) (hβ : 0 ≤ β) (hγ : 0 < γ) (h0 : 0 ≤ x) (h1 : x < 1) :
    F α β γ x = F α (β + 1) (γ + 1) x + -(α * (γ - β) / (γ * (γ + 1)) * x) * F (α + 1) (β + 1) (γ + 2) x := by
  have s1 := summable hα.le hβ hγ h0 h1
  have s2 := summable hα.le (by linarith : 0 ≤ β + 1) (by linarith : 0 < γ + 1) h0 h1
  have s3 := summable (by linarith : 0 ≤ α + 1) (by linarith : 0 ≤ β + 1) (by linarith : 0 < γ + 2) h0 h1
  unfold F
  rw [s1.tsum_eq_zero_add, s2.tsum_eq_zero_add, ← tsum_mul_left, add_assoc,
    ← ((summable_nat_add_iff 1).2 s2).tsum_add (s3.mul_left _)]
  rw [coef_zero, coef_zero]
  congr 1
  refine tsum_congr fun k => ?_
  have hk : (0:ℝ) ≤ k := Nat.cast_nonneg k
  rw [coef_up hα hβ hγ, coef_low hα hβ hγ, pow_succ]
  field_simp
  ring

/-- `F(α, β; γ) ≥ β/γ F(α, β+1; γ+1)` when `β ≤ γ` -/
theorem F_lower {α β γ x : ℝ} (hα : 0 ≤ α) (hβ : 0 < β) (hγ : 0 < γ) (hb : β ≤ γ) (h0 : 0 ≤ x) (h1 : x < 1) :
    β / γ * F α (β + 1) (γ + 1) x ≤ F α β γ x := by
  have s1 := summable hα hβ.le hγ h0 h1
  have s2 := summable hα (by linarith : 0 ≤ β + 1) (by linarith : 0 < γ + 1) h0 h1
  unfold F
  rw [← tsum_mul_left]
  refine (s2.mul_left _).tsum_le_tsum (fun k => ?_) s1
  have hk : (0:ℝ) ≤ k := Nat.cast_nonneg k
  have hc := coef_nonneg hα (by linarith : 0 ≤ β + 1) (by linarith : 0 < γ + 1) k
  rw [coef_shift' hβ hγ]
  have e : β / γ ≤ β * (γ + k) / ((β + k) * γ) := by
    rw [div_le_div_iff₀ hγ (by positivity)]
    have : β * ((β + k) * γ) ≤ β * ((γ + k) * γ) := by
      refine mul_le_mul_of_nonneg_left (mul_le_mul_of_nonneg_right (by linarith) hγ.le) hβ.le
    calc _ ≤ _ := this
      _ = _ := by ring
  have := mul_le_mul_of_nonneg_right e (mul_nonneg hc (pow_nonneg h0 k))
  calc _ ≤ _ := this
    _ = _ := by ring

end Verif.Hyp
