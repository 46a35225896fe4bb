import Mathlib.Analysis.Calculus.MeanValue
import Mathlib.Analysis.Calculus.Deriv.MeanValue
import Mathlib.Analysis.SpecialFunctions.ExpDeriv
import Mathlib.Analysis.SpecialFunctions.Log.Deriv
import Mathlib.Tactic

/-! Perturbation of the differential equations of `K_0`, `K_1`: estimates from infinity down to 1, and from 1 down to 0. -/

namespace Verif
namespace Bes
open Real Set Filter Topology

theorem mono_Icc {f f' : ℝ → ℝ} {a b : ℝ} (h : ∀ x ∈ Icc a b, HasDerivAt f (f' x) x) (hp : ∀ x ∈ Icc a b, 0 ≤ f' x) {x y : ℝ} (hx : a ≤ x) (hxy : x ≤ y) (hy : y ≤ b) :
    f x ≤ f y := by
  refine monotoneOn_of_deriv_nonneg (convex_Icc a b) (fun z hz => (h z hz).continuousAt.continuousWithinAt) ?_ ?_ ⟨hx, hxy.trans hy⟩ ⟨hx.trans hxy, hy⟩ hxy
  · intro z hz; rw [interior_Icc] at hz
    exact (h z ⟨hz.1.le, hz.2.le⟩).differentiableAt.differentiableWithinAt
  · intro z hz; rw [interior_Icc] at hz
    rw [(h z ⟨hz.1.le, hz.2.le⟩).deriv]; exact hp z ⟨hz.1.le, hz.2.le⟩

theorem mono_inf {f f' : ℝ → ℝ} {a m : ℝ} (h : ∀ x, a ≤ x → HasDerivAt f (f' x) x) (hp : ∀ x, a ≤ x → 0 ≤ f' x) (lim : Tendsto f atTop (𝓝 m)) {x : ℝ} (hx : a ≤ x) :
    f x ≤ m := by
  refine ge_of_tendsto lim ?_
  filter_upwards [eventually_ge_atTop x] with y hy
  exact mono_Icc (a := a) (b := y) (fun z hz => h z hz.1) (fun z hz => hp z hz.1) hx hy le_rfl

theorem hasDerivAt_const_div {x : ℝ} (hx : x ≠ 0) (c : ℝ) : HasDerivAt (fun y => c / y) (-c / x ^ 2) x := by
  refine ((hasDerivAt_inv hx).const_mul c).congr_deriv ?_
  field_simp

/-- `ed' = 2 ed + q` with `|q| ≤ 2C/x`: a solution that vanishes at infinity is at most `C/x` -/
theorem ed_inf {ed q : ℝ → ℝ} {X C : ℝ} (hX : 0 < X) (hC : 0 ≤ C) (hd : ∀ x, X ≤ x → HasDerivAt ed (2 * ed x + q x) x)
    (hq : ∀ x, X ≤ x → -(2 * C / x) ≤ q x) (lim : Tendsto ed atTop (𝓝 0)) {x : ℝ} (hx : X ≤ x) : ed x ≤ C / x := by
  have hdv : ∀ x, X ≤ x → HasDerivAt (fun x => exp (-2 * x) * (ed x - C / x)) (exp (-2 * x) * (q x + 2 * C / x + C / x ^ 2)) x := by
    intro x hx
    have hx0 : x ≠ 0 := by linarith
    have h1 : HasDerivAt (fun x : ℝ => exp (-2 * x)) (exp (-2 * x) * (-2 * 1)) x := ((hasDerivAt_id x).const_mul (-2)).exp
    refine (h1.mul ((hd x hx).sub (hasDerivAt_const_div hx0 C))).congr_deriv ?_
    simp only [Pi.sub_apply]
    ring
  have hl : Tendsto (fun x => exp (-2 * x) * (ed x - C / x)) atTop (𝓝 0) := by
    have h1 : Tendsto (fun x : ℝ => exp (-2 * x)) atTop (𝓝 0) := by
      have : Tendsto (fun x : ℝ => -2 * x) atTop atBot := tendsto_id.const_mul_atTop_of_neg (by norm_num)
      exact tendsto_exp_atBot.comp this
    have h2 : Tendsto (fun x : ℝ => C / x) atTop (𝓝 0) := tendsto_const_nhds.div_atTop tendsto_id
    have := h1.mul (lim.sub h2)
    simpa using this
  have h := mono_inf hdv (fun x hx => mul_nonneg (exp_pos _).le (by
    have := hq x hx
    have : 0 ≤ C / x ^ 2 := by positivity
    linarith)) hl hx
  have := (mul_nonpos_iff_pos_imp_nonpos.1 h).1 (exp_pos _)
  linarith

theorem es_inf {es p : ℝ → ℝ} {X D : ℝ} (hX : 0 < X) (hd : ∀ x, X ≤ x → HasDerivAt es (p x) x)
    (hq : ∀ x, X ≤ x → -(D / x ^ 2) ≤ p x) (lim : Tendsto es atTop (𝓝 0)) {x : ℝ} (hx : X ≤ x) : es x ≤ D / x := by
  have h := mono_inf (f := fun x => es x - D / x) (f' := fun x => p x + D / x ^ 2) (m := 0) (fun x hx => by
      have hx0 : x ≠ 0 := by linarith
      refine ((hd x hx).sub (hasDerivAt_const_div hx0 D)).congr_deriv ?_
      ring) (fun x hx => by have := hq x hx; linarith)
    (by
      have h2 : Tendsto (fun x : ℝ => D / x) atTop (𝓝 0) := tendsto_const_nhds.div_atTop tendsto_id
      have := lim.sub h2
      simpa using this) hx
  linarith

/-- the estimate from infinity -/
theorem stage_inf {es ed rs rd : ℝ → ℝ} {X R S B : ℝ} (hX : 1 ≤ X) (hR : 0 ≤ R) (hS : 0 ≤ S)
    (h1 : ∀ x, X ≤ x → HasDerivAt es (-(ed x) / (2 * x) + rs x) x)
    (h2 : ∀ x, X ≤ x → HasDerivAt ed (2 * ed x + (-(es x) / (2 * x) + rd x)) x)
    (b1 : ∀ x, X ≤ x → |rs x| ≤ S / x ^ 2) (b2 : ∀ x, X ≤ x → |rd x| ≤ R / x) (hB : ∀ x, X ≤ x → |es x| ≤ B)
    (l1 : Tendsto es atTop (𝓝 0)) (l2 : Tendsto ed atTop (𝓝 0)) :
    ∃ M, 0 ≤ M ∧ M * X ≤ M / 8 + R / 4 + S ∧ ∀ x, X ≤ x → |es x| ≤ M ∧ |ed x| ≤ (M / 4 + R / 2) / x := by
  have hX0 : 0 < X := by linarith
  set A : Set ℝ := (fun x => |es x|) '' Ici X with hA
  have bdd : BddAbove A := ⟨B, by rintro _ ⟨x, hx, rfl⟩; exact hB x hx⟩
  have ne : A.Nonempty := ⟨_, X, self_mem_Ici, rfl⟩
  set M := sSup A with hM
  have hMx : ∀ x, X ≤ x → |es x| ≤ M := fun x hx => le_csSup bdd ⟨x, hx, rfl⟩
  have hM0 : 0 ≤ M := le_trans (abs_nonneg _) (hMx X le_rfl)
  have hed : ∀ x, X ≤ x → |ed x| ≤ (M / 4 + R / 2) / x := by
    intro x hx
    have hq : ∀ x, X ≤ x → |-(es x) / (2 * x) + rd x| ≤ 2 * (M / 4 + R / 2) / x := by
      intro x hx
      have hx0 : 0 < x := by linarith
      calc |-(es x) / (2 * x) + rd x| ≤ |-(es x) / (2 * x)| + |rd x| := abs_add_le _ _
        _ ≤ M / (2 * x) + R / x := by
          refine add_le_add ?_ (b2 x hx)
          rw [abs_div, abs_neg, abs_of_pos (by positivity : 0 < 2 * x)]
          exact div_le_div_of_nonneg_right (hMx x hx) (by positivity)
        _ = _ := by field_simp; ring
    rw [abs_le]
    constructor
    · have := ed_inf (ed := fun x => -ed x) (q := fun x => -(-(es x) / (2 * x) + rd x)) (X := X) (C := M / 4 + R / 2) hX0 (by positivity)
        (fun x hx => (h2 x hx).neg.congr_deriv (by ring)) (fun x hx => neg_le_neg ((le_abs_self _).trans (hq x hx))) (by simpa using l2.neg) hx
      linarith
    · exact ed_inf (C := M / 4 + R / 2) hX0 (by positivity) h2 (fun x hx => neg_le_of_abs_le (hq x hx)) l2 hx
  have hes : ∀ x, X ≤ x → |es x| ≤ (M / 8 + R / 4 + S) / x := by
    intro x hx
    have hq : ∀ x, X ≤ x → |-(ed x) / (2 * x) + rs x| ≤ (M / 8 + R / 4 + S) / x ^ 2 := by
      intro x hx
      have hx0 : 0 < x := by linarith
      calc |-(ed x) / (2 * x) + rs x| ≤ |-(ed x) / (2 * x)| + |rs x| := abs_add_le _ _
        _ ≤ (M / 4 + R / 2) / x / (2 * x) + S / x ^ 2 := by
          refine add_le_add ?_ (b1 x hx)
          rw [abs_div, abs_neg, abs_of_pos (by positivity : 0 < 2 * x)]
          exact div_le_div_of_nonneg_right (hed x hx) (by positivity)
        _ = _ := by field_simp; ring
    rw [abs_le]
    constructor
    · have := es_inf (es := fun x => -es x) (p := fun x => -(-(ed x) / (2 * x) + rs x)) (X := X) (D := M / 8 + R / 4 + S) hX0
        (fun x hx => (h1 x hx).neg) (fun x hx => neg_le_neg ((le_abs_self _).trans (hq x hx))) (by simpa using l1.neg) hx
      linarith
    · exact es_inf (D := M / 8 + R / 4 + S) hX0 h1 (fun x hx => neg_le_of_abs_le (hq x hx)) l1 hx
  refine ⟨M, hM0, ?_, fun x hx => ⟨hMx x hx, hed x hx⟩⟩
  rw [← le_div_iff₀ hX0]
  refine csSup_le ne ?_
  rintro _ ⟨x, hx, rfl⟩
  exact (hes x hx).trans (div_le_div_of_nonneg_left (by positivity) hX0 hx)

theorem ed_fin {ed q : ℝ → ℝ} {X C T : ℝ} (hX : 1 ≤ X) (hC : 0 ≤ C) (hT : 0 ≤ T) (hd : ∀ x ∈ Icc 1 X, HasDerivAt ed (2 * ed x + q x) x)
    (hq : ∀ x ∈ Icc 1 X, -(2 * C / x) ≤ q x) (hi : ed X ≤ T) {x : ℝ} (hx : x ∈ Icc 1 X) : ed x ≤ C / x + T / X ^ 2 * x ^ 2 := by
  have hX0 : 0 < X := by linarith
  have hdv : ∀ x ∈ Icc 1 X, HasDerivAt (fun x => exp (-2 * x) * (ed x - C / x - T / X ^ 2 * x ^ 2))
      (exp (-2 * x) * ((q x + 2 * C / x + C / x ^ 2) + 2 * (T / X ^ 2) * (x * (x - 1)))) x := by
    intro x hx
    have hx0 : x ≠ 0 := by linarith [hx.1]
    have h1 : HasDerivAt (fun x : ℝ => exp (-2 * x)) (exp (-2 * x) * (-2 * 1)) x := ((hasDerivAt_id x).const_mul (-2)).exp
    refine (h1.mul (((hd x hx).sub (hasDerivAt_const_div hx0 C)).sub ((hasDerivAt_pow 2 x).const_mul (T / X ^ 2)))).congr_deriv ?_
    simp only [Pi.sub_apply]
    push_cast
    ring
  have h := mono_Icc hdv (fun x hx => mul_nonneg (exp_pos _).le (by
    have := hq x hx
    have h1 := hx.1
    have : 0 ≤ C / x ^ 2 := by positivity
    have : 0 ≤ 2 * (T / X ^ 2) * (x * (x - 1)) := mul_nonneg (by positivity) (mul_nonneg (by linarith) (by linarith))
    linarith)) hx.1 hx.2 le_rfl
  have e : T / X ^ 2 * X ^ 2 = T := by field_simp
  have hXe : exp (-2 * X) * (ed X - C / X - T / X ^ 2 * X ^ 2) ≤ 0 := by
    refine mul_nonpos_of_nonneg_of_nonpos (exp_pos _).le ?_
    rw [e]
    have : 0 ≤ C / X := by positivity
    linarith
  have := (mul_nonpos_iff_pos_imp_nonpos.1 (h.trans hXe)).1 (exp_pos _)
  linarith

theorem es_fin {es p : ℝ → ℝ} {X D T E : ℝ} (hX : 1 ≤ X) (hD : 0 ≤ D) (hT : 0 ≤ T) (hd : ∀ x ∈ Icc 1 X, HasDerivAt es (p x) x)
    (hq : ∀ x ∈ Icc 1 X, -(D / x ^ 2 + T / X ^ 2 * x / 2) ≤ p x) (hi : es X ≤ E) {x : ℝ} (hx : x ∈ Icc 1 X) : es x ≤ E + D + T / 4 := by
  have hX0 : 0 < X := by linarith
  have h := mono_Icc (f := fun x => es x - D / x + T / X ^ 2 / 4 * x ^ 2) (f' := fun x => p x + (D / x ^ 2 + T / X ^ 2 * x / 2)) (a := 1) (b := X) (fun x hx => by
      have hx0 : x ≠ 0 := by linarith [hx.1]
      refine (((hd x hx).sub (hasDerivAt_const_div hx0 D)).add ((hasDerivAt_pow 2 x).const_mul (T / X ^ 2 / 4))).congr_deriv ?_
      push_cast
      ring) (fun x hx => by have := hq x hx; linarith) hx.1 hx.2 le_rfl
  have e : T / X ^ 2 / 4 * X ^ 2 = T / 4 := by field_simp
  have h1 : D / x ≤ D := div_le_self hD hx.1
  have h2 : 0 ≤ D / X := by positivity
  have h3 : 0 ≤ T / X ^ 2 / 4 * x ^ 2 := by positivity
  rw [e] at h
  linarith

/-- the estimate from `X` down to 1 -/
theorem stage_fin {es ed rs rd : ℝ → ℝ} {X R S E T : ℝ} (hX : 1 ≤ X) (hR : 0 ≤ R) (hS : 0 ≤ S) (hT : 0 ≤ T)
    (h1 : ∀ x ∈ Icc 1 X, HasDerivAt es (-(ed x) / (2 * x) + rs x) x)
    (h2 : ∀ x ∈ Icc 1 X, HasDerivAt ed (2 * ed x + (-(es x) / (2 * x) + rd x)) x)
    (b1 : ∀ x ∈ Icc 1 X, |rs x| ≤ S / x ^ 2) (b2 : ∀ x ∈ Icc 1 X, |rd x| ≤ R / x) (i1 : |es X| ≤ E) (i2 : |ed X| ≤ T) :
    ∃ M, 0 ≤ M ∧ M ≤ E + T / 4 + M / 8 + R / 4 + S ∧ ∀ x ∈ Icc 1 X, |es x| ≤ M ∧ |ed x| ≤ (M / 4 + R / 2) / x + T / X ^ 2 * x ^ 2 := by
  have hX0 : 0 < X := by linarith
  set A : Set ℝ := (fun x => |es x|) '' Icc 1 X with hA
  have bdd : BddAbove A := by
    refine (isCompact_Icc.image_of_continuousOn ?_).bddAbove
    exact fun x hx => ((h1 x hx).continuousAt.abs).continuousWithinAt
  have ne : A.Nonempty := ⟨_, X, ⟨hX, le_rfl⟩, rfl⟩
  set M := sSup A with hM
  have hMx : ∀ x ∈ Icc 1 X, |es x| ≤ M := fun x hx => le_csSup bdd ⟨x, hx, rfl⟩
  have hM0 : 0 ≤ M := le_trans (abs_nonneg _) (hMx X ⟨hX, le_rfl⟩)
  have hed : ∀ x ∈ Icc 1 X, |ed x| ≤ (M / 4 + R / 2) / x + T / X ^ 2 * x ^ 2 := by
    intro x hx
    have hq : ∀ x ∈ Icc 1 X, |-(es x) / (2 * x) + rd x| ≤ 2 * (M / 4 + R / 2) / x := by
      intro x hx
      have hx0 : 0 < x := by linarith [hx.1]
      calc |-(es x) / (2 * x) + rd x| ≤ |-(es x) / (2 * x)| + |rd x| := abs_add_le _ _
        _ ≤ M / (2 * x) + R / x := by
          refine add_le_add ?_ (b2 x hx)
          rw [abs_div, abs_neg, abs_of_pos (by positivity : 0 < 2 * x)]
          exact div_le_div_of_nonneg_right (hMx x hx) (by positivity)
        _ = _ := by field_simp; ring
    rw [abs_le]
    constructor
    · have := ed_fin (ed := fun x => -ed x) (q := fun x => -(-(es x) / (2 * x) + rd x)) (X := X) (C := M / 4 + R / 2) (T := T) hX (by positivity) hT
        (fun x hx => (h2 x hx).neg.congr_deriv (by ring)) (fun x hx => neg_le_neg ((le_abs_self _).trans (hq x hx))) ((neg_le_abs _).trans i2) hx
      linarith
    · exact ed_fin (C := M / 4 + R / 2) hX (by positivity) hT h2 (fun x hx => neg_le_of_abs_le (hq x hx)) ((le_abs_self _).trans i2) hx
  have hes : ∀ x ∈ Icc 1 X, |es x| ≤ E + (M / 8 + R / 4 + S) + T / 4 := by
    intro x hx
    have hq : ∀ x ∈ Icc 1 X, |-(ed x) / (2 * x) + rs x| ≤ (M / 8 + R / 4 + S) / x ^ 2 + T / X ^ 2 * x / 2 := by
      intro x hx
      have hx0 : 0 < x := by linarith [hx.1]
      calc |-(ed x) / (2 * x) + rs x| ≤ |-(ed x) / (2 * x)| + |rs x| := abs_add_le _ _
        _ ≤ ((M / 4 + R / 2) / x + T / X ^ 2 * x ^ 2) / (2 * x) + S / x ^ 2 := by
          refine add_le_add ?_ (b1 x hx)
          rw [abs_div, abs_neg, abs_of_pos (by positivity : 0 < 2 * x)]
          exact div_le_div_of_nonneg_right (hed x hx) (by positivity)
        _ = _ := by field_simp; ring
    rw [abs_le]
    constructor
    · have := es_fin (es := fun x => -es x) (p := fun x => -(-(ed x) / (2 * x) + rs x)) (X := X) (D := M / 8 + R / 4 + S) (T := T) (E := E) hX (by positivity) hT
        (fun x hx => (h1 x hx).neg) (fun x hx => neg_le_neg ((le_abs_self _).trans (hq x hx))) ((neg_le_abs _).trans i1) hx
      linarith
    · exact es_fin (D := M / 8 + R / 4 + S) hX (by positivity) hT h1 (fun x hx => neg_le_of_abs_le (hq x hx)) ((le_abs_self _).trans i1) hx
  refine ⟨M, hM0, ?_, fun x hx => ⟨hMx x hx, hed x hx⟩⟩
  have : M ≤ E + (M / 8 + R / 4 + S) + T / 4 := by
    refine csSup_le ne ?_
    rintro _ ⟨x, hx, rfl⟩
    exact hes x hx
  linarith

end Bes
end Verif
