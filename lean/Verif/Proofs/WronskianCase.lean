import Verif.Proofs.Wronskian

/-! # A concrete run of the fractional-order Bessel functions in exact arithmetic (shows the hypotheses of C49, C50 are met) -/

set_option linter.unusedSimpArgs false
set_option linter.unusedTactic false
namespace Verif
open XR

/-! ## a concrete case: `ν = 1/2`, `x = 2` -/

/-- `ikCF1` on rationals; `none` when a denominator vanishes or the iterations run out -/
def ikQ (xi2 : ℚ) : ℕ → ℚ → ℚ → ℚ → ℚ → Option ℚ
  | 0, _, _, _, _ => none
  | k+1, b, d, c, h =>
    let b := b + xi2
    if b + d = 0 ∨ c = 0 then none else
    let d := 1 / (b + d)
    let c := b + 1 / c
    let del := c * d
    let h := h * del
    if |del - 1| ≤ 1 / 2 ^ 52 then some h else ikQ xi2 k b d c h

/-- `jyCF1` on rationals; also `none` when a denominator is tiny or a `d` is negative -/
def jyQ (xi2 : ℚ) : ℕ → ℚ → ℚ → ℚ → ℚ → Option ℚ
  | 0, _, _, _, _ => none
  | k+1, b, d, c, h =>
    let b := b + xi2
    if b - d < 1 / 2 ^ 970 ∨ c = 0 ∨ |b - 1 / c| < 1 / 2 ^ 970 then none else
    let d := 1 / (b - d)
    let c := b - 1 / c
    let del := c * d
    let h := h * del
    if |del - 1| ≤ 1 / 2 ^ 52 then some h else jyQ xi2 k b d c h

theorem XR.one_lit : (1.0 : XR) = real 1 := by show real (1.0 : ℝ) = _; norm_num
theorem XR.EPS_XR : (EPS : XR) = real (1 / 2 ^ 52) := (rfl)
theorem XR.FPMIN_XR : (FPMIN : XR) = real (1 / 2 ^ 970) := by
  show (real (1 / 2 ^ 1022) / real (1 / 2 ^ 52) : XR) = _
  rw [div_real _ (by positivity), show (1022:ℕ) = 970 + 52 from rfl, pow_add]
  congr 1; field_simp

theorem XR.absR (a : ℝ) : (Arith.abs (real a) : XR) = real |a| := (rfl)
theorem XR.leR (a b : ℝ) : (real a ≤ᶠ real b) = true ↔ a ≤ b := by
  show decide _ = true ↔ _; exact decide_eq_true_iff
theorem XR.ltR (a b : ℝ) : (real a <ᶠ real b) = true ↔ a < b := by
  show decide _ = true ↔ _; exact decide_eq_true_iff

theorem ikQ_sound (xi2 : ℚ) : ∀ (k n : ℕ) (b d c h r : ℚ), ikQ xi2 k b d c h = some r →
    ikCF1 (real xi2) (n + k) (real b) (real d) (real c) (real h) = .ok (real r)
  | 0, n, b, d, c, h, r, e => by simp [ikQ] at e
  | k+1, n, b, d, c, h, r, e => by
    unfold ikQ at e
    simp only at e
    split at e
    · cases e
    rename_i hz
    rw [not_or] at hz
    have h1 : ((b + xi2 + d : ℚ) : ℝ) ≠ 0 := by exact_mod_cast hz.1
    have h2 : ((c : ℚ) : ℝ) ≠ 0 := by exact_mod_cast hz.2
    show ikCF1 (real xi2) ((n + k) + 1) (real b) (real d) (real c) (real h) = _
    rw [ikCF1]
    simp only [XR.one_lit, XR.EPS_XR, add_real]
    push_cast at h1
    rw [div_real _ h1, div_real _ h2]
    simp only [add_real, mul_real, sub_real, XR.absR]
    split at e
    · rename_i hc
      injection e with e
      rw [if_pos]
      · rw [← e]; push_cast; rfl
      · rw [XR.leR]
        have : ((|(b + xi2 + 1 / c) * (1 / (b + xi2 + d)) - 1| : ℚ) : ℝ) ≤ ((1 / 2 ^ 52 : ℚ) : ℝ) := by exact_mod_cast hc
        push_cast at this
        exact this
    · rename_i hc
      rw [if_neg]
      · have := ikQ_sound xi2 k n _ _ _ _ r e
        push_cast at this
        exact this
      · rw [XR.leR]
        have : ¬ ((|(b + xi2 + 1 / c) * (1 / (b + xi2 + d)) - 1| : ℚ) : ℝ) ≤ ((1 / 2 ^ 52 : ℚ) : ℝ) := by exact_mod_cast hc
        push_cast at this
        exact this

theorem XR.guardR {a : ℝ} (h : 1 / 2 ^ 970 ≤ |a|) : jyCF1.guardTiny' (real a) = real a := by
  unfold jyCF1.guardTiny'
  rw [if_neg]
  rw [XR.absR, XR.FPMIN_XR, XR.ltR]
  exact not_lt.2 h

theorem jyQ_sound (xi2 : ℚ) : ∀ (k n : ℕ) (b d c h r : ℚ) (s : ℤ), jyQ xi2 k b d c h = some r →
    jyCF1 (real xi2) (n + k) (real b) (real d) (real c) (real h) s = .ok (real r, s)
  | 0, n, b, d, c, h, r, s, e => by simp [jyQ] at e
  | k+1, n, b, d, c, h, r, s, e => by
    unfold jyQ at e
    simp only at e
    split at e
    · cases e
    rename_i hz
    rw [not_or, not_or, not_lt, not_lt] at hz
    have h1 : ((1 / 2 ^ 970 : ℚ) : ℝ) ≤ ((b + xi2 - d : ℚ) : ℝ) := by exact_mod_cast hz.1
    have h2 : ((c : ℚ) : ℝ) ≠ 0 := by exact_mod_cast hz.2.1
    have h3 : ((1 / 2 ^ 970 : ℚ) : ℝ) ≤ ((|b + xi2 - 1 / c| : ℚ) : ℝ) := by exact_mod_cast hz.2.2
    push_cast at h1 h3
    show jyCF1 (real xi2) ((n + k) + 1) (real b) (real d) (real c) (real h) s = _
    rw [jyCF1]
    have hp : (0 : ℝ) < b + xi2 - d := lt_of_lt_of_le (by positivity) h1
    simp only [XR.one_lit, XR.EPS_XR, add_real, sub_real]
    rw [div_real _ h2]
    simp only [sub_real]
    rw [XR.guardR (le_trans h1 (le_abs_self _)), XR.guardR h3, div_real _ hp.ne']
    simp only [add_real, mul_real, sub_real, XR.absR]
    have hs : ((real (1 / (↑b + ↑xi2 - ↑d)) : XR) <ᶠ 0.0) = false := by
      rw [← Bool.not_eq_true, show (0.0 : XR) = real 0 by show real (0.0 : ℝ) = _; norm_num, XR.ltR]
      exact not_lt.2 (by positivity)
    rw [hs]
    simp only [Bool.false_eq_true, if_false]
    split at e
    · rename_i hc
      injection e with e
      rw [if_pos]
      · rw [← e]; push_cast; rfl
      · rw [XR.leR]
        have : ((|(b + xi2 - 1 / c) * (1 / (b + xi2 - d)) - 1| : ℚ) : ℝ) ≤ ((1 / 2 ^ 52 : ℚ) : ℝ) := by exact_mod_cast hc
        push_cast at this
        exact this
    · rename_i hc
      rw [if_neg]
      · have := jyQ_sound xi2 k n _ _ _ _ r s e
        push_cast at this
        exact this
      · rw [XR.leR]
        have : ¬ ((|(b + xi2 - 1 / c) * (1 / (b + xi2 - d)) - 1| : ℚ) : ℝ) ≤ ((1 / 2 ^ 52 : ℚ) : ℝ) := by exact_mod_cast hc
        push_cast at this
        exact this

theorem XR.lit0 : (0.0 : XR) = real 0 := by show real (0.0 : ℝ) = _; norm_num
theorem XR.lit2 : (2.0 : XR) = real 2 := by show real (2.0 : ℝ) = _; norm_num
theorem XR.lit05 : (0.5 : XR) = real (1/2) := by show real (0.5 : ℝ) = _; norm_num
theorem XR.lit025 : (0.25 : XR) = real (1/4) := by show real (0.25 : ℝ) = _; norm_num
theorem XR.lit15 : (1.5 : XR) = real (3/2) := by show real (1.5 : ℝ) = _; norm_num
theorem XR.leF {a b : ℝ} (h : b < a) : (real a ≤ᶠ real b) = false := by rw [← Bool.not_eq_true, XR.leR]; exact not_le.2 h
theorem XR.ltF {a b : ℝ} (h : b ≤ a) : (real a <ᶠ real b) = false := by rw [← Bool.not_eq_true, XR.ltR]; exact not_lt.2 h
theorem XR.toUR (mx : ℕ) (a : ℝ) : Arith.toU mx (real a) = Nat.min ⌊a⌋₊ mx := (rfl)
theorem XR.sqrtP {a : ℝ} (h : 0 < a) : ∃ r, 0 < r ∧ (Arith.sqrt (real a) : XR) = real r := ⟨_, Real.sqrt_pos.2 h, sqrt_real h.le⟩

theorem XR.fpmin_small : (1 / 2 ^ 970 : ℝ) ≤ 1 / 4 :=
  one_div_le_one_div_of_le (by norm_num) (by
    calc (4:ℝ) = 2 ^ 2 := by norm_num
      _ ≤ 2 ^ 970 := pow_le_pow_right₀ (by norm_num) (by norm_num))
theorem XR.fpmin_pos : (0 : ℝ) < 1 / 2 ^ 970 := by positivity

theorem cf1Start_half : cf1Start (real (1/2)) (real (1/2)) = real (1/4) := by
  unfold cf1Start
  rw [mul_real, XR.FPMIN_XR]
  simp only
  rw [XR.ltF (by have := XR.fpmin_small; linarith), if_neg (by simp)]
  norm_num

/-- the result of the first continued fraction of `besselik(1/2, 2)` -/
theorem ikCF1_half : ikCF1 (real 1) MAXIT (real (1/2)) (real 0) (real (1/4)) (real (1/4)) =
    .ok (real ((41690207275261 / 52952404137364 : ℚ) : ℝ)) := by
  have := ikQ_sound 1 20 9980 (1/2) 0 (1/4) (1/4) (41690207275261 / 52952404137364) (by decide +kernel)
  push_cast at this ⊢
  exact this

/-- the result of the first continued fraction of `besseljy(1/2, 2)` -/
theorem jyCF1_half : jyCF1 (real 1) MAXIT (real (1/2)) (real 0) (real (1/4)) (real (1/4)) 1 =
    .ok (real ((-11024871202619 / 15579387423604 : ℚ) : ℝ), 1) := by
  have := jyQ_sound 1 20 9980 (1/2) 0 (1/4) (1/4) (-11024871202619 / 15579387423604) 1 (by decide +kernel)
  push_cast at this ⊢
  exact this
attribute [local irreducible] MAXIT

/-- evaluate exact arithmetic on numbers -/
macro "xr" : tactic => `(tactic| (
  try simp (disch := norm_num) only [XR.one_lit, XR.lit0, XR.lit2, XR.lit05, XR.lit025, XR.lit15, XR.EPS_XR, XR.FPMIN_XR, add_real, sub_real, mul_real, neg_real,
    XR.absR, ofNat_real, ofInt_real, div_real, XR.leR, XR.ltR, XR.toUR]))

theorem ikLarge_half : ∃ k, 0 < k ∧ ikLarge (real 2) (real (-1/2)) (real (1/4)) (real (1/2)) = .ok (real k, real k) := by
  have er := sqrt_real (a := Real.pi / 4) (by positivity)
  refine ⟨Real.sqrt (Real.pi / 4) * Real.exp (-2), by positivity, ?_⟩
  have step : ∀ k, ikCF2 (k + 1) 1 (real 0) (real 6) (real 0) (real (1/6)) (real (1/6)) (real (1/6)) (real 0) (real 0) (real 1) (real 1)
      = .ok (real (4/23), real 1) := by
    intro k
    rw [ikCF2]
    xr
    norm_num
  unfold ikLarge
  have hM : MAXIT - 1 = 9998 + 1 := by with_unfolding_all decide
  rw [hM]
  xr
  norm_num [step 9998]
  have e1 : (Arith.pi / real 4 : XR) = real (Real.pi / 4) := div_real _ (by norm_num)
  have e2 : (Libm.exp (real (-2)) : XR) = real (Real.exp (-2)) := rfl
  rw [e1, er, e2]
  simp only [Functor.map, Except.map, mul_real, sub_real, div_real _ (one_ne_zero)]
  norm_num
  ring

theorem XR.eqF {a b : ℝ} (h : a ≠ b) : (real a ==ᶠ real b) = false := by
  show decide _ = false; exact decide_eq_false h

theorem jyPQ_half : jyPQ (real 2) (real (1/4)) (real (1/2)) = .ok (real (-1/4), real 1) := by
  have step : ∀ k, jyCF2 (real 4) (k + 1) 1 (real 0) (real 2) (real 4) (real 2) (real (1/5)) (real (-1/10)) (real (-1/4)) (real 1) =
      .ok (real (-1/4), real 1) := by
    intro k
    have hp := XR.fpmin_small
    have hF := XR.FPMIN_XR
    rw [jyCF2]
    generalize (FPMIN : XR) = P at *
    generalize (1 / 2 ^ 970 : ℝ) = t at *
    subst hF
    xr
    have q : ¬ (41/5 < t) := by linarith
    norm_num [q]
    xr
    norm_num
  have hM : MAXIT - 1 = 9998 + 1 := by with_unfolding_all decide
  unfold jyPQ
  rw [hM]
  xr
  have := step 9998
  norm_num at this
  norm_num [this]

end Verif
