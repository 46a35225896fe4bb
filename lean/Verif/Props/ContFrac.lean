import Verif.Model.Beta
import Verif.Props.Series
import Mathlib.Algebra.ContinuedFractions.ContinuantsRecurrence
import Mathlib.Algebra.ContinuedFractions.Translations

/-!
# The continued fractions of the incomplete gamma and beta functions (C58)

The model is run at `ℝ`, so that every operation is exact.  "Continued fraction" and "convergent" are Mathlib's `GenContFract` and
`GenContFract.convs`.
-/

namespace Verif
open GenContFract

/-- the continued fraction `α₀/(β₀ + α₁/(β₁ + …))` -/
noncomputable def fraction (α β : ℕ → ℝ) : GenContFract ℝ := ⟨0, Stream'.Seq.ofStream fun k => ⟨α k, β k⟩⟩

section
variable (α β : ℕ → ℝ)

theorem fraction_get (k : ℕ) : (fraction α β).s.get? k = some ⟨α k, β k⟩ := rfl

theorem num_zero : (fraction α β).nums 0 = 0 := zeroth_num_eq_h
theorem num_one : (fraction α β).nums 1 = α 0 := by
  rw [first_num_eq (fraction_get α β 0)]; show β 0 * 0 + α 0 = _; ring
theorem num_rec (k : ℕ) : (fraction α β).nums (k + 2) = β (k + 1) * (fraction α β).nums (k + 1) + α (k + 1) * (fraction α β).nums k :=
  nums_recurrence (fraction_get α β (k + 1)) rfl rfl
theorem den_zero : (fraction α β).dens 0 = 1 := zeroth_den_eq_one
theorem den_one : (fraction α β).dens 1 = β 0 := first_den_eq (fraction_get α β 0)
theorem den_rec (k : ℕ) : (fraction α β).dens (k + 2) = β (k + 1) * (fraction α β).dens (k + 1) + α (k + 1) * (fraction α β).dens k :=
  dens_recurrence (fraction_get α β (k + 1)) rfl rfl

end

/-! ## incomplete gamma -/

/-- the continued fraction of the upper incomplete gamma function:
`1/(x+1-a - 1(1-a)/(x+3-a - 2(2-a)/(x+5-a - …)))` -/
noncomputable def gammaFraction (a x : ℝ) : GenContFract ℝ :=
  fraction (fun k => if k = 0 then 1 else -(k * (k - a))) (fun k => x + 1 - a + 2 * k)

/-- the value the program computes for the `n`-th convergent `f`: it starts from `1/FPMIN` instead of infinity, which adds a correction of
relative size `FPMIN = 2^-970` -/
noncomputable def nudged (a x f : ℝ) : ℝ := f + 1 / 2 ^ 970 * (1 - (x + 1 - a) * f)

theorem FPMIN_real : (FPMIN : ℝ) = 1 / 2 ^ 970 := by
  show ((1 / 2 ^ 1022 : ℝ) / (1 / 2 ^ 52)) = _
  rw [show (1022:ℕ) = 970 + 52 from rfl, pow_add]; field_simp

theorem guardTiny_real {d : ℝ} (h : 1 ≤ d) : guardTiny d = d := by
  unfold guardTiny
  rw [if_neg]
  show ¬ decide (|d| < (FPMIN : ℝ)) = true
  rw [decide_eq_true_iff, FPMIN_real, not_lt, abs_of_pos (by linarith)]
  exact le_trans (by rw [div_le_one (by positivity)]; exact one_le_pow₀ (by norm_num)) h

theorem step_lb {a x r : ℝ} (k : ℕ) (hx : a + 1 ≤ x) (hr : (k:ℝ) + 1 ≤ r) (ha : 0 < a) :
    (k:ℝ) + 2 ≤ (x + 1 - a + 2 * (k + 1)) + -((k + 1) * ((k + 1) - a)) / r := by
  have hk : (0:ℝ) ≤ k := Nat.cast_nonneg k
  have hr0 : 0 < r := by linarith
  rcases le_total ((k:ℝ) + 1) a with h | h
  · have : 0 ≤ -((k + 1) * ((k + 1) - a)) / r := by
      apply div_nonneg _ hr0.le
      nlinarith
    linarith
  · have : -((k:ℝ) + 1 - a) ≤ -((k + 1) * ((k + 1) - a)) / r := by
      rw [le_div_iff₀ hr0]
      nlinarith
    linarith

/-- one iteration: `c`, `d`, `h` are quotients of numerators and denominators -/
theorem gcfLoop_exact (a x : ℝ) (ha : 0 < a) (hx : a + 1 ≤ x) (A B : ℕ → ℝ)
    (hA : ∀ k, A (k + 2) = (x + 1 - a + 2 * (k + 1 : ℕ)) * A (k + 1) + -(((k + 1 : ℕ) : ℝ) * (((k + 1 : ℕ) : ℝ) - a)) * A k)
    (hB : ∀ k, B (k + 2) = (x + 1 - a + 2 * (k + 1 : ℕ)) * B (k + 1) + -(((k + 1 : ℕ) : ℝ) * (((k + 1 : ℕ) : ℝ) - a)) * B k) :
    ∀ (n k : ℕ), A k ≠ 0 → B k ≠ 0 → (k:ℝ) + 1 ≤ A (k + 1) / A k → (k:ℝ) + 1 ≤ B (k + 1) / B k → ∃ m, k + 1 ≤ m ∧ m ≤ k + 1 + n ∧
      gcfLoop a n (k + 1) (x + 1 - a + 2 * k) (A (k + 1) / A k) (1 / (B (k + 1) / B k)) (A (k + 1) / B (k + 1)) = A m / B m ∧ B m ≠ 0 ∧
      (m < k + 1 + n → k + 1 < m ∧ |A m / B m / (A (m - 1) / B (m - 1)) - 1| < EPS) := by
  intro n
  induction n with
  | zero => 
    intro k hAk hBk hra hrb
    have hk : (0:ℝ) ≤ k := Nat.cast_nonneg k
    exact ⟨k + 1, le_rfl, le_rfl, rfl, by intro e; rw [e, zero_div] at hrb; linarith, fun h => by omega⟩
  | succ n ih =>
    intro k hAk hBk hra hrb
    have hk : (0:ℝ) ≤ k := Nat.cast_nonneg k
    have hA1 : A (k + 1) ≠ 0 := by intro e; rw [e, zero_div] at hra; linarith
    have hB1 : B (k + 1) ≠ 0 := by intro e; rw [e, zero_div] at hrb; linarith
    have rA : A (k + 2) / A (k + 1) = (x + 1 - a + 2 * (k + 1)) + -((k + 1) * ((k + 1) - a)) / (A (k + 1) / A k) := by
      rw [hA]; push_cast; field_simp
    have rB : B (k + 2) / B (k + 1) = (x + 1 - a + 2 * (k + 1)) + -((k + 1) * ((k + 1) - a)) / (B (k + 1) / B k) := by
      rw [hB]; push_cast; field_simp
    have lA := step_lb k hx hra ha
    have lB := step_lb k hx hrb ha
    rw [← rA] at lA
    rw [← rB] at lB
    unfold gcfLoop
    have e1 : (x + 1 - a + 2 * k + 2.0 : ℝ) = x + 1 - a + 2 * ((k + 1 : ℕ) : ℝ) := by push_cast; norm_num; ring
    have e2 : (Arith.ofNat (k + 1) : ℝ) = k + 1 := by show ((k + 1 : ℕ) : ℝ) = _; push_cast; rfl
    have e3 : (-(Arith.ofNat (k + 1) : ℝ) * (Arith.ofNat (k + 1) - a) * (1 / (B (k + 1) / B k)) + (x + 1 - a + 2 * k + 2.0)) =
        B (k + 2) / B (k + 1) := by rw [rB, e1, e2]; push_cast; field_simp; ring
    have e4 : ((x + 1 - a + 2 * k + 2.0) + -(Arith.ofNat (k + 1) : ℝ) * (Arith.ofNat (k + 1) - a) / (A (k + 1) / A k)) =
        A (k + 2) / A (k + 1) := by rw [rA, e1, e2]; push_cast; ring
    have g3 : guardTiny (B (k + 2) / B (k + 1)) = B (k + 2) / B (k + 1) := guardTiny_real (by linarith)
    have g4 : guardTiny (A (k + 2) / A (k + 1)) = A (k + 2) / A (k + 1) := guardTiny_real (by linarith)
    have hA2 : A (k + 2) ≠ 0 := by intro e; rw [e, zero_div] at lA; linarith
    have hB2 : B (k + 2) ≠ 0 := by intro e; rw [e, zero_div] at lB; linarith
    have e5 : A (k + 1) / B (k + 1) * (1 / (B (k + 2) / B (k + 1)) * (A (k + 2) / A (k + 1))) = A (k + 2) / B (k + 2) := by
      field_simp
    have e6 : 1 / (B (k + 2) / B (k + 1)) * (A (k + 2) / A (k + 1)) = A (k + 2) / B (k + 2) / (A (k + 1) / B (k + 1)) := by
      field_simp
    simp only [e3, e4, g3, g4, show (1.0 : ℝ) = 1 by norm_num, e5]
    by_cases hc : |A (k + 2) / B (k + 2) / (A (k + 1) / B (k + 1)) - 1| < (EPS : ℝ)
    · have : (Arith.abs (1 / (B (k + 2) / B (k + 1)) * (A (k + 2) / A (k + 1)) - 1) <ᶠ (EPS : ℝ)) = true := by
        show decide (|1 / (B (k + 2) / B (k + 1)) * (A (k + 2) / A (k + 1)) - 1| < (EPS : ℝ)) = true
        rw [decide_eq_true_iff, e6]; exact hc
      rw [if_pos this]
      exact ⟨k + 2, by omega, by omega, rfl, hB2, fun _ => ⟨by omega, hc⟩⟩
    · have : (Arith.abs (1 / (B (k + 2) / B (k + 1)) * (A (k + 2) / A (k + 1)) - 1) <ᶠ (EPS : ℝ)) = false := by
        show decide (|1 / (B (k + 2) / B (k + 1)) * (A (k + 2) / A (k + 1)) - 1| < (EPS : ℝ)) = false
        rw [decide_eq_false_iff_not, e6]; exact hc
      rw [if_neg (by rw [this]; simp)]
      obtain ⟨m, h1, h2, h3, h5, h4⟩ := ih (k + 1) hA1 hB1 (by push_cast; linarith) (by push_cast; linarith)
      refine ⟨m, by omega, by omega, ?_, h5, fun h => ⟨by omega, (h4 (by omega)).2⟩⟩
      rw [← h3, e1]

theorem dens_pos (a x : ℝ) (ha : 0 < a) (hx : a + 1 ≤ x) (B : ℕ → ℝ) (h0 : B 0 = 1) (h1 : B 1 = x + 1 - a)
    (hB : ∀ k, B (k + 2) = (x + 1 - a + 2 * (k + 1 : ℕ)) * B (k + 1) + -(((k + 1 : ℕ) : ℝ) * (((k + 1 : ℕ) : ℝ) - a)) * B k) (k : ℕ) :
    0 < B k ∧ (k:ℝ) + 1 ≤ B (k + 1) / B k := by
  induction k with
  | zero => rw [h0, h1]; refine ⟨one_pos, ?_⟩; push_cast; rw [div_one]; linarith
  | succ k ih =>
    have hk : (0:ℝ) ≤ k := Nat.cast_nonneg k
    have hB1 : 0 < B (k + 1) := by
      have := ih.2
      rw [le_div_iff₀ ih.1] at this
      have := mul_pos (show (0:ℝ) < k + 1 by linarith) ih.1
      linarith
    have rB : B (k + 2) / B (k + 1) = (x + 1 - a + 2 * (k + 1)) + -((k + 1) * ((k + 1) - a)) / (B (k + 1) / B k) := by
      have := ih.1.ne'
      have := hB1.ne'
      rw [hB]; push_cast; field_simp
    refine ⟨hB1, ?_⟩
    show _ ≤ B (k + 2) / B (k + 1)
    rw [rB]
    have := step_lb k hx ih.2 ha
    push_cast
    linarith

/-- C58: for `a > 0` and `x ≥ a + 1` (where `gammp`, `gammq` use the continued fraction) the evaluation with at most `n` further steps returns
the (nudged) value of a convergent; if it stopped early, then because two successive values agreed to `EPS`.  No denominator is ever replaced
by the underflow guard. -/
theorem gcf_convergent (a x : ℝ) (ha : 0 < a) (hx : a + 1 ≤ x) (n : ℕ) : ∃ m, 1 ≤ m ∧ m ≤ n + 1 ∧
    gcfLoop a n 1 (x + 1 - a) (1 / FPMIN) (1 / (x + 1 - a)) (1 / (x + 1 - a)) = nudged a x ((gammaFraction a x).convs m) ∧
    (m < n + 1 → 1 < m ∧ |nudged a x ((gammaFraction a x).convs m) / nudged a x ((gammaFraction a x).convs (m - 1)) - 1| < EPS) := by
  have hF := FPMIN_real
  have hF0 : (0 : ℝ) < 1 / 2 ^ 970 := by positivity
  have hF1 : (1 : ℝ) / 2 ^ 970 ≤ 1 := by rw [div_le_one (by positivity)]; exact one_le_pow₀ (by norm_num)
  unfold nudged
  rw [hF]
  generalize (1 / 2 ^ 970 : ℝ) = F at *
  set g := gammaFraction a x with hg
  have n0 : g.nums 0 = 0 := num_zero _ _
  have n1 : g.nums 1 = 1 := (num_one _ _).trans (by simp)
  have d0 : g.dens 0 = 1 := den_zero _ _
  have d1 : g.dens 1 = x + 1 - a := (den_one _ _).trans (by simp)
  have nr : ∀ k, g.nums (k + 2) = _ := fun k => num_rec _ _ k
  have dr : ∀ k, g.dens (k + 2) = _ := fun k => den_rec _ _ k
  have nz : ∀ k : ℕ, ¬ (k + 1 = 0) := by omega
  simp only [nz, if_false] at nr dr
  rw [← gammaFraction, ← hg] at nr dr
  have hB : ∀ k, g.dens k ≠ 0 := fun k => (dens_pos a x ha hx g.dens d0 d1 dr k).1.ne'
  have hv : ∀ k, g.convs k + F * (1 - (x + 1 - a) * g.convs k) = (g.nums k + F * (g.dens k - (x + 1 - a) * g.nums k)) / g.dens k := by
    intro k
    have := hB k
    rw [conv_eq_num_div_den]
    field_simp
  simp only [hv]
  have A0 : g.nums 0 + F * (g.dens 0 - (x + 1 - a) * g.nums 0) = F := by rw [n0, d0]; ring
  have A1 : g.nums 1 + F * (g.dens 1 - (x + 1 - a) * g.nums 1) = 1 := by rw [n1, d1]; ring
  obtain ⟨m, h1, h2, h3, -, h4⟩ := gcfLoop_exact a x ha hx (fun k => g.nums k + F * (g.dens k - (x + 1 - a) * g.nums k)) g.dens
    (fun k => by simp only [nr k, dr k]; ring) dr n 0 (by simp only [A0]; exact hF0.ne') (by rw [d0]; exact one_ne_zero)
    (by simp only [A0, zero_add, A1]; push_cast; rw [zero_add, le_div_iff₀ hF0]; linarith)
    (by rw [zero_add, d0, d1, div_one]; push_cast; linarith)
  simp only [zero_add] at h1 h2 h3 h4
  rw [A0, A1] at h3
  simp only [d0, d1, div_one, Nat.cast_zero, mul_zero, add_zero] at h3
  exact ⟨m, h1, by omega, h3, fun h => h4 (by omega)⟩

/-- C58: for `0 < a < 100` and `a + 1 ≤ x ≤ a + 20(√a + 1)`, `gammq(a, x)` is `exp(-x + a ln x - ln_gamma(a))` times the (nudged) value of a
convergent of the continued fraction. -/
theorem gammq_convergent [Cfg] (a x : ℝ) (ha : 0 < a) (ha' : a < 100) (hx : a + 1 ≤ x) (hx' : x ≤ a + 20 * (Real.sqrt a + 1))
    (hl : |-x + a * Real.log x - lnGamma a| ≤ 700) : ∃ m, 1 ≤ m ∧ m ≤ 10001 ∧
    Returns (gammq a x) (Real.exp (-x + a * Real.log x - lnGamma a) * nudged a x ((gammaFraction a x).convs m)) := by
  obtain ⟨m, h1, h2, h3, -⟩ := gcf_convergent a x ha hx 10000
  refine ⟨m, h1, h2, ?_⟩
  have hx0 : 0 < x := by linarith
  have L : ∀ u v : ℝ, (u <ᶠ v) = decide (u < v) := fun _ _ => rfl
  have Le : ∀ u v : ℝ, (u ≤ᶠ v) = decide (u ≤ v) := fun _ _ => rfl
  have Eq' : ∀ u v : ℝ, (u ==ᶠ v) = decide (u = v) := fun _ _ => rfl
  have hs : gcf a x = Real.exp (-x + a * Real.log x - lnGamma a) * nudged a x ((gammaFraction a x).convs m) := by
    unfold gcf
    rw [show (1.0 : ℝ) = 1 by norm_num, ← h3]
    have l1 : (700.0 <ᶠ -x + a * Libm.ln x - lnGamma a) = false := by
      rw [L, decide_eq_false_iff_not, not_lt]
      exact le_trans (le_trans (le_abs_self _) hl) (by norm_num)
    have l2 : (-x + a * Libm.ln x - lnGamma a <ᶠ -700.0) = false := by
      rw [L, decide_eq_false_iff_not, not_lt]
      exact le_trans (by norm_num) (neg_le_of_abs_le hl)
    simp only [l1, l2, Bool.false_eq_true, if_false]
    rfl
  unfold Returns gammq
  rw [← hs]
  have hE : (EPS : ℝ) ≤ 1 := by show (1 / 2 ^ 52 : ℝ) ≤ 1; norm_num
  have c0 : (0.0 ≤ᶠ x && 0.0 <ᶠ a) = true := by
    rw [L, Le]; norm_num [hx0.le, ha]
  have c1 : (x ==ᶠ 0.0) = false := by rw [Eq']; norm_num [hx0.ne']
  have c2 : (x <ᶠ a * EPS) = false := by
    rw [L, decide_eq_false_iff_not, not_lt]
    have := mul_le_mul_of_nonneg_left hE ha.le
    linarith
  have c3 : (a + 20.0 * (Arith.sqrt a + 1.0) <ᶠ x) = false := by
    rw [L, decide_eq_false_iff_not, not_lt]
    show x ≤ a + 20.0 * (Real.sqrt a + 1.0)
    norm_num; linarith
  have c4 : ¬ 100 ≤ Arith.toU USIZE_MAX a := by
    show ¬ 100 ≤ Nat.min ⌊a⌋₊ USIZE_MAX
    rw [Nat.not_le]
    refine lt_of_le_of_lt (Nat.min_le_left _ _) ?_
    rw [Nat.floor_lt ha.le]; exact_mod_cast ha'
  have c5 : (x <ᶠ a + 1.0) = false := by
    rw [L, decide_eq_false_iff_not, not_lt]; norm_num; linarith
  simp only [c0, c1, c2, c3, c4, c5, Bool.false_eq_true, if_false, if_true]

/-- a convergent: `1/(x+1-a - (1-a)/(x+3-a))` -/
example (a x : ℝ) : (gammaFraction a x).convs 2 = (x + 3 - a) / ((x + 3 - a) * (x + 1 - a) - (1 - a)) := by
  have n2 : (gammaFraction a x).nums 2 = _ := num_rec _ _ 0
  have d2 : (gammaFraction a x).dens 2 = _ := den_rec _ _ 0
  rw [conv_eq_num_div_den, n2, d2, num_zero, num_one, den_zero, den_one]
  norm_num
  ring_nf

/-- the hypotheses of `gammq_convergent` are met at `a = 1`, `x = 2` -/
example [Cfg] : ∃ m, 1 ≤ m ∧ m ≤ 10001 ∧
    Returns (gammq (1:ℝ) 2) (Real.exp (-2 + 1 * Real.log 2 - lnGamma 1) * nudged 1 2 ((gammaFraction 1 2).convs m)) :=
  gammq_convergent 1 2 one_pos (by norm_num) (by norm_num) (by rw [Real.sqrt_one]; norm_num) (by
    have := lnGamma_one_small
    have h1 := Real.log_nonneg (show (1:ℝ) ≤ 2 by norm_num)
    have h2 := Real.log_le_sub_one_of_pos (show (0:ℝ) < 2 by norm_num)
    rw [abs_le] at this ⊢
    constructor <;> linarith [this.1, this.2])

/-! ## incomplete beta -/

/-- the partial numerators `1, d₁, d₂, …` of the continued fraction of the incomplete beta function:
`d_{2m} = m(b-m)x/((a+2m-1)(a+2m))`, `d_{2m+1} = -(a+m)(a+b+m)x/((a+2m)(a+2m+1))` -/
noncomputable def betaCoeff (a b x : ℝ) (k : ℕ) : ℝ :=
  if k = 0 then 1
  else if k % 2 = 0 then ((k / 2 : ℕ) : ℝ) * (b - (k / 2 : ℕ)) * x / ((a + 2 * (k / 2 : ℕ) - 1) * (a + 2 * (k / 2 : ℕ)))
  else -((a + (k / 2 : ℕ)) * (a + b + (k / 2 : ℕ)) * x / ((a + 2 * (k / 2 : ℕ)) * (a + 2 * (k / 2 : ℕ) + 1)))

/-- the continued fraction `1/(1 + d₁/(1 + d₂/(1 + …)))` of the incomplete beta function -/
noncomputable def betaFraction (a b x : ℝ) : GenContFract ℝ := fraction (betaCoeff a b x) (fun _ => 1)

theorem betaCoeff_even (a b x : ℝ) (m : ℕ) (h : 1 ≤ m) :
    betaCoeff a b x (2 * m) = m * (b - m) * x / ((a + 2 * m - 1) * (a + 2 * m)) := by
  unfold betaCoeff
  rw [if_neg (by omega), if_pos (by omega), Nat.mul_div_cancel_left _ two_pos]

theorem betaCoeff_odd (a b x : ℝ) (m : ℕ) :
    betaCoeff a b x (2 * m + 1) = -((a + m) * (a + b + m) * x / ((a + 2 * m) * (a + 2 * m + 1))) := by
  unfold betaCoeff
  rw [if_neg (by omega), if_neg (by omega), show (2 * m + 1) / 2 = m by omega]

theorem guardTiny_real' {d : ℝ} (h : 1 / 2 ^ 970 ≤ |d|) : guardTiny d = d := by
  unfold guardTiny
  rw [if_neg]
  show ¬ decide (|d| < (FPMIN : ℝ)) = true
  rw [decide_eq_true_iff, FPMIN_real, not_lt]
  exact h

/-- "no denominator is replaced by the underflow guard": successive numerators and successive denominators, from the first to number `N`, have
ratios of at least `FPMIN = 2^-970` in magnitude -/
def Unguarded (g : GenContFract ℝ) (N : ℕ) : Prop :=
  ∀ k, 1 ≤ k → k < N → 1 / 2 ^ 970 ≤ |g.nums (k + 1) / g.nums k| ∧ 1 / 2 ^ 970 ≤ |g.dens (k + 1) / g.dens k|

theorem fpmin_pos_real : (0:ℝ) < 1 / 2 ^ 970 := by positivity

theorem betacfLoop_exact (a b x : ℝ) : ∀ (n m : ℕ), 1 ≤ m → Unguarded (betaFraction a b x) (2 * (m + n)) →
    let g := betaFraction a b x
    ∃ j, m ≤ j ∧ j ≤ m + n ∧
      betacfLoop a b x (a + b) (a + 1) (a - 1) n m (g.nums (2 * m) / g.nums (2 * m - 1)) (1 / (g.dens (2 * m) / g.dens (2 * m - 1)))
        (g.nums (2 * m) / g.dens (2 * m)) = g.convs (2 * j) ∧
      (j < m + n → m < j ∧ |g.convs (2 * j) / g.convs (2 * j - 1) - 1| ≤ EPS) := by
  intro n
  induction n with
  | zero =>
    intro m hm _ g
    exact ⟨m, le_rfl, le_rfl, by rw [conv_eq_num_div_den]; rfl, fun h => by omega⟩
  | succ n ih =>
    intro m hm hU g
    have hF := fpmin_pos_real
    obtain ⟨u1, v1⟩ := hU (2 * m - 1) (by omega) (by omega)
    obtain ⟨u2, v2⟩ := hU (2 * m) (by omega) (by omega)
    obtain ⟨u3, v3⟩ := hU (2 * m + 1) (by omega) (by omega)
    rw [show 2 * m - 1 + 1 = 2 * m by omega] at u1 v1
    have nz : ∀ u v : ℝ, 1 / 2 ^ 970 ≤ |u / v| → u ≠ 0 ∧ v ≠ 0 := by
      intro u v h
      constructor
      · rintro rfl; rw [zero_div, abs_zero] at h; linarith
      · rintro rfl; rw [div_zero, abs_zero] at h; linarith
    have A2 : g.nums (2 * m) ≠ 0 := (nz _ _ u1).1
    have A1 : g.nums (2 * m - 1) ≠ 0 := (nz _ _ u1).2
    have B2 : g.dens (2 * m) ≠ 0 := (nz _ _ v1).1
    have B1 : g.dens (2 * m - 1) ≠ 0 := (nz _ _ v1).2
    have A3 : g.nums (2 * m + 1) ≠ 0 := (nz _ _ u2).1
    have B3 : g.dens (2 * m + 1) ≠ 0 := (nz _ _ v2).1
    have A4 : g.nums (2 * m + 2) ≠ 0 := (nz _ _ u3).1
    have B4 : g.dens (2 * m + 2) ≠ 0 := (nz _ _ v3).1
    have r1 : ∀ k, g.nums (k + 2) = 1 * g.nums (k + 1) + betaCoeff a b x (k + 1) * g.nums k := fun k => num_rec _ _ k
    have r2 : ∀ k, g.dens (k + 2) = 1 * g.dens (k + 1) + betaCoeff a b x (k + 1) * g.dens k := fun k => den_rec _ _ k
    have s1 := r1 (2 * m - 1)
    have s2 := r2 (2 * m - 1)
    rw [show 2 * m - 1 + 2 = 2 * m + 1 by omega, show 2 * m - 1 + 1 = 2 * m by omega] at s1 s2
    have s3 := r1 (2 * m)
    have s4 := r2 (2 * m)
    have e1 := betaCoeff_even a b x m hm
    have e2 := betaCoeff_odd a b x m
    have p1 : (1.0:ℝ) = 1 := by norm_num
    have p2 : (2.0:ℝ) = 2 := by norm_num
    have p3 : (Arith.ofNat m : ℝ) = m := rfl
    have c1 : (m:ℝ) * (b - m) * x / ((a - 1 + 2 * m) * (a + 2 * m)) = betaCoeff a b x (2 * m) := by
      rw [e1]; congr 2; ring
    have c2 : -(a + m) * (a + b + m) * x / ((a + 2 * m) * (a + 1 + 2 * m)) = betaCoeff a b x (2 * m + 1) := by
      rw [e2, ← neg_div]; congr 1 <;> ring
    have t1 : 1 + betaCoeff a b x (2 * m) * (1 / (g.dens (2 * m) / g.dens (2 * m - 1))) = g.dens (2 * m + 1) / g.dens (2 * m) := by
      rw [s2]; field_simp
    have t2 : 1 + betaCoeff a b x (2 * m) / (g.nums (2 * m) / g.nums (2 * m - 1)) = g.nums (2 * m + 1) / g.nums (2 * m) := by
      rw [s1]; field_simp
    have t3 : 1 + betaCoeff a b x (2 * m + 1) * (1 / (g.dens (2 * m + 1) / g.dens (2 * m))) = g.dens (2 * m + 2) / g.dens (2 * m + 1) := by
      rw [s4]; field_simp
    have t4 : 1 + betaCoeff a b x (2 * m + 1) / (g.nums (2 * m + 1) / g.nums (2 * m)) = g.nums (2 * m + 2) / g.nums (2 * m + 1) := by
      rw [s3]; field_simp
    have w1 : g.nums (2 * m) / g.dens (2 * m) * (1 / (g.dens (2 * m + 1) / g.dens (2 * m)) * (g.nums (2 * m + 1) / g.nums (2 * m))) *
        (1 / (g.dens (2 * m + 2) / g.dens (2 * m + 1)) * (g.nums (2 * m + 2) / g.nums (2 * m + 1))) =
        g.nums (2 * m + 2) / g.dens (2 * m + 2) := by field_simp
    have w2 : 1 / (g.dens (2 * m + 2) / g.dens (2 * m + 1)) * (g.nums (2 * m + 2) / g.nums (2 * m + 1)) =
        g.convs (2 * (m + 1)) / g.convs (2 * (m + 1) - 1) := by
      rw [show 2 * (m + 1) - 1 = 2 * m + 1 by omega, conv_eq_num_div_den, conv_eq_num_div_den, show 2 * (m + 1) = 2 * m + 2 by ring]
      field_simp
    have q1 : guardTiny (g.nums (2 * m + 1) / g.nums (2 * m)) = _ := guardTiny_real' u2
    have q2 : guardTiny (g.dens (2 * m + 1) / g.dens (2 * m)) = _ := guardTiny_real' v2
    have q3 : guardTiny (g.nums (2 * m + 2) / g.nums (2 * m + 1)) = _ := guardTiny_real' u3
    have q4 : guardTiny (g.dens (2 * m + 2) / g.dens (2 * m + 1)) = _ := guardTiny_real' v3
    unfold betacfLoop betacfStep
    simp only [p1, p2, p3, c1, c2, t1, t2, q1, q2, t3, t4, q3, q4, w1]
    have hle : ∀ u v : ℝ, (u ≤ᶠ v) = decide (u ≤ v) := fun _ _ => rfl
    have habs : ∀ u : ℝ, (Arith.abs u : ℝ) = |u| := fun _ => rfl
    rw [w2, habs, hle]
    by_cases hc : |g.convs (2 * (m + 1)) / g.convs (2 * (m + 1) - 1) - 1| ≤ (EPS : ℝ)
    · rw [if_pos (decide_eq_true hc)]
      exact ⟨m + 1, by omega, by omega, by rw [conv_eq_num_div_den]; rfl, fun _ => ⟨by omega, hc⟩⟩
    · rw [if_neg (by rw [decide_eq_true_iff]; exact hc)]
      obtain ⟨j, h1, h2, h3, h4⟩ := ih (m + 1) (by omega) (by rw [show 2 * (m + 1 + n) = 2 * (m + (n + 1)) by ring]; exact hU)
      exact ⟨j, by omega, by omega, h3, fun h => ⟨by omega, (h4 (by omega)).2⟩⟩

/-- C58: the evaluation of the continued fraction of the incomplete beta function (`betacf`, at most 9999 double steps) returns one of its
convergents, provided no denominator is replaced by the underflow guard; if it stopped early, then because two successive convergents agreed
to `EPS`. -/
theorem betacf_convergent [Cfg] (a b x : ℝ) (ha : 0 < a) (hU : Unguarded (betaFraction a b x) 20000) : ∃ j, 1 ≤ j ∧ j ≤ 10000 ∧
    betacf a b x = (betaFraction a b x).convs (2 * j) ∧
    (j < 10000 → |(betaFraction a b x).convs (2 * j) / (betaFraction a b x).convs (2 * j - 1) - 1| ≤ EPS) := by
  obtain ⟨j, h1, h2, h3, h4⟩ := betacfLoop_exact a b x 9999 1 le_rfl hU
  refine ⟨j, h1, by omega, ?_, fun h => (h4 (by omega)).2⟩
  rw [← h3]
  set g := betaFraction a b x with hg
  obtain ⟨u, v⟩ := hU 1 le_rfl (by norm_num)
  have n1 : g.nums 1 = 1 := num_one _ _
  have d1 : g.dens 1 = 1 := den_one _ _
  have n2 : g.nums 2 = 1 * g.nums 1 + betaCoeff a b x 1 * g.nums 0 := num_rec _ _ 0
  have d2 : g.dens 2 = 1 * g.dens 1 + betaCoeff a b x 1 * g.dens 0 := den_rec _ _ 0
  have n0 : g.nums 0 = 0 := num_zero _ _
  have d0 : g.dens 0 = 1 := den_zero _ _
  rw [n1, n0, mul_one, mul_zero, add_zero] at n2
  have e : betaCoeff a b x 1 = -((a + b) * x / (a + 1)) := by
    have := betaCoeff_odd a b x 0
    rw [show 2 * 0 + 1 = 1 from rfl] at this
    rw [this]; push_cast; simp only [add_zero, mul_zero]; field_simp
  rw [d1, d0, mul_one, mul_one, e] at d2
  unfold betacf
  have p1 : (1.0:ℝ) = 1 := by norm_num
  have k1 : (1:ℝ) - (a + b) * x / (a + 1) = g.dens 2 := by rw [d2]; ring
  rw [d1, div_one] at v
  simp only [p1, mul_one, show 2 - 1 = 1 from rfl, n1, n2, d1, div_one, k1, guardTiny_real' v]

/-! ### a region where no denominator is replaced -/

section
variable {a b x F : ℝ}

theorem betaR_odd (ha : 0 < a) (hb : 0 < b) (hx : 0 ≤ x) (h1 : x ≤ 1 - F) (h2 : x * (a + b) / (a + 1) ≤ 1 - F) (hF : 0 < F) (m : ℕ) {r r' : ℝ}
    (hr : 1 - x * (m / (a + 2 * m)) ≤ r) (hrb : m ≤ b → 1 ≤ r)
    (e : r' = 1 + betaCoeff a b x (2 * m + 1) / r) : F ≤ r' ∧ 1 - x * ((a + b + m) / (a + 2 * m + 1)) ≤ r' := by
  have hm : (0:ℝ) ≤ m := Nat.cast_nonneg m
  have p1 : 0 < a + 2 * m := by linarith
  have p2 : 0 < a + 2 * m + 1 := by linarith
  have hg : 0 ≤ (a + b + m) / (a + 2 * m + 1) := by positivity
  have hx1 : x ≤ 1 := by linarith
  -- `r ≥ (a+m)/(a+2m)`
  have q : (a + m) / (a + 2 * m) ≤ r := by
    have : (a + m) / (a + 2 * m) = 1 - m / (a + 2 * m) := by field_simp; ring
    rw [this]
    have : x * (m / (a + 2 * m)) ≤ m / (a + 2 * m) := mul_le_of_le_one_left (by positivity) hx1
    linarith
  have q0 : 0 < (a + m) / (a + 2 * m) := by positivity
  have r0 : 0 < r := lt_of_lt_of_le q0 q
  have ec : betaCoeff a b x (2 * m + 1) / r = -(x * ((a + b + m) / (a + 2 * m + 1)) * ((a + m) / (a + 2 * m) / r)) := by
    rw [betaCoeff_odd]; field_simp
  have q1 : (a + m) / (a + 2 * m) / r ≤ 1 := (div_le_one r0).2 q
  have k2 : 1 - x * ((a + b + m) / (a + 2 * m + 1)) ≤ r' := by
    rw [e, ec]
    have : x * ((a + b + m) / (a + 2 * m + 1)) * ((a + m) / (a + 2 * m) / r) ≤ x * ((a + b + m) / (a + 2 * m + 1)) :=
      mul_le_of_le_one_right (by positivity) q1
    linarith
  refine ⟨?_, k2⟩
  rcases le_total (m:ℝ) b with h | h
  · -- `r ≥ 1`
    have r1 := hrb h
    have t : x * ((a + b + m) / (a + 2 * m + 1)) * ((a + m) / (a + 2 * m) / r) ≤ x * (a + b) / (a + 1) := by
      have s1 : (a + m) / (a + 2 * m) / r ≤ (a + m) / (a + 2 * m) := div_le_self q0.le r1
      have s2 : (a + m) / (a + 2 * m) ≤ 1 := (div_le_one p1).2 (by linarith)
      have s3 : (a + b + m) / (a + 2 * m + 1) * ((a + m) / (a + 2 * m)) ≤ (a + b) / (a + 1) := by
        rcases Nat.eq_zero_or_pos m with h0 | h0
        · subst h0; push_cast; simp only [add_zero, mul_zero]
          rw [div_self ha.ne', mul_one]
        · have hm1 : (1:ℝ) ≤ m := by exact_mod_cast h0
          refine le_trans (mul_le_of_le_one_right hg s2) ?_
          rw [div_le_div_iff₀ p2 (by linarith)]
          nlinarith
      calc _ ≤ x * ((a + b + m) / (a + 2 * m + 1)) * ((a + m) / (a + 2 * m)) := mul_le_mul_of_nonneg_left s1 (by positivity)
        _ = x * ((a + b + m) / (a + 2 * m + 1) * ((a + m) / (a + 2 * m))) := by ring
        _ ≤ x * ((a + b) / (a + 1)) := mul_le_mul_of_nonneg_left s3 hx
        _ = _ := by ring
    rw [e, ec]; linarith
  · have : x * ((a + b + m) / (a + 2 * m + 1)) ≤ x := mul_le_of_le_one_right hx ((div_le_one p2).2 (by linarith))
    linarith

theorem betaR_even (ha : 0 < a) (hx : 0 ≤ x) (h1 : x ≤ 1 - F) (hF : 0 < F) (m : ℕ) {r r' : ℝ}
    (hr : F ≤ r) (hr' : 1 - x * ((a + b + m) / (a + 2 * m + 1)) ≤ r) (hb : 0 < b)
    (e : r' = 1 + betaCoeff a b x (2 * (m + 1)) / r) :
    1 - x * (((m + 1 : ℕ) : ℝ) / (a + 2 * (m + 1 : ℕ))) ≤ r' ∧ ((m + 1 : ℕ) ≤ b → 1 ≤ r') := by
  have hm : (0:ℝ) ≤ m := Nat.cast_nonneg m
  have r0 : 0 < r := lt_of_lt_of_le hF hr
  have hx1 : x ≤ 1 := by linarith
  have p1 : 0 < a + 2 * m + 1 := by linarith
  have p2 : 0 < a + 2 * m + 2 := by linarith
  rw [betaCoeff_even a b x (m + 1) (by omega)] at e
  push_cast at e ⊢
  have e1 : a + 2 * ((m:ℝ) + 1) - 1 = a + 2 * m + 1 := by ring
  have e2 : a + 2 * ((m:ℝ) + 1) = a + 2 * m + 2 := by ring
  rw [e1, e2] at e
  rw [e2]
  have big : (m:ℝ) + 1 ≤ b → 1 ≤ r' := by
    intro h
    rw [e]
    have : 0 ≤ ((m:ℝ) + 1) * (b - (m + 1)) * x / ((a + 2 * m + 1) * (a + 2 * m + 2)) / r := by
      have : 0 ≤ b - ((m:ℝ) + 1) := by linarith
      positivity
    linarith
  refine ⟨?_, big⟩
  rcases le_total ((m:ℝ) + 1) b with h | h
  · have : 0 ≤ x * (((m:ℝ) + 1) / (a + 2 * m + 2)) := by positivity
    have := big h
    linarith
  · have q : (m + 1 - b) / (a + 2 * m + 1) ≤ r := by
      have e3 : ((m:ℝ) + 1 - b) / (a + 2 * m + 1) = 1 - (a + b + m) / (a + 2 * m + 1) := by field_simp; ring
      rw [e3]
      have : x * ((a + b + m) / (a + 2 * m + 1)) ≤ (a + b + m) / (a + 2 * m + 1) := mul_le_of_le_one_left (by positivity) hx1
      linarith
    have q1 : (m + 1 - b) / (a + 2 * m + 1) / r ≤ 1 := (div_le_one r0).2 q
    have ec : ((m:ℝ) + 1) * (b - (m + 1)) * x / ((a + 2 * m + 1) * (a + 2 * m + 2)) / r =
        -(x * (((m:ℝ) + 1) / (a + 2 * m + 2)) * ((m + 1 - b) / (a + 2 * m + 1) / r)) := by
      field_simp; ring
    rw [e, ec]
    have : x * (((m:ℝ) + 1) / (a + 2 * m + 2)) * ((m + 1 - b) / (a + 2 * m + 1) / r) ≤ x * (((m:ℝ) + 1) / (a + 2 * m + 2)) :=
      mul_le_of_le_one_right (by positivity) q1
    linarith

theorem betaR_lb (ha : 0 < a) (hb : 0 < b) (hx : 0 ≤ x) (h1 : x ≤ 1 - F) (h2 : x * (a + b) / (a + 1) ≤ 1 - F) (hF : 0 < F) (R : ℕ → ℝ)
    (hR1 : F ≤ R 1) (hR1' : 1 - x * ((a + b) / (a + 1)) ≤ R 1) (hR : ∀ k, 1 ≤ k → 0 < R k → R (k + 1) = 1 + betaCoeff a b x (k + 1) / R k) :
    ∀ k, 1 ≤ k → F ≤ R k := by
  have low : ∀ m : ℕ, F ≤ 1 - x * (((m + 1 : ℕ) : ℝ) / (a + 2 * (m + 1 : ℕ))) := by
    intro m
    have hm : (0:ℝ) ≤ (m + 1 : ℕ) := Nat.cast_nonneg _
    have : x * (((m + 1 : ℕ) : ℝ) / (a + 2 * (m + 1 : ℕ))) ≤ x := mul_le_of_le_one_right hx ((div_le_one (by linarith)).2 (by linarith))
    linarith
  have main : ∀ m : ℕ, F ≤ R (2 * m + 1) ∧ 1 - x * ((a + b + m) / (a + 2 * m + 1)) ≤ R (2 * m + 1) := by
    intro m
    induction m with
    | zero => push_cast; simp only [add_zero, mul_zero, zero_add]; exact ⟨hR1, hR1'⟩
    | succ m ih =>
      have s1 := hR (2 * m + 1) (by omega) (lt_of_lt_of_le hF ih.1)
      rw [show 2 * m + 1 + 1 = 2 * (m + 1) by ring] at s1
      have t1 := betaR_even ha hx h1 hF m ih.1 ih.2 hb s1
      have s2 := hR (2 * (m + 1)) (by omega) (lt_of_lt_of_le hF (le_trans (low m) t1.1))
      exact betaR_odd ha hb hx h1 h2 hF (m + 1) t1.1 t1.2 s2
  intro k hk
  rcases Nat.even_or_odd' k with ⟨m, h | h⟩
  · obtain ⟨m, rfl⟩ : ∃ j, m = j + 1 := ⟨m - 1, by omega⟩
    have ih := main m
    have s1 := hR (2 * m + 1) (by omega) (lt_of_lt_of_le hF ih.1)
    rw [show 2 * m + 1 + 1 = 2 * (m + 1) by ring] at s1
    have t1 := betaR_even ha hx h1 hF m ih.1 ih.2 hb s1
    rw [h]; exact le_trans (low m) t1.1
  · rw [h]; exact (main m).1

end

/-- the hypothesis of `betacf_convergent` holds whenever `0 ≤ x`, `x ≤ 1 - FPMIN` and `x(a+b)/(a+1) ≤ 1 - FPMIN` -/
theorem betaFraction_unguarded (a b x : ℝ) (ha : 0 < a) (hb : 0 < b) (hx : 0 ≤ x) (h1 : x ≤ 1 - 1 / 2 ^ 970)
    (h2 : x * (a + b) / (a + 1) ≤ 1 - 1 / 2 ^ 970) (N : ℕ) : Unguarded (betaFraction a b x) N := by
  intro k hk _
  have hF := fpmin_pos_real
  generalize (1 / 2 ^ 970 : ℝ) = F at *
  set g := betaFraction a b x with hg
  have ratio : ∀ S : ℕ → ℝ, (∀ k, S (k + 2) = 1 * S (k + 1) + betaCoeff a b x (k + 1) * S k) → ∀ k, 1 ≤ k → 0 < S (k + 1) / S k →
      S (k + 1 + 1) / S (k + 1) = 1 + betaCoeff a b x (k + 1) / (S (k + 1) / S k) := by
    intro S hS k _ h
    have z1 : S (k + 1) ≠ 0 := by intro z; rw [z, zero_div] at h; exact lt_irrefl _ h
    have z2 : S k ≠ 0 := by intro z; rw [z, div_zero] at h; exact lt_irrefl _ h
    rw [hS]; field_simp
  have n0 : g.nums 0 = 0 := num_zero _ _
  have n1 : g.nums 1 = 1 := num_one _ _
  have d0 : g.dens 0 = 1 := den_zero _ _
  have d1 : g.dens 1 = 1 := den_one _ _
  have n2 : g.nums (1 + 1) = 1 * g.nums 1 + betaCoeff a b x 1 * g.nums 0 := num_rec _ _ 0
  have d2 : g.dens (1 + 1) = 1 * g.dens 1 + betaCoeff a b x 1 * g.dens 0 := den_rec _ _ 0
  rw [n1, n0, mul_one, mul_zero, add_zero] at n2
  have e : betaCoeff a b x 1 = -(x * ((a + b) / (a + 1))) := by
    have := betaCoeff_odd a b x 0
    rw [show 2 * 0 + 1 = 1 from rfl] at this
    rw [this]; push_cast; simp only [add_zero, mul_zero]; field_simp
  rw [d1, d0, mul_one, mul_one, e] at d2
  have q : 0 ≤ x * ((a + b) / (a + 1)) := by positivity
  have q' : x * ((a + b) / (a + 1)) = x * (a + b) / (a + 1) := by ring
  constructor
  · refine le_trans ?_ (le_abs_self _)
    refine betaR_lb ha hb hx h1 h2 hF (fun k => g.nums (k + 1) / g.nums k) ?_ ?_ (ratio _ fun k => num_rec _ _ k) k hk
    · simp only [n2, n1]; linarith
    · simp only [n2, n1]; linarith
  · refine le_trans ?_ (le_abs_self _)
    refine betaR_lb ha hb hx h1 h2 hF (fun k => g.dens (k + 1) / g.dens k) ?_ ?_ (ratio _ fun k => den_rec _ _ k) k hk
    · simp only [d2, d1, div_one]; linarith
    · simp only [d2, d1, div_one]; linarith

/-- the hypothesis of `betacf_convergent` is met at `a = 2`, `b = 3`, `x = 1/4` -/
example : Unguarded (betaFraction 2 3 (1/4)) 20000 :=
  betaFraction_unguarded 2 3 (1/4) (by norm_num) (by norm_num) (by norm_num)
    (by have : (1 / 2 ^ 970 : ℝ) ≤ 1 / 2 ^ 2 := one_div_le_one_div_of_le (by norm_num) (pow_le_pow_right₀ (by norm_num) (by norm_num))
        linarith)
    (by have : (1 / 2 ^ 970 : ℝ) ≤ 1 / 2 ^ 2 := one_div_le_one_div_of_le (by norm_num) (pow_le_pow_right₀ (by norm_num) (by norm_num))
        linarith) 20000

/-- C58: on the direct branch, `betai(a, b, x)` is `exp(lnΓ(a+b) - lnΓ(a) - lnΓ(b) + a ln x + b ln(1-x))/a` times a convergent of the
continued fraction -/
theorem betai_convergent [Cfg] (a b x : ℝ) (ha : 0 < a) (hb : 0 < b) (hab : a ≤ 3000 ∨ b ≤ 3000) (hx : 0 < x)
    (hd : x < (a + 1) / (a + 2 * b)) (h1 : x ≤ 1 - 1 / 2 ^ 970) (h2 : x * (a + b) / (a + 1) ≤ 1 - 1 / 2 ^ 970) :
    ∃ j, 1 ≤ j ∧ j ≤ 10000 ∧ Returns (betai a b x)
      (Real.exp (lnGamma (a + b) - lnGamma a - lnGamma b + a * Real.log x + b * Real.log (1 - x)) *
        (betaFraction a b x).convs (2 * j) / a) := by
  obtain ⟨j, k1, k2, k3, -⟩ := betacf_convergent a b x ha (betaFraction_unguarded a b x ha hb hx.le h1 h2 20000)
  refine ⟨j, k1, k2, ?_⟩
  have L : ∀ u v : ℝ, (u <ᶠ v) = decide (u < v) := fun _ _ => rfl
  have Le : ∀ u v : ℝ, (u ≤ᶠ v) = decide (u ≤ v) := fun _ _ => rfl
  have Eq' : ∀ u v : ℝ, (u ==ᶠ v) = decide (u = v) := fun _ _ => rfl
  have hF := fpmin_pos_real
  have hx1 : x < 1 := by linarith
  have p0 : (0.0:ℝ) = 0 := by norm_num
  have p1 : (1.0:ℝ) = 1 := by norm_num
  have p2 : (2.0:ℝ) = 2 := by norm_num
  have pn : (Arith.ofNat 3000 : ℝ) = 3000 := by show ((3000 : ℕ) : ℝ) = _; norm_num
  unfold Returns betai
  rw [← k3]
  simp only [L, Le, Eq', p0, p1, p2, pn, ha, hb, hx.le, hx1.le, hx.ne', hx1.ne, mul_comm b 2, hd, decide_true, decide_false, Bool.and_true, Bool.not_true,
    Bool.or_self, Bool.false_eq_true, if_false, if_true]
  rw [if_neg]
  · rfl
  · simp only [Bool.and_eq_true, decide_eq_true_eq, not_and, not_lt]
    intro h
    rcases hab with h' | h'
    · linarith
    · exact h'

end Verif
