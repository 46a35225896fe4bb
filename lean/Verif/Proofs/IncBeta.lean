import Verif.SpecIncBeta
import Verif.Proofs.HypGeo
import Mathlib.Probability.Distributions.Beta

/-!
# The incomplete beta function: integrability, reflection, series
-/

namespace Verif
open MeasureTheory Filter

theorem ib_integrable_left {a b x : ℝ} (ha : 0 < a) (h0 : 0 ≤ x) (h1 : x < 1) :
    IntervalIntegrable (fun t : ℝ => t^(a-1) * (1-t)^(b-1)) volume 0 x := by
  refine (intervalIntegral.intervalIntegrable_rpow' (by linarith)).mul_continuousOn ?_
  intro t ht
  rw [Set.uIcc_of_le h0] at ht
  refine ContinuousAt.continuousWithinAt ?_
  exact (continuousAt_const.sub continuousAt_id).rpow_const (Or.inl (by show (1:ℝ) - t ≠ 0; exact (by linarith [ht.2] : (0:ℝ) < 1 - t).ne'))

theorem ib_integrable {a b : ℝ} (ha : 0 < a) (hb : 0 < b) : IntervalIntegrable (fun t : ℝ => t^(a-1) * (1-t)^(b-1)) volume 0 1 := by
  have h1 := ib_integrable_left (b := b) ha (by norm_num : (0:ℝ) ≤ 1/2) (by norm_num)
  have h2 := (ib_integrable_left (b := a) hb (by norm_num : (0:ℝ) ≤ 1/2) (by norm_num)).comp_sub_left 1
  refine h1.trans ?_
  have e : (fun t : ℝ => (1 - t)^(b-1) * (1-(1-t))^(a-1)) = fun t : ℝ => t^(a-1) * (1-t)^(b-1) := by
    funext t; rw [sub_sub_cancel, mul_comm]
  rw [e] at h2
  norm_num at h2
  exact h2.symm

theorem ib_integrable' {a b x y : ℝ} (ha : 0 < a) (hb : 0 < b) (h0 : 0 ≤ x) (hxy : x ≤ y) (h1 : y ≤ 1) :
    IntervalIntegrable (fun t : ℝ => t^(a-1) * (1-t)^(b-1)) volume x y :=
  (ib_integrable ha hb).mono_set (by
    rw [Set.uIcc_of_le hxy, Set.uIcc_of_le zero_le_one]; exact Set.Icc_subset_Icc h0 h1)

theorem incBeta_nonneg {a b x : ℝ} (h0 : 0 ≤ x) (h1 : x ≤ 1) : 0 ≤ incBeta a b x := by
  unfold incBeta
  exact intervalIntegral.integral_nonneg h0 fun t ht =>
    mul_nonneg (Real.rpow_nonneg ht.1 _) (Real.rpow_nonneg (by linarith [ht.2]) _)

theorem incBeta_flip {a b x : ℝ} : ∫ t in x..1, t^(a-1) * (1-t)^(b-1) = incBeta b a (1 - x) := by
  unfold incBeta
  have h := intervalIntegral.integral_comp_sub_left (a := x) (b := 1) (fun t : ℝ => t^(b-1) * (1-t)^(a-1)) 1
  rw [sub_self] at h
  rw [← h]
  congr 1
  funext t
  rw [sub_sub_cancel, mul_comm]

theorem incBeta_add {a b x : ℝ} (ha : 0 < a) (hb : 0 < b) (h0 : 0 ≤ x) (h1 : x ≤ 1) :
    incBeta a b x + incBeta b a (1 - x) = eulerBeta a b := by
  rw [← incBeta_flip]
  exact intervalIntegral.integral_add_adjacent_intervals (ib_integrable' ha hb le_rfl h0 h1) (ib_integrable' ha hb h0 h1 le_rfl)

theorem eulerBeta_symm {a b : ℝ} : eulerBeta a b = eulerBeta b a := by
  have h := incBeta_flip (a := a) (b := b) (x := 0)
  rw [sub_zero] at h
  exact h

/-- Euler: `B(a,b) = Γ(a)Γ(b)/Γ(a+b)` -/
theorem eulerBeta_gamma {a b : ℝ} (ha : 0 < a) (hb : 0 < b) :
    eulerBeta a b = Real.Gamma a * Real.Gamma b / Real.Gamma (a + b) := by
  have h := ProbabilityTheory.beta_eq_betaIntegralReal a b ha hb
  unfold ProbabilityTheory.beta at h
  rw [h]
  unfold eulerBeta incBeta Complex.betaIntegral
  rw [intervalIntegral.integral_of_le zero_le_one, intervalIntegral.integral_of_le zero_le_one, ← RCLike.re_to_complex, ← integral_re]
  · refine setIntegral_congr_fun measurableSet_Ioc fun x ⟨hx1, hx₂⟩ ↦ ?_
    norm_cast
    rw [← Complex.ofReal_cpow, ← Complex.ofReal_cpow, RCLike.re_to_complex, Complex.re_mul_ofReal, Complex.ofReal_re]
    all_goals linarith
  · have := Complex.betaIntegral_convergent (u := a) (v := b) (by simpa) (by simpa)
    rwa [intervalIntegrable_iff_integrableOn_Ioc_of_le (by simp), IntegrableOn] at this

theorem eulerBeta_pos {a b : ℝ} (ha : 0 < a) (hb : 0 < b) : 0 < eulerBeta a b := by
  rw [eulerBeta_gamma ha hb]
  exact div_pos (mul_pos (Real.Gamma_pos_of_pos ha) (Real.Gamma_pos_of_pos hb)) (Real.Gamma_pos_of_pos (by linarith))

/-- reflection: `I_x(a,b) + I_(1-x)(b,a) = 1` -/
theorem regBeta_add {a b x : ℝ} (ha : 0 < a) (hb : 0 < b) (h0 : 0 ≤ x) (h1 : x ≤ 1) : regBeta a b x + regBeta b a (1 - x) = 1 := by
  unfold regBeta
  rw [eulerBeta_symm (a := b), ← add_div, incBeta_add ha hb h0 h1, div_self (eulerBeta_pos ha hb).ne']

theorem regBeta_nonneg {a b x : ℝ} (ha : 0 < a) (hb : 0 < b) (h0 : 0 ≤ x) (h1 : x ≤ 1) : 0 ≤ regBeta a b x :=
  div_nonneg (incBeta_nonneg h0 h1) (eulerBeta_pos ha hb).le

theorem regBeta_le_one {a b x : ℝ} (ha : 0 < a) (hb : 0 < b) (h0 : 0 ≤ x) (h1 : x ≤ 1) : regBeta a b x ≤ 1 := by
  have := regBeta_add ha hb h0 h1
  have := regBeta_nonneg hb ha (by linarith : 0 ≤ 1 - x) (by linarith)
  linarith

/-- integration by parts -/
theorem incBeta_rec {a b x : ℝ} (ha : 0 < a) (h0 : 0 ≤ x) (h1 : x < 1) :
    a * incBeta a b x = x^a * (1-x)^b + (a + b) * incBeta (a + 1) b x := by
  have hc : ContinuousOn (fun t : ℝ => t^a * (1-t)^b) (Set.Icc 0 x) := by
    intro t ht
    refine ContinuousAt.continuousWithinAt ?_
    exact (continuousAt_id.rpow_const (Or.inr ha.le)).mul
      ((continuousAt_const.sub continuousAt_id).rpow_const (Or.inl (by show (1:ℝ) - t ≠ 0; exact (by linarith [ht.2] : (0:ℝ) < 1 - t).ne')))
  have hd : ∀ t ∈ Set.Ioo 0 x, HasDerivAt (fun t : ℝ => t^a * (1-t)^b)
      (a * (t^(a-1) * (1-t)^(b-1)) - (a + b) * (t^(a+1-1) * (1-t)^(b-1))) t := by
    intro t ht
    have p : 0 < 1 - t := by linarith [ht.2]
    have k1 := Real.hasDerivAt_rpow_const (p := a) (Or.inl ht.1.ne' : t ≠ 0 ∨ 1 ≤ a)
    have k2 : HasDerivAt (fun t : ℝ => (1-t)^b) (-1 * b * (1-t)^(b-1)) t :=
      ((hasDerivAt_id t).const_sub 1).rpow_const (Or.inl p.ne')
    refine (k1.mul k2).congr_deriv ?_
    have e1 : (1-t)^b = (1-t)^(b-1) * (1-t) := by rw [← Real.rpow_add_one p.ne']; congr 1; ring
    have e2 : t^a = t^(a-1) * t := by rw [← Real.rpow_add_one ht.1.ne']; congr 1; ring
    rw [add_sub_cancel_right, e1, e2]; ring
  have i1 := (ib_integrable_left (b := b) ha h0 h1).const_mul a
  have i2 := (ib_integrable_left (b := b) (by linarith : 0 < a + 1) h0 h1).const_mul (a + b)
  have h := intervalIntegral.integral_eq_sub_of_hasDerivAt_of_le h0 hc hd (i1.sub i2)
  rw [intervalIntegral.integral_sub i1 i2, intervalIntegral.integral_const_mul, intervalIntegral.integral_const_mul] at h
  simp only [Real.zero_rpow ha.ne', zero_mul, sub_zero] at h
  unfold incBeta
  linarith

theorem incBeta_shift {a b x : ℝ} (ha : 0 < a) (h0 : 0 ≤ x) (h1 : x < 1) : incBeta (a + 1) b x ≤ x * incBeta a b x := by
  unfold incBeta
  rw [← intervalIntegral.integral_const_mul]
  refine intervalIntegral.integral_mono_on h0 (ib_integrable_left (by linarith) h0 h1) ((ib_integrable_left ha h0 h1).const_mul x) ?_
  intro t ht
  rw [add_sub_cancel_right]
  rcases ht.1.eq_or_lt with h | h
  · rw [← h, Real.zero_rpow ha.ne', zero_mul]
    exact mul_nonneg h0 (mul_nonneg (Real.rpow_nonneg le_rfl _) (Real.rpow_nonneg (by norm_num) _))
  · have e2 : t^a = t * t^(a-1) := by rw [mul_comm, ← Real.rpow_add_one h.ne']; congr 1; ring
    rw [e2, mul_assoc]
    refine mul_le_mul_of_nonneg_right ht.2 (mul_nonneg (Real.rpow_nonneg ht.1 _) (Real.rpow_nonneg (by linarith [ht.2]) _))

theorem incBeta_shift_pow {a b x : ℝ} (ha : 0 < a) (h0 : 0 ≤ x) (h1 : x < 1) (n : ℕ) : incBeta (a + n) b x ≤ x ^ n * incBeta a b x := by
  induction n with
  | zero => simp
  | succ n ih =>
    have hn : (0:ℝ) ≤ n := Nat.cast_nonneg n
    have := incBeta_shift (a := a + n) (b := b) (by linarith) h0 h1
    push_cast
    rw [← add_assoc, pow_succ]
    nlinarith

theorem incBeta_partial {a b x : ℝ} (ha : 0 < a) (h0 : 0 < x) (h1 : x < 1) (n : ℕ) :
    a * incBeta a b x = x^a * (1-x)^b * ∑ k ∈ Finset.range n, Hyp.coef (a + b) 1 (a + 1) k * x ^ k
      + Hyp.coef (a + b) 1 (a + 1) n * (a + n) * incBeta (a + n) b x := by
  induction n with
  | zero => simp [Hyp.coef_zero]
  | succ n ih =>
    have hn : (0:ℝ) ≤ n := Nat.cast_nonneg n
    have r := incBeta_rec (a := a + n) (b := b) (by linarith) h0.le h1
    rw [ih, Finset.sum_range_succ, mul_assoc (Hyp.coef (a + b) 1 (a + 1) n), r, Hyp.coef_succ, Real.rpow_add h0, Real.rpow_natCast]
    have n1 : a + 1 + n ≠ 0 := by positivity
    push_cast
    rw [← add_assoc]
    field_simp
    ring

/-- `a B_x(a,b) = x^a (1-x)^b F(a+b, 1; a+1; x)` -/
theorem incBeta_series {a b x : ℝ} (ha : 0 < a) (hb : 0 < b) (h0 : 0 < x) (h1 : x < 1) :
    a * incBeta a b x = x^a * (1-x)^b * Hyp.F (a + b) 1 (a + 1) x := by
  have s1 := Hyp.summable (by linarith : 0 ≤ a + b) zero_le_one (by linarith : 0 < a + 1) h0.le h1
  have s2 := Hyp.summable (by linarith : 0 ≤ a + b) zero_le_two (by linarith : 0 < a + 1) h0.le h1
  have t1 := (s1.hasSum.tendsto_sum_nat).const_mul (x^a * (1-x)^b)
  have c2 : ∀ n, Hyp.coef (a + b) 2 (a + 1) n = Hyp.coef (a + b) 1 (a + 1) n * (1 + n) := by
    intro n
    have hn : (0:ℝ) ≤ n := Nat.cast_nonneg n
    unfold Hyp.coef
    induction n with
    | zero => simp
    | succ n ih =>
      have hn : (0:ℝ) ≤ n := Nat.cast_nonneg n
      have n1 : a + 1 + n ≠ 0 := by positivity
      rw [Finset.prod_range_succ, Finset.prod_range_succ, ih hn]
      push_cast
      field_simp
      ring
  have z : Tendsto (fun n : ℕ => Hyp.coef (a + b) 1 (a + 1) n * (a + n) * incBeta (a + n) b x) atTop (nhds 0) := by
    have t2 := (s2.tendsto_atTop_zero).mul_const ((1 + a) * incBeta a b x)
    rw [zero_mul] at t2
    refine squeeze_zero (fun n => ?_) (fun n => ?_) t2
    · have hn : (0:ℝ) ≤ n := Nat.cast_nonneg n
      exact mul_nonneg (mul_nonneg (Hyp.coef_nonneg (by linarith) zero_le_one (by linarith) n) (by linarith)) (incBeta_nonneg h0.le h1.le)
    · have hn : (0:ℝ) ≤ n := Nat.cast_nonneg n
      have c0 := Hyp.coef_nonneg (by linarith : 0 ≤ a + b) zero_le_one (by linarith : 0 < a + 1) n
      have i0 := incBeta_nonneg (a := a) (b := b) h0.le h1.le
      rw [c2]
      calc _ ≤ Hyp.coef (a + b) 1 (a + 1) n * ((1 + n) * (1 + a)) * (x ^ n * incBeta a b x) := by
            refine mul_le_mul ?_ (incBeta_shift_pow ha h0.le h1 n) (incBeta_nonneg h0.le h1.le) (by positivity)
            refine mul_le_mul_of_nonneg_left ?_ c0
            nlinarith
        _ = _ := by ring
  have t3 := t1.add z
  rw [add_zero] at t3
  refine tendsto_nhds_unique ?_ t3
  refine tendsto_const_nhds.congr fun n => ?_
  exact incBeta_partial ha h0 h1 n

end Verif
