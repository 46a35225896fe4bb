import Verif.Model.Gamma
import Verif.Proofs.Inst
import Verif.SpecIncGamma
import Mathlib.Analysis.SpecialFunctions.Gamma.BohrMollerup
import Mathlib.Analysis.SpecialFunctions.Integrals.Basic
import Mathlib.MeasureTheory.Integral.IntervalIntegral.FundThmCalculus

/-! # The lower incomplete gamma function over the reals and its series -/

namespace Verif
open Real

theorem lg_integrable {a x : ℝ} (ha : 0 < a) : IntervalIntegrable (fun t : ℝ => t^(a-1) * Real.exp (-t)) MeasureTheory.volume 0 x := by
  refine IntervalIntegrable.mul_continuousOn ?_ ?_
  · exact intervalIntegral.intervalIntegrable_rpow' (by linarith)
  · exact (Real.continuous_exp.comp continuous_neg).continuousOn

theorem lowerGamma_nonneg {a x : ℝ} (hx : 0 ≤ x) : 0 ≤ lowerGamma a x := by
  refine intervalIntegral.integral_nonneg hx ?_
  intro t ht
  exact mul_nonneg (Real.rpow_nonneg ht.1 _) (Real.exp_pos _).le

theorem int_rpow {a x : ℝ} (ha : 0 < a) : ∫ t in (0:ℝ)..x, t^(a-1) = x^a / a := by
  rw [integral_rpow (Or.inl (by linarith))]
  simp [Real.zero_rpow ha.ne']

theorem lowerGamma_le {a x : ℝ} (ha : 0 < a) (hx : 0 ≤ x) : lowerGamma a x ≤ x^a / a := by
  rw [← int_rpow ha]
  refine intervalIntegral.integral_mono_on hx (lg_integrable ha) (intervalIntegral.intervalIntegrable_rpow' (by linarith)) ?_
  intro t ht
  have h1 : Real.exp (-t) ≤ 1 := Real.exp_le_one_iff.2 (by linarith [ht.1])
  have h2 : 0 ≤ t^(a-1) := Real.rpow_nonneg ht.1 _
  nlinarith

theorem lowerGamma_ge {a x : ℝ} (ha : 0 < a) (hx : 0 ≤ x) : x^a * Real.exp (-x) / a ≤ lowerGamma a x := by
  have e : x^a * Real.exp (-x) / a = ∫ t in (0:ℝ)..x, t^(a-1) * Real.exp (-x) := by
    rw [intervalIntegral.integral_mul_const, int_rpow ha]; ring
  rw [e]
  refine intervalIntegral.integral_mono_on hx ((intervalIntegral.intervalIntegrable_rpow' (by linarith)).mul_const _) (lg_integrable ha) ?_
  intro t ht
  exact mul_le_mul_of_nonneg_left (Real.exp_le_exp.2 (by linarith [ht.2])) (Real.rpow_nonneg ht.1 _)

/-- integration by parts -/
theorem lowerGamma_rec {a x : ℝ} (ha : 0 < a) (hx : 0 ≤ x) : a * lowerGamma a x = x^a * Real.exp (-x) + lowerGamma (a+1) x := by
  have hc : ContinuousOn (fun t : ℝ => t^a * Real.exp (-t)) (Set.Icc 0 x) :=
    ((Real.continuous_rpow_const ha.le).mul (Real.continuous_exp.comp continuous_neg)).continuousOn
  have hd : ∀ t ∈ Set.Ioo 0 x, HasDerivAt (fun t : ℝ => t^a * Real.exp (-t)) (a * (t^(a-1) * Real.exp (-t)) - t^(a+1-1) * Real.exp (-t)) t := by
    intro t ht
    have h1 := Real.hasDerivAt_rpow_const (p := a) (Or.inl ht.1.ne' : t ≠ 0 ∨ 1 ≤ a)
    have h2 : HasDerivAt (fun t : ℝ => Real.exp (-t)) (-Real.exp (-t)) t := by
      have := (hasDerivAt_neg t).exp
      rwa [mul_neg_one] at this
    refine (h1.mul h2).congr_deriv ?_
    rw [add_sub_cancel_right]; ring
  have hi : IntervalIntegrable (fun t : ℝ => a * (t^(a-1) * Real.exp (-t)) - t^(a+1-1) * Real.exp (-t)) MeasureTheory.volume 0 x :=
    ((lg_integrable ha).const_mul a).sub (lg_integrable (by linarith))
  have h := intervalIntegral.integral_eq_sub_of_hasDerivAt_of_le hx hc hd hi
  rw [intervalIntegral.integral_sub ((lg_integrable ha).const_mul a) (lg_integrable (by linarith)), intervalIntegral.integral_const_mul] at h
  simp only [Real.zero_rpow ha.ne', zero_mul, sub_zero] at h
  unfold lowerGamma
  linarith

/-- the `k`-th term `x^k / (a (a+1) ⋯ (a+k))` of the series -/
noncomputable def serTerm (a x : ℝ) (k : ℕ) : ℝ := x^k / ∏ j ∈ Finset.range (k+1), (a + j)

theorem prod_pos' {a : ℝ} (ha : 0 < a) (k : ℕ) : 0 < ∏ j ∈ Finset.range k, (a + (j:ℝ)) :=
  Finset.prod_pos (fun j _ => by positivity)

theorem serTerm_succ {a x : ℝ} (k : ℕ) : serTerm a x (k+1) = serTerm a x k * (x / (a + (k+1 : ℕ))) := by
  unfold serTerm
  rw [Finset.prod_range_succ _ (k+1), pow_succ, mul_div_mul_comm]

theorem lowerGamma_series {a x : ℝ} (ha : 0 < a) (hx : 0 ≤ x) (n : ℕ) :
    lowerGamma a x = x^a * Real.exp (-x) * ∑ k ∈ Finset.range (n+1), serTerm a x k
      + lowerGamma (a + (n+1 : ℕ)) x / ∏ j ∈ Finset.range (n+1), (a + (j:ℝ)) := by
  induction n with
  | zero =>
    have := lowerGamma_rec ha hx
    simp only [zero_add, Finset.sum_range_one, Finset.prod_range_one, serTerm, pow_zero, Nat.cast_zero, add_zero, Nat.cast_one]
    field_simp
    linarith
  | succ n ih =>
    rw [ih]
    have hp : 0 < a + ((n+1 : ℕ):ℝ) := by positivity
    have h := lowerGamma_rec hp hx
    have hq := prod_pos' ha (n+1)
    rw [Finset.sum_range_succ _ (n+1), Finset.prod_range_succ _ (n+1)]
    have hx' : x^(a + ((n+1 : ℕ):ℝ)) = x^a * x^(n+1) := by
      rcases eq_or_lt_of_le hx with h0 | h0
      · rw [← h0, Real.zero_rpow hp.ne', Real.zero_rpow ha.ne', zero_mul]
      · rw [Real.rpow_add h0, Real.rpow_natCast]
    have e : a + ((n+1+1 : ℕ):ℝ) = a + ((n+1 : ℕ):ℝ) + 1 := by push_cast; ring
    rw [e]
    have h' : lowerGamma (a + ((n+1 : ℕ):ℝ)) x = (x^a * x^(n+1) * Real.exp (-x) + lowerGamma (a + ((n+1 : ℕ):ℝ) + 1) x) / (a + ((n+1 : ℕ):ℝ)) := by
      rw [eq_div_iff hp.ne', ← hx']; linarith
    rw [h']
    unfold serTerm
    rw [Finset.prod_range_succ _ (n+1)]
    field_simp
    ring

theorem lowerGamma_tail {a x : ℝ} (ha : 0 < a) (hx : 0 ≤ x) (n : ℕ) :
    0 ≤ lowerGamma a x - x^a * Real.exp (-x) * ∑ k ∈ Finset.range (n+1), serTerm a x k ∧
    lowerGamma a x - x^a * Real.exp (-x) * ∑ k ∈ Finset.range (n+1), serTerm a x k ≤ x^a * serTerm a x (n+1) := by
  have h := lowerGamma_series ha hx n
  have hp : 0 < a + ((n+1 : ℕ):ℝ) := by positivity
  have hq := prod_pos' ha (n+1)
  have e : lowerGamma a x - x^a * Real.exp (-x) * ∑ k ∈ Finset.range (n+1), serTerm a x k =
      lowerGamma (a + (n+1 : ℕ)) x / ∏ j ∈ Finset.range (n+1), (a + (j:ℝ)) := by linarith
  rw [e]
  refine ⟨div_nonneg (lowerGamma_nonneg hx) hq.le, ?_⟩
  have h2 := lowerGamma_le hp hx
  have hx' : x^(a + ((n+1 : ℕ):ℝ)) = x^a * x^(n+1) := by
    rcases eq_or_lt_of_le hx with h0 | h0
    · rw [← h0, Real.zero_rpow hp.ne', Real.zero_rpow ha.ne', zero_mul]
    · rw [Real.rpow_add h0, Real.rpow_natCast]
  rw [hx'] at h2
  unfold serTerm
  rw [Finset.prod_range_succ _ (n+1), div_le_iff₀ hq]
  refine h2.trans (le_of_eq ?_)
  field_simp

theorem gamma_succ_le_one {a : ℝ} (h0 : 0 ≤ a) (h1 : a ≤ 1) : Real.Gamma (a+1) ≤ 1 := by
  have h := Real.convexOn_Gamma.2 (by simp : (1:ℝ) ∈ Set.Ioi 0) (by simp : (2:ℝ) ∈ Set.Ioi 0) (by linarith : 0 ≤ 1 - a) h0 (by ring)
  simp only [smul_eq_mul, Real.Gamma_one, Real.Gamma_two] at h
  have e : (1 - a) * 1 + a * 2 = a + 1 := by ring
  rw [e] at h; linarith

/-- `P(a,x) ≥ x^a e^(-x)` for `0 < a ≤ 1` -/
theorem regP_lower {a x : ℝ} (ha : 0 < a) (ha1 : a ≤ 1) (hx : 0 ≤ x) : x^a * Real.exp (-x) ≤ regP a x := by
  unfold regP
  have hg := Real.Gamma_pos_of_pos ha
  have h1 := lowerGamma_ge ha hx
  have h2 := gamma_succ_le_one ha.le ha1
  rw [Real.Gamma_add_one ha.ne'] at h2
  rw [le_div_iff₀ hg]
  refine le_trans ?_ h1
  rw [le_div_iff₀ ha]
  have h3 : 0 ≤ x^a * Real.exp (-x) := mul_nonneg (Real.rpow_nonneg hx _) (Real.exp_pos _).le
  nlinarith

theorem lowerGamma_shift {s x : ℝ} (hs : 0 < s) (hx : 0 ≤ x) : lowerGamma (s+1) x ≤ x * lowerGamma s x := by
  unfold lowerGamma
  rw [← intervalIntegral.integral_const_mul]
  refine intervalIntegral.integral_mono_on hx (lg_integrable (by linarith)) ((lg_integrable hs).const_mul x) ?_
  intro t ht
  have h0 : 0 ≤ t^(s-1) := Real.rpow_nonneg ht.1 _
  have e : t^(s+1-1) = t * t^(s-1) := by
    rcases eq_or_lt_of_le ht.1 with h | h
    · rw [← h, zero_mul, Real.zero_rpow (by linarith)]
    · rw [← Real.rpow_one_add' ht.1 (by linarith)]; congr 1; ring
  rw [e]
  have h1 := (Real.exp_pos (-t)).le
  have := mul_nonneg h0 h1
  have h2 := mul_le_mul_of_nonneg_right ht.2 this
  linarith

/-- relative truncation error of the series -/
theorem lowerGamma_trunc {a x : ℝ} (ha : 0 < a) (hx : 0 ≤ x) (n : ℕ) (hn : x < a + (n+1 : ℕ)) :
    x^a * Real.exp (-x) * ∑ k ∈ Finset.range (n+1), serTerm a x k ≤ lowerGamma a x ∧
    lowerGamma a x - x^a * Real.exp (-x) * ∑ k ∈ Finset.range (n+1), serTerm a x k ≤
      x^a * Real.exp (-x) * (serTerm a x n * (x / (a + (n+1 : ℕ) - x))) := by
  have h := lowerGamma_series ha hx n
  have hp : 0 < a + ((n+1 : ℕ):ℝ) := by positivity
  have hq := prod_pos' ha (n+1)
  have h1 := lowerGamma_rec hp hx
  have h2 := lowerGamma_shift hp hx
  have h3 : lowerGamma (a + ((n+1 : ℕ):ℝ)) x ≤ x^(a + ((n+1 : ℕ):ℝ)) * Real.exp (-x) / (a + (n+1 : ℕ) - x) := by
    rw [le_div_iff₀ (by linarith)]; linarith
  have hx' : x^(a + ((n+1 : ℕ):ℝ)) = x^a * x^(n+1) := by
    rcases eq_or_lt_of_le hx with h0 | h0
    · rw [← h0, Real.zero_rpow hp.ne', Real.zero_rpow ha.ne', zero_mul]
    · rw [Real.rpow_add h0, Real.rpow_natCast]
  rw [hx'] at h3
  have e : lowerGamma a x - x^a * Real.exp (-x) * ∑ k ∈ Finset.range (n+1), serTerm a x k =
      lowerGamma (a + (n+1 : ℕ)) x / ∏ j ∈ Finset.range (n+1), (a + (j:ℝ)) := by linarith
  have h0 : 0 ≤ lowerGamma (a + (n+1 : ℕ)) x / ∏ j ∈ Finset.range (n+1), (a + (j:ℝ)) := div_nonneg (lowerGamma_nonneg hx) hq.le
  refine ⟨by linarith, ?_⟩
  rw [e]
  have h4 := div_le_div_of_nonneg_right h3 hq.le
  refine h4.trans (le_of_eq ?_)
  unfold serTerm
  have hd : a + ((n+1 : ℕ):ℝ) - x ≠ 0 := by linarith
  field_simp
  ring

theorem gserLoop_real_aux {a x : ℝ} : ∀ (n j : ℕ), ∃ m, j ≤ m ∧ m ≤ j + n ∧
    gserLoop x n (a + (j:ℝ)) (serTerm a x j) (∑ k ∈ Finset.range (j+1), serTerm a x k) = ∑ k ∈ Finset.range (m+1), serTerm a x k ∧
    (m < j + n → j < m ∧ |serTerm a x m| < |∑ k ∈ Finset.range (m+1), serTerm a x k| * EPS) := by
  intro n
  induction n with
  | zero => intro j; exact ⟨j, le_rfl, by omega, rfl, fun h => by omega⟩
  | succ n ih =>
    intro j
    have e1 : a + (j:ℝ) + 1.0 = a + ((j+1 : ℕ):ℝ) := by push_cast; norm_num; ring
    have e2 : serTerm a x j * (x / (a + ((j+1 : ℕ):ℝ))) = serTerm a x (j+1) := (serTerm_succ j).symm
    have e3 : ∑ k ∈ Finset.range (j+1), serTerm a x k + serTerm a x (j+1) = ∑ k ∈ Finset.range (j+1+1), serTerm a x k :=
      (Finset.sum_range_succ _ _).symm
    unfold gserLoop
    simp only [e1, e2, e3]
    by_cases hc : Arith.lt (Arith.abs (serTerm a x (j+1))) (Arith.abs (∑ k ∈ Finset.range (j+1+1), serTerm a x k) * EPS) = true
    · rw [if_pos hc]
      exact ⟨j+1, by omega, by omega, rfl, fun _ => ⟨by omega, of_decide_eq_true hc⟩⟩
    · rw [if_neg hc]
      obtain ⟨m, h1, h2, h3, h4⟩ := ih (j+1)
      exact ⟨m, by omega, by omega, h3, fun h => ⟨by omega, (h4 (by omega)).2⟩⟩

theorem gserLoop_real {a x : ℝ} (n : ℕ) : ∃ m, m ≤ n ∧
    gserLoop x n a (1.0 / a) (1.0 / a) = ∑ k ∈ Finset.range (m+1), serTerm a x k ∧
    (m < n → 0 < m ∧ |serTerm a x m| < |∑ k ∈ Finset.range (m+1), serTerm a x k| * EPS) := by
  obtain ⟨m, h1, h2, h3, h4⟩ := gserLoop_real_aux (a := a) (x := x) n 0
  have e : serTerm a x 0 = 1.0 / a := by unfold serTerm; norm_num
  simp only [Nat.cast_zero, add_zero, zero_add, Finset.sum_range_one, e] at h3
  exact ⟨m, by omega, h3, fun h => ⟨(h4 (by omega)).1, (h4 (by omega)).2⟩⟩

end Verif
