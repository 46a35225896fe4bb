import Verif.Model.Beta
import Verif.Spec
import Mathlib.Analysis.SpecialFunctions.Pow.Real

/-! C82: `invbetai p a b` returns a number of `(0,1)` for every `a, b > 0` and `0 < p < 1`. -/

namespace Verif

theorem betai_real_ok {a b x : ℝ} (ha : 0 < a) (hb : 0 < b) (h0 : 0 ≤ x) (h1 : x ≤ 1) : ∃ v, betai a b x = .ok v := by
  have e1 : Arith.lt (0.0 : ℝ) a = true := decide_eq_true (by norm_num; exact ha)
  have e2 : Arith.lt (0.0 : ℝ) b = true := decide_eq_true (by norm_num; exact hb)
  have e3 : Arith.le (0.0 : ℝ) x = true := decide_eq_true (by norm_num; exact h0)
  have e4 : Arith.le x (1.0 : ℝ) = true := decide_eq_true (by norm_num; exact h1)
  unfold betai
  rw [e1, e2, e3, e4]
  simp only [Bool.and_self, Bool.not_true, Bool.false_eq_true, if_false]
  split_ifs <;> exact ⟨_, rfl⟩

theorem invbetaiLoop_real_ok {p a b a1 b1 afac : ℝ} (ha : 0 < a) (hb : 0 < b) (n : Nat) : ∀ (j : Nat) (x : ℝ), 0 < x → x < 1 →
    ∃ v, invbetaiLoop p a b a1 b1 afac n j x = .ok v ∧ 0 < v ∧ v < 1 := by
  induction n with
  | zero => intro j x h0 h1; exact ⟨x, rfl, h0, h1⟩
  | succ n ih =>
    intro j x h0 h1
    rw [invbetaiLoop]
    have e1 : Arith.eq x (0.0 : ℝ) = false := decide_eq_false (by norm_num; exact h0.ne')
    have e2 : Arith.eq x (1.0 : ℝ) = false := decide_eq_false (by norm_num; exact h1.ne)
    obtain ⟨v, hv⟩ := betai_real_ok ha hb h0.le h1.le
    rw [e1, e2, Bool.or_self, if_neg Bool.false_ne_true, hv]
    simp only [bind, Except.bind]
    generalize (v - p) / _ / _ = t
    -- the update kept above 0
    have lo : ∃ y : ℝ, (if Arith.le (x - t) (0.0 : ℝ) = true then 0.5 * (x - t + t) else x - t) = y ∧ 0 < y ∧ (1 ≤ y → y = x - t) := by
      refine ⟨_, rfl, ?_, ?_⟩
      · split_ifs with h
        · rw [sub_add_cancel]; positivity
        · have : ¬ (x - t ≤ 0.0) := fun k => h (decide_eq_true k)
          norm_num at this ⊢
          exact this
      · split_ifs with h
        · rw [sub_add_cancel]; intro h2; norm_num at h2; linarith
        · intro _; rfl
    obtain ⟨y, ey, y0, y1⟩ := lo
    rw [ey]
    have hi : ∃ z : ℝ, (if Arith.le (1.0 : ℝ) y = true then 0.5 * (y + t + 1.0) else y) = z ∧ 0 < z ∧ z < 1 := by
      refine ⟨_, rfl, ?_⟩
      split_ifs with h
      · have h' : (1.0 : ℝ) ≤ y := of_decide_eq_true h
        have := y1 (by norm_num at h'; exact h')
        rw [this, sub_add_cancel]
        constructor <;> norm_num <;> linarith
      · have h' : ¬ ((1.0 : ℝ) ≤ y) := fun k => h (decide_eq_true k)
        norm_num at h'
        exact ⟨y0, h'⟩
    obtain ⟨z, ez, z0, z1⟩ := hi
    rw [ez]
    by_cases hs : (Arith.lt (Arith.abs t) (EPS * z) && decide (0 < j)) = true
    · rw [if_pos hs]; exact ⟨z, rfl, z0, z1⟩
    · rw [if_neg hs]; exact ih _ z z0 z1

/-- the first guess lies strictly between 0 and 1 -/
theorem invbetaiGuess_real {p a b : ℝ} (ha : 0 < a) (hb : 0 < b) (hp0 : 0 < p) (hp1 : p < 1) :
    0 < invbetaiGuess p a b ∧ invbetaiGuess p a b < 1 := by
  unfold invbetaiGuess
  by_cases h : (Arith.le (1.0 : ℝ) a && Arith.le (1.0 : ℝ) b) = true
  · rw [if_pos h]
    show 0 < a / (a + b * Real.exp _) ∧ a / (a + b * Real.exp _) < 1
    have := Real.exp_pos
    constructor
    · exact div_pos ha (add_pos ha (mul_pos hb (this _)))
    · rw [div_lt_one (add_pos ha (mul_pos hb (this _)))]
      exact lt_add_of_pos_right _ (mul_pos hb (this _))
  · rw [if_neg h]
    have la : Real.log (a / (a + b)) < 0 := Real.log_neg (by positivity) (by rw [div_lt_one (by positivity)]; linarith)
    have lb : Real.log (b / (a + b)) < 0 := Real.log_neg (by positivity) (by rw [div_lt_one (by positivity)]; linarith)
    have ea : Real.exp (a * Real.log (a / (a + b))) < 1 := by rw [← Real.exp_zero]; exact Real.exp_lt_exp.2 (mul_neg_of_pos_of_neg ha la)
    have eb : Real.exp (b * Real.log (b / (a + b))) < 1 := by rw [← Real.exp_zero]; exact Real.exp_lt_exp.2 (mul_neg_of_pos_of_neg hb lb)
    have pa := Real.exp_pos (a * Real.log (a / (a + b)))
    have pb := Real.exp_pos (b * Real.log (b / (a + b)))
    change 0 < (if Arith.lt p (Real.exp (a * Real.log (a / (a + b))) / a / (Real.exp (a * Real.log (a / (a + b))) / a + Real.exp (b * Real.log (b / (a + b))) / b)) = true
      then (a * (Real.exp (a * Real.log (a / (a + b))) / a + Real.exp (b * Real.log (b / (a + b))) / b) * p) ^ (1.0 / a)
      else 1.0 - (b * (Real.exp (a * Real.log (a / (a + b))) / a + Real.exp (b * Real.log (b / (a + b))) / b) * (1.0 - p)) ^ (1.0 / b)) ∧
      (if Arith.lt p (Real.exp (a * Real.log (a / (a + b))) / a / (Real.exp (a * Real.log (a / (a + b))) / a + Real.exp (b * Real.log (b / (a + b))) / b)) = true
      then (a * (Real.exp (a * Real.log (a / (a + b))) / a + Real.exp (b * Real.log (b / (a + b))) / b) * p) ^ (1.0 / a)
      else 1.0 - (b * (Real.exp (a * Real.log (a / (a + b))) / a + Real.exp (b * Real.log (b / (a + b))) / b) * (1.0 - p)) ^ (1.0 / b)) < 1
    generalize Real.exp (a * Real.log (a / (a + b))) = T at *
    generalize Real.exp (b * Real.log (b / (a + b))) = U at *
    have w0 : 0 < T / a + U / b := by positivity
    have ia : (0:ℝ) < 1.0 / a := by positivity
    have ib : (0:ℝ) < 1.0 / b := by positivity
    split_ifs with h2
    · have h2' : p < T / a / (T / a + U / b) := of_decide_eq_true h2
      rw [lt_div_iff₀ w0] at h2'
      have q : a * (T / a + U / b) * p < 1 := by
        have := mul_lt_mul_of_pos_left h2' ha
        rw [mul_div_cancel₀ _ ha.ne'] at this
        linarith
      exact ⟨by positivity, Real.rpow_lt_one (by positivity) q ia⟩
    · have h2' : ¬ (p < T / a / (T / a + U / b)) := fun k => h2 (decide_eq_true k)
      rw [not_lt, div_le_iff₀ w0] at h2'
      have q : b * (T / a + U / b) * (1.0 - p) < 1 := by
        have : (T / a + U / b) * (1.0 - p) ≤ U / b := by norm_num at h2' ⊢; linarith
        have := mul_le_mul_of_nonneg_left this hb.le
        rw [mul_div_cancel₀ _ hb.ne'] at this
        linarith
      have q0 : 0 < b * (T / a + U / b) * (1.0 - p) := mul_pos (mul_pos hb w0) (by norm_num; exact hp1)
      have r1 := Real.rpow_lt_one q0.le q ib
      have r0 := Real.rpow_pos_of_pos q0 (1.0 / b)
      constructor <;> norm_num at * <;> linarith

/-- C82, what does hold: in exact arithmetic, for all `a, b > 0` and every `0 < p < 1`, the call returns, and the
result is strictly between 0 and 1.  Missing from the full claim: binary64, and how near the result is to the quantile. -/
theorem invbetai_exact_returns_partial (p a b : ℝ) (ha : 0 < a) (hb : 0 < b) (hp0 : 0 < p) (hp1 : p < 1) :
    ∃ v, Returns (invbetai p a b) v ∧ 0 < v ∧ v < 1 := by
  unfold Returns invbetai
  have e2 : Arith.le (1.0 : ℝ) p = false := decide_eq_false (by norm_num; exact hp1)
  have e3 : Arith.le p (0.0 : ℝ) = false := decide_eq_false (by norm_num; exact hp0)
  simp only [e2, e3, Bool.false_eq_true, if_false]
  obtain ⟨g0, g1⟩ := invbetaiGuess_real ha hb hp0 hp1
  exact invbetaiLoop_real_ok ha hb 10 0 _ g0 g1

example : (0:ℝ) < 0.5 ∧ (0:ℝ) < 20 ∧ (0:ℝ) < 0.3 ∧ (0.3:ℝ) < 1 := by norm_num

end Verif
