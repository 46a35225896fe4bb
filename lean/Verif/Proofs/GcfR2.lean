import Verif.Proofs.GcfR

/-! Convergence of the continued fraction of the upper incomplete gamma function, in real numbers: the quotients the program computes with. -/

namespace Verif
namespace Gcf
open Real

/-- partial denominators -/
noncomputable def bk (a x : ℝ) (k : ℕ) : ℝ := x + 1 - a + 2 * k
/-- partial numerators -/
noncomputable def ak (a : ℝ) (k : ℕ) : ℝ := -((k:ℝ) * (k - a))
/-- quotients of successive denominators -/
noncomputable def D (a x : ℝ) : ℕ → ℝ
  | 0 => bk a x 0
  | k + 1 => bk a x (k + 1) + ak a (k + 1) / D a x k
/-- quotients of successive numerators, starting from `1/φ` -/
noncomputable def C (a x φ : ℝ) : ℕ → ℝ
  | 0 => 1 / φ
  | k + 1 => bk a x (k + 1) + ak a (k + 1) / C a x φ k
/-- the values of the continued fraction as computed -/
noncomputable def H (a x φ : ℝ) : ℕ → ℝ
  | 0 => 1 / bk a x 0
  | k + 1 => H a x φ k * (C a x φ (k + 1) / D a x (k + 1))

/-- denominators and numerators -/
noncomputable def Bn (a x : ℝ) : ℕ → ℝ
  | 0 => 1
  | 1 => bk a x 0
  | k + 2 => bk a x (k + 1) * Bn a x (k + 1) + ak a (k + 1) * Bn a x k
noncomputable def An (a x φ : ℝ) : ℕ → ℝ
  | 0 => φ
  | 1 => 1
  | k + 2 => bk a x (k + 1) * An a x φ (k + 1) + ak a (k + 1) * An a x φ k

variable {a x φ : ℝ}

theorem bk_ge (hx : a + 99/100 ≤ x) (k : ℕ) : 2 * (k:ℝ) + 199/100 ≤ bk a x k := by unfold bk; linarith

/-- one step of the quotient recurrence stays above the line -/
theorem q_step (ha : 0 < a) (hx : a + 99/100 ≤ x) (k : ℕ) {r : ℝ} (hr : (k:ℝ) + 1 ≤ r) :
    (k:ℝ) + 1 + 199/100 ≤ bk a x (k + 1) + ak a (k + 1) / r := by
  have hk : (0:ℝ) ≤ k := Nat.cast_nonneg k
  have hr0 : 0 < r := by linarith
  have hb := bk_ge hx (k + 1)
  unfold ak
  push_cast at *
  rcases le_total ((k:ℝ) + 1) a with h | h
  · have : 0 ≤ -(((k:ℝ) + 1) * ((k + 1) - a)) / r := by
      apply div_nonneg _ hr0.le
      nlinarith
    linarith
  · have : -((k:ℝ) + 1 - a) ≤ -(((k:ℝ) + 1) * ((k + 1) - a)) / r := by
      rw [le_div_iff₀ hr0]
      nlinarith
    unfold bk
    push_cast
    linarith

theorem D_ge (ha : 0 < a) (hx : a + 99/100 ≤ x) (k : ℕ) : (k:ℝ) + 199/100 ≤ D a x k := by
  induction k with
  | zero => have := bk_ge hx 0; push_cast at *; unfold D; linarith
  | succ k ih => unfold D; push_cast; exact q_step ha hx k (by linarith)

theorem C_ge (ha : 0 < a) (hx : a + 99/100 ≤ x) (hφ : 0 < φ) (hφ1 : φ ≤ 1/2) (k : ℕ) : (k:ℝ) + 199/100 ≤ C a x φ k := by
  induction k with
  | zero => unfold C; push_cast; rw [le_div_iff₀ hφ]; linarith
  | succ k ih => unfold C; push_cast; exact q_step ha hx k (by linarith)

/-- the square-root gain -/
theorem q_step' (ha : 0 < a) (hx : a + 99/100 ≤ x) (k : ℕ) {r : ℝ} (hr : (k:ℝ) + 1 + 3/5 * √k ≤ r) :
    (k:ℝ) + 2 + 3/5 * √(k + 1) ≤ bk a x (k + 1) + ak a (k + 1) / r := by
  have hk : (0:ℝ) ≤ k := Nat.cast_nonneg k
  have hs := Real.sqrt_nonneg (k:ℝ)
  have hs2 := Real.sq_sqrt hk
  have ht := Real.sqrt_nonneg ((k:ℝ) + 1)
  have ht2 := Real.sq_sqrt (show (0:ℝ) ≤ k + 1 by linarith)
  have hst : √(k:ℝ) ≤ √((k:ℝ) + 1) := Real.sqrt_le_sqrt (by linarith)
  have ht1 : 1 ≤ √((k:ℝ) + 1) := by rw [Real.one_le_sqrt]; linarith
  generalize √(k:ℝ) = s at *
  generalize √((k:ℝ) + 1) = t at *
  have hr0 : 0 < r := by linarith
  have hb := bk_ge hx (k + 1)
  unfold ak
  push_cast at *
  have htk : t ≤ k + 1 := by nlinarith
  rcases le_total ((k:ℝ) + 1) a with h | h
  · have : 0 ≤ -(((k:ℝ) + 1) * ((k + 1) - a)) / r := by
      apply div_nonneg _ hr0.le
      nlinarith
    linarith
  · -- the numerator is negative: replace `r` by its lower bound
    have g0 : 0 < (k:ℝ) + 1 + 3/5 * s := by linarith
    have h1 : -(((k:ℝ) + 1) * ((k + 1) - a)) / ((k:ℝ) + 1 + 3/5 * s) ≤ -(((k:ℝ) + 1) * ((k + 1) - a)) / r := by
      rw [div_le_div_iff₀ g0 hr0]
      have : 0 ≤ ((k:ℝ) + 1) * ((k + 1) - a) := mul_nonneg (by linarith) (by linarith)
      nlinarith
    have h2 : (k:ℝ) + 2 + 3/5 * t ≤ bk a x (k + 1) + -(((k:ℝ) + 1) * ((k + 1) - a)) / ((k:ℝ) + 1 + 3/5 * s) := by
      have e : bk a x (k + 1) + -(((k:ℝ) + 1) * ((k + 1) - a)) / ((k:ℝ) + 1 + 3/5 * s) =
          x + k + 2 + ((k:ℝ) + 1 - a) * (3/5 * s) / ((k:ℝ) + 1 + 3/5 * s) := by
        unfold bk; push_cast; field_simp; ring
      rw [e]
      suffices h3 : 3/5 * t - x ≤ ((k:ℝ) + 1 - a) * (3/5 * s) / ((k:ℝ) + 1 + 3/5 * s) by linarith
      rw [le_div_iff₀ g0]
      have hts : (t - s) * (t + s) = 1 := by nlinarith
      have hts1 : t - s ≤ 1 := by nlinarith
      have h4 : 3/5 * t - x ≤ 3/5 * t - (a + 99/100) := by linarith
      refine (mul_le_mul_of_nonneg_right h4 g0.le).trans ?_
      -- with `k = s²`
      have hk' : (k:ℝ) = s^2 := by linarith
      rw [hk']
      have : t ≤ s + 1 := by linarith
      have c1 : (t - s) * (s ^ 2 + 1 + 3/5 * s) ≤ s^2 + 1 + 3/5 * s := by
        have : 0 ≤ s ^ 2 + 1 + 3/5 * s := by positivity
        nlinarith
      nlinarith [mul_nonneg ha.le hs, sq_nonneg s, mul_nonneg ha.le (sq_nonneg s)]
    linarith

theorem D_ge' (ha : 0 < a) (hx : a + 99/100 ≤ x) (k : ℕ) : (k:ℝ) + 1 + 3/5 * √k ≤ D a x k := by
  induction k with
  | zero => have := bk_ge hx 0; push_cast at *; unfold D; simp; linarith
  | succ k ih =>
    unfold D
    have := q_step' ha hx k ih
    push_cast
    linarith

theorem C_ge' (ha : 0 < a) (hx : a + 99/100 ≤ x) (hφ : 0 < φ) (hφ1 : φ ≤ 1/2) (k : ℕ) : (k:ℝ) + 1 + 3/5 * √k ≤ C a x φ k := by
  induction k with
  | zero => have : (2:ℝ) ≤ 1 / φ := by rw [le_div_iff₀ hφ]; linarith
            unfold C; simp; simp at this; linarith
  | succ k ih =>
    unfold C
    have := q_step' ha hx k ih
    push_cast
    linarith

theorem quart {s t : ℝ} (hs : 0 ≤ s) (h1 : 1 ≤ t) (h2 : t ≤ 100) (h : t^2 - 1 ≤ s * t) :
    t^4 ≤ 99/100 * ((t^2 + 3/5 * s) * (t^2 + 1 + 3/5 * t)) := by
  have e : (t^2 + 3/5 * s) * (t^2 + 1 + 3/5 * t) = t^4 + 3/5 * t^3 + t^2 + 3/5 * (s * t) * t + 9/25 * (s * t) + 3/5 * s := by ring
  have m : (t^2 - 1) * t ≤ (s * t) * t := mul_le_mul_of_nonneg_right h (by linarith)
  have q1 : t ≤ t^2 := by nlinarith
  have p : t^4 + 6/5 * t^3 ≤ (t^2 + 3/5 * s) * (t^2 + 1 + 3/5 * t) := by
    rw [e]; nlinarith
  have t4 : t^4 ≤ 100 * t^3 := by
    have : 0 ≤ t^3 := by positivity
    nlinarith
  have t3 : 0 ≤ t^3 := by positivity
  generalize (t^2 + 3/5 * s) * (t^2 + 1 + 3/5 * t) = w at *
  linarith

/-- the contraction factor of the quotient recurrence -/
theorem contract (ha : 0 < a) (ha1 : a < 100) (hx : a + 99/100 ≤ x) (k : ℕ) (hk : k + 1 ≤ 10000) {r : ℝ} (hr : (k:ℝ) + 1 + 3/5 * √k ≤ r)
    (hr1 : (k:ℝ) + 199/100 ≤ r) :
    |ak a (k + 1)| / r ≤ 99/100 * (bk a x (k + 1) + ak a (k + 1) / r) ∧
    bk a x (k + 1) ≤ 2 * (bk a x (k + 1) + ak a (k + 1) / r) := by
  have hk0 : (0:ℝ) ≤ k := Nat.cast_nonneg k
  have hs := Real.sqrt_nonneg (k:ℝ)
  have hr0 : 0 < r := by linarith
  have hq := q_step' ha hx k hr
  have hq1 := q_step ha hx k (show (k:ℝ) + 1 ≤ r by linarith)
  have hb := bk_ge hx (k + 1)
  have hK : (k:ℝ) + 1 ≤ 10000 := by exact_mod_cast hk
  rcases le_total ((k:ℝ) + 1) a with h | h
  · have e : |ak a (k + 1)| = ak a (k + 1) := by
      apply abs_of_nonneg; unfold ak; push_cast; nlinarith
    have h0 : 0 ≤ ak a (k + 1) / r := div_nonneg (by rw [← e]; exact abs_nonneg _) hr0.le
    rw [e]
    refine ⟨?_, by push_cast at *; linarith⟩
    have h2 : ak a (k + 1) / r ≤ 99 := by
      rw [div_le_iff₀ hr0]
      unfold ak; push_cast
      nlinarith
    push_cast at *
    linarith
  · have e : |ak a (k + 1)| = -ak a (k + 1) := by
      apply abs_of_nonpos; unfold ak; push_cast; nlinarith
    rw [e]
    constructor
    · -- `(k+1)² ≤ 0.99 · r · D'`
      have hD : |ak a (k + 1)| ≤ 99/100 * (((k:ℝ) + 1 + 3/5 * √k) * ((k:ℝ) + 2 + 3/5 * √(k + 1))) := by
        rw [e]
        have h1 : -ak a (k + 1) ≤ ((k:ℝ) + 1) ^ 2 := by unfold ak; push_cast; nlinarith
        refine h1.trans ?_
        have ht2 := Real.sq_sqrt (show (0:ℝ) ≤ k + 1 by linarith)
        have hs2 := Real.sq_sqrt hk0
        have ht1 : 1 ≤ √((k:ℝ) + 1) := by rw [Real.one_le_sqrt]; linarith
        have htm : √((k:ℝ) + 1) ≤ 100 := by
          rw [Real.sqrt_le_left (by norm_num)]; linarith
        generalize √(k:ℝ) = s at *
        generalize √((k:ℝ) + 1) = t at *
        have hk' : (k:ℝ) = t^2 - 1 := by linarith
        have hst : t - 1/t ≤ s := by
          by_contra hc
          push Not at hc
          have t0 : 0 < t := by linarith
          have : (t - 1/t)^2 ≤ s^2 := by
            have e : (t - 1/t)^2 = t^2 - 2 + 1/t^2 := by field_simp; ring
            have : 1/t^2 ≤ 1 := by rw [div_le_one (by positivity)]; nlinarith
            rw [e]; linarith
          have := abs_le_of_sq_le_sq this hs
          linarith [le_abs_self (t - 1/t)]
        have hst' : t^2 - 1 ≤ s * t := by
          have t0 : 0 < t := by linarith
          have := mul_le_mul_of_nonneg_right hst t0.le
          have e : (t - 1/t) * t = t^2 - 1 := by field_simp
          linarith
        rw [hk']
        have e2 : (t^2 - 1 + 1 + 3/5 * s) * (t^2 - 1 + 2 + 3/5 * t) = (t^2 + 3/5 * s) * (t^2 + 1 + 3/5 * t) := by ring
        rw [e2, show (t^2 - 1 + 1)^2 = t^4 by ring]
        exact quart hs ht1 htm hst'
      have hm : ((k:ℝ) + 1 + 3/5 * √k) * ((k:ℝ) + 2 + 3/5 * √(k + 1)) ≤ r * (bk a x (k + 1) + ak a (k + 1) / r) :=
        mul_le_mul hr hq (by have := Real.sqrt_nonneg ((k:ℝ) + 1); linarith) hr0.le
      rw [div_le_iff₀ hr0, ← e]
      refine hD.trans ?_
      have := mul_le_mul_of_nonneg_left hm (show (0:ℝ) ≤ 99/100 by norm_num)
      linarith
    · have : -((k:ℝ) + 1 - a) ≤ ak a (k + 1) / r := by
        rw [le_div_iff₀ hr0]; unfold ak; push_cast; nlinarith
      unfold bk at *
      push_cast at *
      linarith

end Gcf
end Verif
