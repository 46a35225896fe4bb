import Verif.Model.Bessel
import Verif.Model.Error
import Verif.Spec
import Verif.Proofs.IncReal
import Mathlib.RingTheory.Polynomial.Chebyshev

/-!
# Polynomial, Chebyshev and power series evaluators in exact arithmetic (C59, C60, C61)

The model is run at `ℝ`, so that every operation is exact.
-/

namespace Verif
open Polynomial (Chebyshev.T)

/-! ## C61: Horner evaluation -/

/-- `∑ cᵢ xⁱ`, coefficients in increasing order of degree -/
noncomputable def polySum (x : ℝ) (c : List ℝ) : ℝ := ∑ i ∈ Finset.range c.length, c.getD i 0 * x ^ i

theorem polySum_nil (x : ℝ) : polySum x [] = 0 := by simp [polySum]

theorem polySum_cons (x c : ℝ) (cs : List ℝ) : polySum x (c :: cs) = c + x * polySum x cs := by
  unfold polySum
  rw [List.length_cons, Finset.sum_range_succ', Finset.mul_sum]
  simp only [List.getD_cons_succ, List.getD_cons_zero, pow_zero, mul_one]
  rw [add_comm]
  congr 1
  refine Finset.sum_congr rfl fun i _ => ?_
  ring

theorem polySum_append (x c : ℝ) (cs : List ℝ) : polySum x (cs ++ [c]) = polySum x cs + c * x ^ cs.length := by
  induction cs with
  | nil => simp [polySum]
  | cons d ds ih => rw [List.cons_append, polySum_cons, polySum_cons, ih, List.length_cons]; ring

/-- C61: `polynomial(x, coefficients)` is the polynomial with these coefficients in decreasing order of degree (whatever the build: with or
without fused multiply-add). -/
theorem polynomial_exact [Cfg] (x : ℝ) (c : List ℝ) : polynomial x c = polySum x c.reverse := by
  have aux : ∀ (c : List ℝ) (acc : ℝ), c.foldl (fun acc c => mulAdd acc x c) acc = acc * x ^ c.length + polySum x c.reverse := by
    intro c
    induction c with
    | nil => intro acc; simp [polySum]
    | cons d ds ih =>
      intro acc
      have e : mulAdd acc x d = acc * x + d := by
        unfold mulAdd; split <;> rfl
      rw [List.foldl_cons, ih, e, List.reverse_cons, polySum_append, List.length_cons, List.length_reverse]
      ring
  unfold polynomial
  rw [aux, show (0.0 : ℝ) = 0 by norm_num, zero_mul, zero_add]

theorem hornerL_exact (x : ℝ) : ∀ c : List ℝ, hornerL x c = polySum x c
  | [] => by rw [hornerL, polySum_nil]; norm_num
  | [c] => by rw [hornerL, polySum_cons, polySum_nil]; ring
  | c :: d :: cs => by rw [hornerL, polySum_cons, hornerL_exact x (d :: cs)]; simp

/-- C61: `poly(x, coef)` is the polynomial with these coefficients in increasing order of degree -/
theorem poly_exact (x : ℝ) : ∀ c : List ℝ, poly x c = polySum x c
  | [] => by rw [poly, polySum_nil]; norm_num
  | [c] => by rw [poly, polySum_cons, polySum_nil]; ring
  | c :: d :: cs => by rw [poly, polySum_cons, poly_exact x (d :: cs)]; · ring
                       · simp

/-- C61: `rat(x, r, s)` evaluates `r` at `64 - x²` and `s` at `x²` -/
theorem rat_exact (x : ℝ) (r s : List ℝ) : rat x r s = (x ^ 2, polySum (64 - x ^ 2) r, polySum (x ^ 2) s) := by
  unfold rat
  simp only [hornerL_exact]
  norm_num [pow_two]

/-- C61: `asp(ax, …)` evaluates its four tables at `(8/ax)²` -/
theorem asp_exact (ax fac : ℝ) (pn pd qn qd : List ℝ) :
    asp ax pn pd qn qd fac = ⟨8 / ax, ax - fac * (Real.pi / 4), polySum ((8 / ax) ^ 2) pn, polySum ((8 / ax) ^ 2) pd,
      polySum ((8 / ax) ^ 2) qn, polySum ((8 / ax) ^ 2) qd⟩ := by
  unfold asp
  simp only [hornerL_exact]
  norm_num [pow_two, PIO4, Arith.fracPi4]

/-- the coefficient tables of the Bessel functions have the lengths declared in the Rust code; every `rat(.., n)` / `poly(.., n)` / `chebev(.., m)`
call passes `n = length - 1` (resp. `m = length`) and `asp` uses entries 0 to 4, so no call indexes out of bounds and none drops a coefficient -/
theorem bessel_table_lengths :
    (C1 : List ℝ).length = 7 ∧
    (C2 : List ℝ).length = 8 ∧
    (J0R : List ℝ).length = 7 ∧
    (J0S : List ℝ).length = 7 ∧
    (J0PN : List ℝ).length = 5 ∧
    (J0PD : List ℝ).length = 5 ∧
    (J0QN : List ℝ).length = 5 ∧
    (J0QD : List ℝ).length = 5 ∧
    (J1R : List ℝ).length = 7 ∧
    (J1S : List ℝ).length = 7 ∧
    (J1PN : List ℝ).length = 5 ∧
    (J1PD : List ℝ).length = 5 ∧
    (J1QN : List ℝ).length = 5 ∧
    (J1QD : List ℝ).length = 5 ∧
    (Y0R : List ℝ).length = 9 ∧
    (Y0S : List ℝ).length = 9 ∧
    (Y0PN : List ℝ).length = 5 ∧
    (Y0PD : List ℝ).length = 5 ∧
    (Y0QN : List ℝ).length = 5 ∧
    (Y0QD : List ℝ).length = 5 ∧
    (Y1R : List ℝ).length = 8 ∧
    (Y1S : List ℝ).length = 8 ∧
    (Y1PN : List ℝ).length = 5 ∧
    (Y1PD : List ℝ).length = 5 ∧
    (Y1QN : List ℝ).length = 5 ∧
    (Y1QD : List ℝ).length = 5 ∧
    (I0P : List ℝ).length = 14 ∧
    (I0Q : List ℝ).length = 5 ∧
    (I0PP : List ℝ).length = 5 ∧
    (I0QQ : List ℝ).length = 6 ∧
    (I1P : List ℝ).length = 14 ∧
    (I1Q : List ℝ).length = 5 ∧
    (I1PP : List ℝ).length = 5 ∧
    (I1QQ : List ℝ).length = 6 ∧
    (K0PI : List ℝ).length = 5 ∧
    (K0QI : List ℝ).length = 3 ∧
    (K0P : List ℝ).length = 5 ∧
    (K0Q : List ℝ).length = 3 ∧
    (K0PP : List ℝ).length = 8 ∧
    (K0QQ : List ℝ).length = 8 ∧
    (K1PI : List ℝ).length = 5 ∧
    (K1QI : List ℝ).length = 3 ∧
    (K1P : List ℝ).length = 5 ∧
    (K1Q : List ℝ).length = 3 ∧
    (K1PP : List ℝ).length = 8 ∧
    (K1QQ : List ℝ).length = 8 := by
  refine ⟨rfl, rfl, rfl, rfl, rfl, rfl, rfl, rfl, rfl, rfl, rfl, rfl, rfl, rfl, rfl, rfl, rfl, rfl, rfl, rfl, rfl, rfl, rfl, rfl, rfl, rfl, rfl, rfl, rfl, rfl, rfl, rfl, rfl, rfl, rfl, rfl, rfl, rfl, rfl, rfl, rfl, rfl, rfl, rfl, rfl, rfl⟩

example : polySum 2 [3, 4, 5] = 3 + 4 * 2 + 5 * 2 ^ 2 := by norm_num [polySum, Finset.sum_range_succ]

/-! ## C60: Chebyshev sums -/

/-- `∑ cⱼ Tⱼ₊₁(y)` for a list `c₀, c₁, …` -/
noncomputable def chebTail (y : ℝ) (c : List ℝ) : ℝ := ∑ j ∈ Finset.range c.length, c.getD j 0 * (Chebyshev.T ℝ (j + 1)).eval y

/-- state of the Clenshaw recurrence after the coefficients `c`, counted from the last -/
theorem clenshaw_real (y : ℝ) : ∀ c : List ℝ,
    let s := c.foldr (fun c (s : ℝ × ℝ) => (2 * y * s.1 - s.2 + c, s.1)) (0, 0)
    ∀ k : ℤ, s.1 * (Chebyshev.T ℝ (k + 1)).eval y - s.2 * (Chebyshev.T ℝ k).eval y =
      ∑ j ∈ Finset.range c.length, c.getD j 0 * (Chebyshev.T ℝ (k + 1 + j)).eval y := by
  intro c
  induction c with
  | nil => intro s k; simp [s]
  | cons d ds ih =>
    intro s k
    simp only [s, List.foldr_cons, List.length_cons, Finset.sum_range_succ', List.getD_cons_succ, List.getD_cons_zero]
    have := ih (k + 1)
    have e : ∀ j : ℕ, (k + 1 + ((j + 1 : ℕ) : ℤ)) = k + 1 + 1 + j := fun j => by push_cast; ring
    simp only [e]
    rw [← this]
    have r := congrArg (Polynomial.eval y) (Polynomial.Chebyshev.T_add_two ℝ k)
    simp only [Polynomial.eval_sub, Polynomial.eval_mul, Polynomial.eval_ofNat, Polynomial.eval_X] at r
    rw [show k + 1 + 1 = k + 2 by ring, r]
    push_cast
    simp only [add_zero]
    ring

theorem clenshaw_top (y : ℝ) (c : List ℝ) :
    let s := c.reverse.foldl (fun (s : ℝ × ℝ) c => (2 * y * s.1 - s.2 + c, s.1)) (0, 0)
    y * s.1 - s.2 = chebTail y c := by
  intro s
  have e : s = c.foldr (fun c (s : ℝ × ℝ) => (2 * y * s.1 - s.2 + c, s.1)) (0, 0) := by
    simp only [s, List.foldl_reverse]
  have := clenshaw_real y c 0
  rw [← e] at this
  simp only [zero_add, Polynomial.Chebyshev.T_one, Polynomial.Chebyshev.T_zero, Polynomial.eval_X, Polynomial.eval_one, mul_one] at this
  unfold chebTail
  rw [mul_comm, this]
  refine Finset.sum_congr rfl fun j _ => ?_
  rw [add_comm (1 : ℤ)]

/-- C60: the Chebyshev evaluator of the fractional Bessel functions is `c₀/2 + ∑_{j ≥ 1} cⱼ Tⱼ(x)` -/
theorem chebev_exact (x c0 : ℝ) (c : List ℝ) : chebev x (c0 :: c) = c0 / 2 + chebTail x c := by
  have := clenshaw_top x c
  simp only at this
  unfold chebev chebevLoop
  simp only [List.tail_cons, List.headD_cons]
  rw [show (2.0 : ℝ) = 2 by norm_num, show (0.0 : ℝ) = 0 by norm_num, this]
  norm_num
  ring

/-- C60: for `z ≥ 0`, `erfccheb(z)` (which is `erfc` on this range) is `t·exp(-z² + c₀/2 + ∑_{j=1}^{26} cⱼ Tⱼ(2t - 1))`, `t = 2/(2+z)` -/
theorem erfccheb_exact (z : ℝ) (h : 0 ≤ z) : Returns (erfc z)
    (2 / (2 + z) * Real.exp (-z ^ 2 + (COF.headD 0 / 2 + chebTail (2 * (2 / (2 + z)) - 1) ((COF.drop 1).take 26)))) := by
  have h0 : (0.0 : ℝ) ≤ᶠ z := by
    show decide _ = true
    norm_num [h]
  unfold Returns erfc
  rw [if_pos h0]
  unfold erfccheb
  rw [if_pos h0]
  have e2 : (2.0 : ℝ) = 2 := by norm_num
  have e4 : (4.0 : ℝ) * (2 / (2 + z)) - 2 = 2 * (2 * (2 / (2 + z)) - 1) := by norm_num; ring
  have := clenshaw_top (2 * (2 / (2 + z)) - 1) ((COF.drop 1).take 26)
  simp only at this
  simp only [e2, e4]
  unfold clenshaw cofRev clenshawStep
  rw [show (0.0 : ℝ) = 0 by norm_num]
  rw [← this]
  congr 2
  show Real.exp _ = Real.exp _
  congr 1
  norm_num
  ring

example : chebTail (1/2) [3, 4] = 3 * (1/2) + 4 * (-1/2) := by
  norm_num [chebTail, Finset.sum_range_succ, Polynomial.Chebyshev.T_two]

/-! ## C59: the series of the incomplete gamma function -/

/-- the `k`-th term `x^k / (a(a+1)⋯(a+k))` of the series -/
noncomputable def gserTerm (a x : ℝ) (k : ℕ) : ℝ := x ^ k / ∏ j ∈ Finset.range (k + 1), (a + j)

/-- C59: with at most `n` steps the loop of `gser` returns a partial sum of the series; if it stopped early, then because the last term was
smaller than `EPS` times the sum. -/
theorem gserLoop_exact (a x : ℝ) (n : ℕ) : ∃ m ≤ n, gserLoop x n a (1 / a) (1 / a) = ∑ k ∈ Finset.range (m + 1), gserTerm a x k ∧
    (m < n → 0 < m ∧ |gserTerm a x m| < |∑ k ∈ Finset.range (m + 1), gserTerm a x k| * EPS) := by
  obtain ⟨m, h1, h2, h3⟩ := gserLoop_real (a := a) (x := x) n
  have e : (1.0 : ℝ) = 1 := by norm_num
  rw [e] at h2
  exact ⟨m, h1, h2, h3⟩

/-- C59: on the branches that use the series, `gammp(a, x)` is a partial sum of the series times `exp(-x + a ln x - ln_gamma(a))`. -/
theorem gammp_series [Cfg] (a x : ℝ) (ha : 0 < a) (hx : a * EPS ≤ x) (hb : a < 100 ∧ x < a + 1 ∨ 100 ≤ a ∧ x < a / 5)
    (hl : |-x + a * Real.log x - lnGamma a| ≤ 700) : ∃ m ≤ 10000,
    Returns (gammp a x) ((∑ k ∈ Finset.range (m + 1), gserTerm a x k) * Real.exp (-x + a * Real.log x - lnGamma a)) ∧
    (m < 10000 → |gserTerm a x m| < |∑ k ∈ Finset.range (m + 1), gserTerm a x k| * EPS) := by
  obtain ⟨m, h1, h2, h3⟩ := gserLoop_exact a x 10000
  refine ⟨m, h1, ?_, fun h => (h3 h).2⟩
  have hE : (0 : ℝ) < EPS := by show (0 : ℝ) < 1 / 2 ^ 52; positivity
  have hx0 : 0 < x := lt_of_lt_of_le (mul_pos ha hE) hx
  have L : ∀ u v : ℝ, (u <ᶠ v) = decide (u < v) := fun _ _ => rfl
  have Le : ∀ u v : ℝ, (u ≤ᶠ v) = decide (u ≤ v) := fun _ _ => rfl
  have Eq' : ∀ u v : ℝ, (u ==ᶠ v) = decide (u = v) := fun _ _ => rfl
  have hs : gser a x = (∑ k ∈ Finset.range (m + 1), gserTerm a x k) * Real.exp (-x + a * Real.log x - lnGamma a) := by
    unfold gser
    rw [show (1.0 : ℝ) = 1 by norm_num, h2]
    have l1 : (700.0 <ᶠ -x + a * Libm.ln x - lnGamma a) = false := by
      rw [L, decide_eq_false_iff_not, not_lt]
      exact le_trans (le_trans (le_abs_self _) hl) (by norm_num)
    have l2 : (-x + a * Libm.ln x - lnGamma a <ᶠ -700.0) = false := by
      rw [L, decide_eq_false_iff_not, not_lt]
      exact le_trans (by norm_num) (neg_le_of_abs_le hl)
    simp only [l1, l2, Bool.false_eq_true, if_false]
    rfl
  have hle : x ≤ a + 20.0 * (Arith.sqrt a + 1.0) := by
    have : 0 ≤ (Arith.sqrt a : ℝ) := Real.sqrt_nonneg a
    norm_num
    rcases hb with h | h <;> linarith [h.2]
  have htoU : Arith.toU USIZE_MAX a = Nat.min ⌊a⌋₊ USIZE_MAX := rfl
  unfold Returns gammp
  rw [← hs]
  have c0 : (0.0 ≤ᶠ x && 0.0 <ᶠ a) = true := by
    rw [L, Le]; norm_num [hx0.le, ha]
  have c1 : (x ==ᶠ 0.0) = false := by rw [Eq']; norm_num [hx0.ne']
  have c2 : (x <ᶠ a * EPS) = false := by rw [L]; simp [hx]
  have c3 : (a + 20.0 * (Arith.sqrt a + 1.0) <ᶠ x) = false := by rw [L]; simpa using hle
  simp only [c0, c1, c2, c3, Bool.false_eq_true, if_false, if_true]
  rcases hb with h | h
  · have : ¬ 100 ≤ Arith.toU USIZE_MAX a := by
      rw [htoU, Nat.not_le]
      refine lt_of_le_of_lt (Nat.min_le_left _ _) ?_
      rw [Nat.floor_lt ha.le]; exact_mod_cast h.1
    rw [if_neg this, if_pos]
    rw [L]; norm_num [h.2]
  · have : 100 ≤ Arith.toU USIZE_MAX a := by
      rw [htoU]
      refine Nat.le_min.2 ⟨?_, by decide⟩
      exact Nat.le_floor (by exact_mod_cast h.1)
    rw [if_pos this, if_pos]
    rw [L]; norm_num; linarith [h.2]

theorem lnGamma_one_small : |lnGamma (1:ℝ)| ≤ 600 := by
  have hs : 1 ≤ (lanczosSum ((1:ℝ) - 1.0) + lg5n7Head : ℝ) ∧ (lanczosSum ((1:ℝ) - 1.0) + lg5n7Head : ℝ) ≤ 100 := by
    have hn : ∀ n, (Arith.ofNat n : ℝ) = n := fun _ => rfl
    unfold lanczosSum
    norm_num [lg5n7Tail, lg5n7Head, hn, List.range_succ]
  unfold lnGamma
  simp only
  generalize (lanczosSum ((1:ℝ) - 1.0) + lg5n7Head : ℝ) = s at *
  have e1 : (Libm.ln s : ℝ) = Real.log s := rfl
  have e2 : (Libm.ln (Arith.sqrt (2.0 * Arith.pi)) : ℝ) = Real.log (Real.sqrt (2 * Real.pi)) := by
    show Real.log (Real.sqrt (2.0 * Real.pi)) = _
    norm_num
  have e3 : (Libm.ln ((1:ℝ) - 1.0 + 5.0 + 0.5) : ℝ) = Real.log 5.5 := by
    show Real.log _ = _; norm_num
  rw [e1, e2, e3]
  have p := Real.pi_pos
  have p4 := Real.pi_le_four
  have p3 := Real.two_le_pi
  have q1 := Real.log_nonneg hs.1
  have q2 := Real.log_le_sub_one_of_pos (lt_of_lt_of_le one_pos hs.1)
  have r0 : 1 ≤ Real.sqrt (2 * Real.pi) := by rw [Real.one_le_sqrt]; linarith
  have r1 := Real.log_nonneg r0
  have r2 := Real.log_le_sub_one_of_pos (lt_of_lt_of_le one_pos r0)
  have r3 : Real.sqrt (2 * Real.pi) ≤ 8 := by
    rw [Real.sqrt_le_iff]; constructor <;> linarith
  have t1 := Real.log_nonneg (show (1:ℝ) ≤ 5.5 by norm_num)
  have t2 := Real.log_le_sub_one_of_pos (show (0:ℝ) < 5.5 by norm_num)
  rw [abs_le]
  norm_num at *
  constructor <;> linarith

/-- the hypotheses of `gammp_series` are met at `a = x = 1` -/
example [Cfg] : ∃ m ≤ 10000, Returns (gammp (1:ℝ) 1)
    ((∑ k ∈ Finset.range (m + 1), gserTerm 1 1 k) * Real.exp (-1 + 1 * Real.log 1 - lnGamma 1)) := by
  obtain ⟨m, h1, h2, -⟩ := gammp_series 1 1 one_pos (by show (1:ℝ) * (1 / 2 ^ 52) ≤ 1; norm_num)
    (Or.inl ⟨by norm_num, by norm_num⟩) (by
      have := lnGamma_one_small
      rw [abs_le] at this ⊢
      rw [Real.log_one]
      constructor <;> linarith [this.1, this.2])
  exact ⟨m, h1, h2⟩
end Verif
