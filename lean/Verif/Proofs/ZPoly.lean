import Mathlib.Analysis.Calculus.Deriv.Mul
import Mathlib.Analysis.Calculus.Deriv.Add
import Mathlib.Analysis.Calculus.MeanValue
import Mathlib.Analysis.Calculus.Deriv.MeanValue
import Mathlib.Analysis.SpecificLimits.Basic
import Mathlib.Tactic

/-! Polynomials with integer coefficients as lists (constant term first): arithmetic that the kernel can evaluate, and its meaning over `ℝ`. -/

namespace Verif
namespace ZPoly
open Filter Topology

/-- value of the polynomial `c₀ + c₁x + …` -/
def ev : List ℤ → ℝ → ℝ
  | [], _ => 0
  | c :: cs, x => c + x * ev cs x

def add : List ℤ → List ℤ → List ℤ
  | [], q => q
  | p, [] => p
  | a :: p, b :: q => (a + b) :: add p q

def smul (k : ℤ) : List ℤ → List ℤ
  | [] => []
  | a :: p => (k * a) :: smul k p

def mul : List ℤ → List ℤ → List ℤ
  | [], _ => []
  | a :: p, q => add (smul a q) (0 :: mul p q)

def sub (p q : List ℤ) : List ℤ := add p (smul (-1) q)

/-- derivative -/
def der : List ℤ → List ℤ
  | [] => []
  | _ :: p => add p (0 :: der p)

/-- `p(x+1)` -/
def shift1 : List ℤ → List ℤ
  | [] => []
  | a :: p => add [a] (mul [1, 1] (shift1 p))

/-- all coefficients nonnegative -/
def nonneg : List ℤ → Bool
  | [] => true
  | a :: p => decide (0 ≤ a) && nonneg p

/-- power -/
def pow (p : List ℤ) : ℕ → List ℤ
  | 0 => [1]
  | n+1 => mul p (pow p n)

theorem ev_add : ∀ (p q : List ℤ) (x : ℝ), ev (add p q) x = ev p x + ev q x
  | [], q, x => by simp [add, ev]
  | a :: p, [], x => by simp [add, ev]
  | a :: p, b :: q, x => by simp only [add, ev, ev_add p q x]; push_cast; ring

theorem ev_smul (k : ℤ) : ∀ (p : List ℤ) (x : ℝ), ev (smul k p) x = k * ev p x
  | [], x => by simp [smul, ev]
  | a :: p, x => by simp only [smul, ev, ev_smul k p x]; push_cast; ring

theorem ev_mul : ∀ (p q : List ℤ) (x : ℝ), ev (mul p q) x = ev p x * ev q x
  | [], q, x => by simp [mul, ev]
  | a :: p, q, x => by simp only [mul, ev_add, ev_smul, ev, ev_mul p q x]; push_cast; ring

theorem ev_sub (p q : List ℤ) (x : ℝ) : ev (sub p q) x = ev p x - ev q x := by
  rw [sub, ev_add, ev_smul]; push_cast; ring

theorem ev_pow (p : List ℤ) (x : ℝ) : ∀ n, ev (pow p n) x = ev p x ^ n
  | 0 => by simp [pow, ev]
  | n+1 => by rw [pow, ev_mul, ev_pow p x n, pow_succ, mul_comm]

theorem ev_shift1 : ∀ (p : List ℤ) (x : ℝ), ev (shift1 p) x = ev p (x + 1)
  | [], x => by simp [shift1, ev]
  | a :: p, x => by simp only [shift1, ev_add, ev_mul, ev, ev_shift1 p x]; push_cast; ring

theorem ev_nonneg : ∀ (p : List ℤ) (x : ℝ), nonneg p = true → 0 ≤ x → 0 ≤ ev p x
  | [], x, _, _ => le_refl _
  | a :: p, x, h, hx => by
    simp only [nonneg, Bool.and_eq_true, decide_eq_true_eq] at h
    have := ev_nonneg p x h.2 hx
    have h1 : (0:ℝ) ≤ a := by exact_mod_cast h.1
    simp only [ev]
    positivity

theorem ev_pos (a : ℤ) (p : List ℤ) (x : ℝ) (ha : 0 < a) (h : nonneg p = true) (hx : 0 ≤ x) : 0 < ev (a :: p) x := by
  have := ev_nonneg p x h hx
  have h1 : (0:ℝ) < a := by exact_mod_cast ha
  simp only [ev]
  positivity

theorem hasDerivAt_ev : ∀ (p : List ℤ) (x : ℝ), HasDerivAt (ev p) (ev (der p) x) x
  | [], x => by
    have : ev [] = fun _ => (0:ℝ) := by funext; rfl
    rw [this]; exact hasDerivAt_const x _
  | a :: p, x => by
    have h := ((hasDerivAt_id x).mul (hasDerivAt_ev p x)).const_add (a:ℝ)
    have e : (ev (a :: p)) = fun y => (a:ℝ) + (id y * ev p y) := by funext y; rfl
    rw [e]
    have e2 : ev (der (a :: p)) x = 1 * ev p x + id x * ev (der p) x := by
      rw [der, ev_add]
      show ev p x + (((0:ℤ):ℝ) + x * ev (der p) x) = _
      simp
    rw [e2]
    exact h

/-- leading behaviour -/
theorem tendsto_ev_div_pow : ∀ (p : List ℤ) (a : ℤ), Tendsto (fun x : ℝ => ev (p ++ [a]) x / x ^ p.length) atTop (𝓝 (a:ℝ))
  | [], a => by simp [ev]
  | c :: p, a => by
    have ih := tendsto_ev_div_pow p a
    have h1 : Tendsto (fun x : ℝ => (c:ℝ) / x ^ (p.length + 1)) atTop (𝓝 0) :=
      tendsto_const_nhds.div_atTop (tendsto_pow_atTop (by omega))
    have h2 := h1.add ih
    rw [zero_add] at h2
    refine h2.congr' ?_
    filter_upwards [eventually_gt_atTop 0] with x hx
    simp only [List.cons_append, ev, List.length_cons]
    field_simp
    ring

/-- an eventually vanishing function with nonpositive derivative is nonnegative -/
theorem nonneg_of_deriv_nonpos {f f' : ℝ → ℝ} (h : ∀ x, 0 < x → HasDerivAt f (f' x) x) (hneg : ∀ x, 0 < x → f' x ≤ 0)
    (lim : Tendsto f atTop (𝓝 0)) {x : ℝ} (hx : 0 < x) : 0 ≤ f x := by
  have hanti : AntitoneOn f (Set.Ioi 0) := by
    refine antitoneOn_of_deriv_nonpos (convex_Ioi 0) (fun y hy => (h y hy).continuousAt.continuousWithinAt) ?_ ?_
    · intro y hy; rw [interior_Ioi] at hy; exact (h y hy).differentiableAt.differentiableWithinAt
    · intro y hy; rw [interior_Ioi] at hy; rw [(h y hy).deriv]; exact hneg y hy
  refine le_of_tendsto lim ?_
  filter_upwards [eventually_ge_atTop x] with y hy
  exact hanti hx (lt_of_lt_of_le hx hy) hy

end ZPoly
end Verif
