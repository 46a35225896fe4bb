import Verif.SpecBessel
import Verif.Proofs.ZPoly
import Mathlib.Analysis.Calculus.SmoothSeries
import Mathlib.Analysis.SpecificLimits.Normed
import Mathlib.Analysis.Calculus.Deriv.Pow

/-! The power series of the Bessel functions: convergence, derivatives, recurrences, truncation. -/

namespace Verif
namespace Bes
open ZPoly

/-- `∑ u^k / (k! (k+n)!)` -/
noncomputable def SB (n : ℕ) (u : ℝ) : ℝ := ∑' k : ℕ, u ^ k / (k.factorial * (k + n).factorial : ℝ)

theorem fpos (n : ℕ) : (1:ℝ) ≤ n.factorial := by exact_mod_cast Nat.one_le_iff_ne_zero.mpr (Nat.factorial_ne_zero n)

theorem sb_term_le (n k : ℕ) (u : ℝ) : ‖u ^ k / (k.factorial * (k + n).factorial : ℝ)‖ ≤ |u| ^ k / k.factorial := by
  have h1 := fpos k
  have h2 := fpos (k + n)
  rw [Real.norm_eq_abs, abs_div, abs_pow, abs_of_pos (by positivity : (0:ℝ) < k.factorial * (k + n).factorial)]
  apply div_le_div_of_nonneg_left (by positivity) (by linarith)
  nlinarith

theorem sb_summable (n : ℕ) (u : ℝ) : Summable fun k : ℕ => u ^ k / (k.factorial * (k + n).factorial : ℝ) :=
  Summable.of_norm_bounded (Real.summable_pow_div_factorial |u|) fun k => sb_term_le n k u

theorem sb_deriv_term (n k : ℕ) (u : ℝ) :
    ((k + 1 : ℕ) : ℝ) * u ^ k / ((k + 1).factorial * (k + 1 + n).factorial : ℝ) = u ^ k / (k.factorial * (k + (n + 1)).factorial : ℝ) := by
  have e : k + 1 + n = k + (n + 1) := by omega
  have h1 := fpos k
  have h2 := fpos (k + (n + 1))
  rw [e, Nat.factorial_succ]
  push_cast
  field_simp

theorem sb_deriv (n : ℕ) (u : ℝ) : HasDerivAt (SB n) (SB (n + 1) u) u := by
  set R := |u| + 1 with hR
  have key := hasDerivAt_tsum_of_isPreconnected (𝕜 := ℝ) (F := ℝ)
    (g := fun (k : ℕ) (y : ℝ) => y ^ k / (k.factorial * (k + n).factorial : ℝ))
    (g' := fun (k : ℕ) (y : ℝ) => (k : ℝ) * y ^ (k - 1) / (k.factorial * (k + n).factorial : ℝ))
    (u := fun k : ℕ => (k : ℝ) * R ^ (k - 1) / (k.factorial * (k + n).factorial : ℝ)) (t := Metric.ball 0 R) (y₀ := 0) (y := u) ?_
    Metric.isOpen_ball (convex_ball 0 R).isPreconnected ?_ ?_ (by simp [R]; positivity) (sb_summable n 0) (by simp [R])
  · have e : (∑' k : ℕ, (k : ℝ) * u ^ (k - 1) / (k.factorial * (k + n).factorial : ℝ)) = SB (n + 1) u := by
      have hs : Summable fun k : ℕ => (k : ℝ) * u ^ (k - 1) / (k.factorial * (k + n).factorial : ℝ) := by
        rw [← summable_nat_add_iff 1]
        refine (sb_summable (n + 1) u).congr fun k => ?_
        rw [Nat.add_sub_cancel]
        exact (sb_deriv_term n k u).symm
      rw [hs.tsum_eq_zero_add]
      unfold SB
      simp only [Nat.cast_zero, zero_mul, zero_div, zero_add]
      refine tsum_congr fun k => ?_
      rw [Nat.add_sub_cancel]
      exact sb_deriv_term n k u
    rw [e] at key
    exact key
  · rw [← summable_nat_add_iff 1]
    refine (sb_summable (n + 1) R).congr fun k => ?_
    rw [Nat.add_sub_cancel]
    exact (sb_deriv_term n k R).symm
  · intro k y _
    exact (hasDerivAt_pow k y).div_const _
  · intro k y hy
    have hy' : |y| ≤ R := by
      have := Metric.mem_ball.mp hy
      rw [Real.dist_eq, sub_zero] at this
      exact this.le
    have h1 := fpos k
    have h2 := fpos (k + n)
    rw [Real.norm_eq_abs, abs_div, abs_mul, abs_pow, abs_of_pos (by positivity : (0:ℝ) < k.factorial * (k + n).factorial),
      Nat.abs_cast]
    gcongr

/-- `(n+1) S_{n+1} + u S_{n+2} = S_n` -/
theorem sb_rec (n : ℕ) (u : ℝ) : (n + 1) * SB (n + 1) u + u * SB (n + 2) u = SB n u := by
  unfold SB
  rw [(sb_summable n u).tsum_eq_zero_add, (sb_summable (n+1) u).tsum_eq_zero_add, mul_add, ← tsum_mul_left, ← tsum_mul_left, add_assoc,
    ← Summable.tsum_add]
  · have h2 := fpos n
    congr 1
    · simp only [Nat.factorial_zero, pow_zero, zero_add, Nat.cast_one, one_mul]
      rw [Nat.factorial_succ]; push_cast; field_simp
    · refine tsum_congr fun k => ?_
      have e1 : k + 1 + (n + 1) = (k + n + 1) + 1 := by omega
      have e2 : k + (n + 2) = (k + n + 1) + 1 := by omega
      have e3 : k + 1 + n = k + n + 1 := by omega
      have h1 := fpos k
      have h3 := fpos (k + n + 1)
      rw [e1, e2, e3, Nat.factorial_succ (k + n + 1), Nat.factorial_succ k]
      push_cast
      field_simp
      ring
  · exact ((summable_nat_add_iff 1).mpr (sb_summable (n+1) u)).mul_left _
  · exact (sb_summable (n+2) u).mul_left _

theorem besselJR_eq (n : ℕ) (x : ℝ) : besselJR n x = (x / 2) ^ n * SB n (-(x ^ 2 / 4)) := by
  unfold besselJR SB
  rw [← tsum_mul_left]
  refine tsum_congr fun k => ?_
  rw [neg_pow (x ^ 2 / 4), show x ^ 2 / 4 = (x / 2) ^ 2 by ring, ← pow_mul, pow_add]
  ring

theorem besselIR_eq (n : ℕ) (x : ℝ) : besselIR n x = (x / 2) ^ n * SB n (x ^ 2 / 4) := by
  unfold besselIR SB
  rw [← tsum_mul_left]
  refine tsum_congr fun k => ?_
  rw [show x ^ 2 / 4 = (x / 2) ^ 2 by ring, ← pow_mul, pow_add]
  ring

theorem J0_deriv (x : ℝ) : HasDerivAt (besselJR 0) (-besselJR 1 x) x := by
  have e : besselJR 0 = fun x => SB 0 (-(x ^ 2 / 4)) := by funext y; rw [besselJR_eq]; simp
  have hi : HasDerivAt (fun x : ℝ => -(x ^ 2 / 4)) (-(x / 2)) x := by
    have h := ((hasDerivAt_pow 2 x).div_const 4).neg
    exact h.congr_deriv (by push_cast; ring)
  have h := (sb_deriv 0 (-(x ^ 2 / 4))).comp x hi
  rw [e, besselJR_eq]
  exact h.congr_deriv (by ring)

theorem J1_deriv {x : ℝ} (hx : x ≠ 0) : HasDerivAt (besselJR 1) (besselJR 0 x - besselJR 1 x / x) x := by
  have e : besselJR 1 = fun x => (x / 2) * SB 1 (-(x ^ 2 / 4)) := by funext y; rw [besselJR_eq]; simp
  have hi : HasDerivAt (fun x : ℝ => -(x ^ 2 / 4)) (-(x / 2)) x := by
    have h := ((hasDerivAt_pow 2 x).div_const 4).neg
    exact h.congr_deriv (by push_cast; ring)
  have h := ((hasDerivAt_id x).div_const 2).mul ((sb_deriv 1 (-(x ^ 2 / 4))).comp x hi)
  have hr := sb_rec 0 (-(x ^ 2 / 4))
  rw [besselJR_eq 0, besselJR_eq 1, ← hr, e]
  refine h.congr_deriv ?_
  simp only [id, Function.comp_apply, Nat.cast_zero]
  field_simp
  ring

theorem I0_deriv (x : ℝ) : HasDerivAt (besselIR 0) (besselIR 1 x) x := by
  have e : besselIR 0 = fun x => SB 0 (x ^ 2 / 4) := by funext y; rw [besselIR_eq]; simp
  have hi : HasDerivAt (fun x : ℝ => x ^ 2 / 4) (x / 2) x := by
    have h := (hasDerivAt_pow 2 x).div_const 4
    exact h.congr_deriv (by push_cast; ring)
  have h := (sb_deriv 0 (x ^ 2 / 4)).comp x hi
  rw [e, besselIR_eq]
  exact h.congr_deriv (by ring)

theorem I1_deriv {x : ℝ} (hx : x ≠ 0) : HasDerivAt (besselIR 1) (besselIR 0 x - besselIR 1 x / x) x := by
  have e : besselIR 1 = fun x => (x / 2) * SB 1 (x ^ 2 / 4) := by funext y; rw [besselIR_eq]; simp
  have hi : HasDerivAt (fun x : ℝ => x ^ 2 / 4) (x / 2) x := by
    have h := (hasDerivAt_pow 2 x).div_const 4
    exact h.congr_deriv (by push_cast; ring)
  have h := ((hasDerivAt_id x).div_const 2).mul ((sb_deriv 1 (x ^ 2 / 4)).comp x hi)
  have hr := sb_rec 0 (x ^ 2 / 4)
  rw [besselIR_eq 0, besselIR_eq 1, ← hr, e]
  refine h.congr_deriv ?_
  simp only [id, Function.comp_apply, Nat.cast_zero]
  field_simp
  ring

/-! ## truncation -/

/-- the truncated series, nested: `1 + v/((k+1)(k+1+n)) (1 + …)` with `m` levels -/
noncomputable def hs (n : ℕ) (v : ℝ) : ℕ → ℕ → ℝ
  | 0, _ => 1
  | m + 1, k => 1 + v / ((k + 1) * (k + 1 + n)) * hs n v m (k + 1)

theorem hs_sum (n : ℕ) (v : ℝ) : ∀ m k : ℕ,
    ∑ j ∈ Finset.range (m + 1), v ^ j / ((k + j).factorial * (k + j + n).factorial : ℝ) = hs n v m k / (k.factorial * (k + n).factorial : ℝ)
  | 0, k => by simp [hs]
  | m + 1, k => by
    rw [Finset.sum_range_succ']
    have ih := hs_sum n v m (k + 1)
    have e : ∀ j, v ^ (j + 1) / ((k + (j + 1)).factorial * (k + (j + 1) + n).factorial : ℝ) =
        v * (v ^ j / ((k + 1 + j).factorial * (k + 1 + j + n).factorial : ℝ)) := by
      intro j
      rw [show k + (j + 1) = k + 1 + j by omega, pow_succ]; ring
    simp only [e]
    rw [← Finset.mul_sum, ih, hs]
    have h1 := fpos k
    have h2 := fpos (k + n)
    rw [show k + 1 + n = (k + n) + 1 by omega, Nat.factorial_succ k, Nat.factorial_succ (k + n)]
    push_cast
    have h3 : (k + n + 1 : ℝ) ≠ 0 := by positivity
    have h4 : (k + 1 + n : ℝ) ≠ 0 := by positivity
    simp only [add_zero, pow_zero]
    field_simp
    ring

/-- `|S_n(v) - truncated| ≤ 2 |v|^K/(K!(K+n)!)` as long as `2|v| ≤ (K+1)²` -/
theorem sb_trunc (n m : ℕ) (v : ℝ) (hv : 2 * |v| ≤ (m + 2 : ℝ) ^ 2) :
    |SB n v - hs n v m 0 / n.factorial| ≤ 2 * (|v| ^ (m + 1) / ((m + 1).factorial * (m + 1 + n).factorial : ℝ)) := by
  have h := hs_sum n v m 0
  simp only [zero_add, Nat.factorial_zero, Nat.cast_one, one_mul] at h
  rw [← h]
  unfold SB
  rw [← (sb_summable n v).sum_add_tsum_nat_add (m + 1), add_sub_cancel_left]
  set A := |v| ^ (m + 1) / ((m + 1).factorial * (m + 1 + n).factorial : ℝ) with hA
  have hA0 : 0 ≤ A := by positivity
  have hb : ∀ j : ℕ, ‖v ^ (j + (m + 1)) / ((j + (m + 1)).factorial * (j + (m + 1) + n).factorial : ℝ)‖ ≤ A * (1 / 2) ^ j := by
    intro j
    induction j with
    | zero =>
      rw [Real.norm_eq_abs, abs_div, abs_pow, abs_of_pos (by positivity : (0:ℝ) < (0 + (m+1)).factorial * (0 + (m+1) + n).factorial)]
      simp [A]
    | succ j ih =>
      have e : v ^ (j + 1 + (m + 1)) / ((j + 1 + (m + 1)).factorial * (j + 1 + (m + 1) + n).factorial : ℝ) =
          v ^ (j + (m + 1)) / ((j + (m + 1)).factorial * (j + (m + 1) + n).factorial : ℝ) * (v / ((j + m + 2) * (j + m + 2 + n))) := by
        rw [show j + 1 + (m + 1) = (j + (m + 1)) + 1 by omega, show (j + (m + 1)) + 1 + n = (j + (m + 1) + n) + 1 by omega,
          Nat.factorial_succ (j + (m + 1)), Nat.factorial_succ (j + (m + 1) + n), pow_succ]
        have h1 := fpos (j + (m + 1))
        have h2 := fpos (j + (m + 1) + n)
        push_cast
        have h3 : (j + m + 2 : ℝ) ≠ 0 := by positivity
        have h4 : (j + m + 2 + n : ℝ) ≠ 0 := by positivity
        have h5 : ((j:ℝ) + (m + 1) + 1) ≠ 0 := by positivity
        have h6 : ((j:ℝ) + (m + 1) + n + 1) ≠ 0 := by positivity
        field_simp
        ring
      rw [e, norm_mul, pow_succ, ← mul_assoc]
      refine mul_le_mul ih ?_ (norm_nonneg _) (by positivity)
      rw [Real.norm_eq_abs, abs_div, abs_of_pos (by positivity : (0:ℝ) < (j + m + 2) * (j + m + 2 + n)), div_le_iff₀ (by positivity)]
      have : (m + 2 : ℝ) ^ 2 ≤ (j + m + 2) * (j + m + 2 + n) := by
        have hj : (0:ℝ) ≤ j := by positivity
        have hn : (0:ℝ) ≤ n := by positivity
        have hm : (0:ℝ) ≤ m := by positivity
        nlinarith [mul_nonneg hj hj, mul_nonneg hj hm, mul_nonneg hj hn, mul_nonneg hn hm]
      linarith
  have hg : HasSum (fun j : ℕ => A * (1 / 2 : ℝ) ^ j) (A * 2) := hasSum_geometric_two.mul_left A
  have := tsum_of_norm_bounded hg hb
  rw [Real.norm_eq_abs] at this
  linarith

/-! ## the truncated series as an integer polynomial in `y = x²` -/

/-- `hs n (s·y/4)` times `hscl` -/
def hsZ (n : ℕ) (s : ℤ) : ℕ → ℕ → List ℤ
  | 0, _ => [1]
  | m + 1, k => (4 * (k + 1) * (k + 1 + n) * hscl n m (k + 1)) :: smul s (hsZ n s m (k + 1))
where
  hscl (n : ℕ) : ℕ → ℕ → ℤ
  | 0, _ => 1
  | m + 1, k => 4 * (k + 1) * (k + 1 + n) * hscl n m (k + 1)

theorem hscl_pos (n : ℕ) : ∀ m k, 0 < hsZ.hscl n m k
  | 0, _ => by simp [hsZ.hscl]
  | m + 1, k => by rw [hsZ.hscl]; have := hscl_pos n m (k + 1); positivity

theorem ev_hsZ (n : ℕ) (s : ℤ) (y : ℝ) : ∀ m k, ev (hsZ n s m k) y = hs n (s * y / 4) m k * hsZ.hscl n m k
  | 0, _ => by simp [hsZ, hs, hsZ.hscl, ev]
  | m + 1, k => by
    rw [hsZ, hs, hsZ.hscl, ev, ev_smul, ev_hsZ n s y m (k + 1)]
    push_cast
    have h3 : (k + 1 : ℝ) ≠ 0 := by positivity
    have h4 : (k + 1 + n : ℝ) ≠ 0 := by positivity
    field_simp

/-! ## bounds on intervals -/

/-- composition -/
def comp : List ℤ → List ℤ → List ℤ
  | [], _ => []
  | a :: p, q => add [a] (mul q (comp p q))

theorem ev_comp : ∀ (p q : List ℤ) (x : ℝ), ev (comp p q) x = ev p (ev q x)
  | [], q, x => by simp [comp, ev]
  | a :: p, q, x => by simp only [comp, ev_add, ev_mul, ev, ev_comp p q x]; ring

/-- `∑ |cₖ| r^k` -/
def l1 (r : ℕ) : List ℤ → ℕ
  | [] => 0
  | a :: p => a.natAbs + r * l1 r p

theorem l1_bound (r : ℕ) (h : ℝ) (hh : |h| ≤ r) : ∀ p : List ℤ, |ev p h| ≤ l1 r p
  | [] => by simp [ev, l1]
  | a :: p => by
    have ih := l1_bound r h hh p
    simp only [ev, l1]
    push_cast
    rw [Nat.cast_natAbs, Int.cast_abs]
    calc |(a:ℝ) + h * ev p h| ≤ |(a:ℝ)| + |h * ev p h| := abs_add_le _ _
      _ ≤ |(a:ℝ)| + r * l1 r p := by rw [abs_mul]; gcongr

/-! ## evaluation in the kernel, with every intermediate number forced -/

def withN {β : Type} (n : ℕ) (f : ℕ → β) : β := Nat.rec (f 0) (fun k _ => f (Nat.succ k)) n
theorem withN_eq {β : Type} (n : ℕ) (f : ℕ → β) : withN n f = f n := by cases n <;> rfl

def fI {β : Type} (a : ℤ) (k : ℤ → β) : β := match a with
  | .ofNat n => withN n fun n => k (.ofNat n)
  | .negSucc n => withN n fun n => k (.negSucc n)
theorem fI_eq {β : Type} (a : ℤ) (k : ℤ → β) : fI a k = k a := by cases a <;> simp [fI, withN_eq]

/-- force all coefficients -/
def fL {β : Type} : List ℤ → (List ℤ → β) → β
  | [], k => k []
  | a :: p, k => fI a fun a => fL p fun p => k (a :: p)
theorem fL_eq {β : Type} : ∀ (p : List ℤ) (k : List ℤ → β), fL p k = k p
  | [], k => rfl
  | a :: p, k => by rw [fL, fI_eq, fL_eq p]

/-- `a + (c + x)·q` -/
def step (c : ℤ) : ℤ → List ℤ → List ℤ
  | a, [] => [a]
  | a, b :: q => (a + c * b) :: step c b q
theorem ev_step (c : ℤ) : ∀ (a : ℤ) (q : List ℤ) (x : ℝ), ev (step c a q) x = a + (c + x) * ev q x
  | a, [], x => by simp [step, ev]
  | a, b :: q, x => by rw [step, ev, ev_step c b q x, ev]; push_cast; ring

/-- Taylor shift `p(c + x)` -/
def shiftF {β : Type} (c : ℤ) : List ℤ → (List ℤ → β) → β
  | [], k => k []
  | a :: p, k => shiftF c p fun q => fL (step c a q) k

theorem shiftF_eq {β : Type} (c : ℤ) : ∀ (p : List ℤ), ∃ q : List ℤ, (∀ k : List ℤ → β, shiftF c p k = k q) ∧ ∀ x : ℝ, ev q x = ev p (c + x)
  | [] => ⟨[], fun _ => rfl, fun _ => rfl⟩
  | a :: p => by
    obtain ⟨q, h1, h2⟩ := shiftF_eq (β := β) c p
    exact ⟨step c a q, fun k => by rw [shiftF, h1, fL_eq], fun x => by rw [ev_step, h2, ev]⟩

/-- is the polynomial nonnegative on `[-r, r]`, by its coefficients? -/
def lowOK (r : ℕ) : List ℤ → Bool
  | [] => true
  | .ofNat n :: p => Nat.ble (r * l1 r p) n
  | .negSucc _ :: _ => false

theorem lowOK_sound (r : ℕ) (h : ℝ) (hh : |h| ≤ r) : ∀ p : List ℤ, lowOK r p = true → 0 ≤ ev p h
  | [], _ => by simp [ev]
  | .ofNat n :: p, ok => by
    have h1 := l1_bound r h hh p
    have h2 : |h * ev p h| ≤ r * l1 r p := by rw [abs_mul]; gcongr
    have h3 : (r * l1 r p : ℝ) ≤ n := by exact_mod_cast Nat.le_of_ble_eq_true ok
    simp only [ev]
    rw [Int.ofNat_eq_natCast, Int.cast_natCast]
    linarith [neg_abs_le (h * ev p h)]
  | .negSucc _ :: _, ok => by simp [lowOK] at ok

/-- `p ≥ 0` on `[a, a + 2rn]`, checked on `n` pieces -/
def posOn (p : List ℤ) (r : ℕ) : ℕ → ℤ → Bool
  | 0, _ => true
  | n + 1, a => (shiftF (a + r) p fun q => lowOK r q) && posOn p r n (a + 2 * r)

theorem posOn_sound (p : List ℤ) (r : ℕ) (y : ℝ) : ∀ (n : ℕ) (a : ℤ), posOn p r n a = true → (a:ℝ) ≤ y → y < a + 2 * r * n → 0 ≤ ev p y
  | 0, a, _, h1, h2 => by simp at h2; linarith
  | n + 1, a, h, h1, h2 => by
    simp only [posOn, Bool.and_eq_true] at h
    by_cases hy : y ≤ a + 2 * r
    · obtain ⟨q, hq, hev⟩ := shiftF_eq (β := Bool) (a + r) p
      have h3 := h.1
      rw [hq] at h3
      have h4 := lowOK_sound r (y - (a + r)) (by rw [abs_le]; constructor <;> linarith) q h3
      rw [hev] at h4
      push_cast at h4
      rwa [add_sub_cancel] at h4
    · push Not at hy
      refine posOn_sound p r y n _ h.2 (by push_cast; exact hy.le) ?_
      push_cast at h2 ⊢; linarith

theorem posOn_sound' (p : List ℤ) (r : ℕ) (y : ℝ) :
    ∀ (n : ℕ) (a : ℤ), n ≠ 0 → posOn p r n a = true → (a:ℝ) ≤ y → y ≤ a + 2 * r * n → 0 ≤ ev p y
  | 0, a, hn, _, h1, h2 => absurd rfl hn
  | n + 1, a, _, h, h1, h2 => by
    simp only [posOn, Bool.and_eq_true] at h
    by_cases hy : y ≤ a + 2 * r
    · obtain ⟨q, hq, hev⟩ := shiftF_eq (β := Bool) (a + r) p
      have h3 := h.1
      rw [hq] at h3
      have h4 := lowOK_sound r (y - (a + r)) (by rw [abs_le]; constructor <;> linarith) q h3
      rw [hev] at h4
      push_cast at h4
      rwa [add_sub_cancel] at h4
    · push Not at hy
      have hn : n ≠ 0 := by
        rintro rfl
        push_cast at h2; linarith
      refine posOn_sound' p r y n _ hn h.2 (by push_cast; exact hy.le) ?_
      push_cast at h2 ⊢; linarith

/-- `g^n p(w/g)` -/
def sc (g : ℕ) : ℕ → List ℤ → List ℤ
  | _, [] => []
  | n, a :: p => (a * g ^ n) :: sc g (n - 1) p

theorem ev_sc (g : ℕ) (hg : g ≠ 0) (w : ℝ) : ∀ (p : List ℤ) (n : ℕ), p.length ≤ n + 1 → ev (sc g n p) w = g ^ n * ev p (w / g)
  | [], n, _ => by simp [sc, ev]
  | [a], n, _ => by simp [sc, ev, mul_comm]
  | a :: b :: p, n, h => by
    simp only [List.length_cons] at h
    have hg' : (g:ℝ) ≠ 0 := by exact_mod_cast hg
    rw [sc, ev, ev_sc g hg w (b :: p) (n - 1) (by simp only [List.length_cons]; omega),
      show ev (a :: b :: p) (w / g) = a + w / g * ev (b :: p) (w / g) from rfl]
    generalize ev (b :: p) (w / g) = q
    obtain ⟨k, rfl⟩ : ∃ k, n = k + 1 := ⟨n - 1, by omega⟩
    rw [Nat.add_sub_cancel, pow_succ]
    push_cast
    field_simp
    ring

/-- all coefficients divided by `2^t`, rounded down (numbers with many trailing zero bits are slow in the kernel) -/
def shrL (t : ℕ) : List ℤ → List ℤ
  | [] => []
  | a :: p => Int.shiftRight a t :: shrL t p

theorem shrL_le (t : ℕ) (y : ℝ) (hy : 0 ≤ y) : ∀ p : List ℤ, ev (shrL t p) y * 2 ^ t ≤ ev p y
  | [] => by simp [shrL, ev]
  | a :: p => by
    have ih := shrL_le t y hy p
    have h1 : Int.shiftRight a t * 2 ^ t ≤ a := by
      have e : Int.shiftRight a t = a / 2 ^ t := by
        have := Int.shiftRight_eq_div_pow a t
        push_cast at this
        exact this
      rw [e]
      exact Int.ediv_mul_le a (by positivity)
    have h2 : (Int.shiftRight a t : ℝ) * 2 ^ t ≤ a := by exact_mod_cast h1
    simp only [shrL, ev]
    nlinarith [mul_le_mul_of_nonneg_left ih hy]

end Bes
end Verif
