import Verif.Proofs.BesselK4

/-! `k0` and `k1` for `0 < x ≤ 1` in exact arithmetic: the residuals, and the estimate from 1 down to 0. -/

namespace Verif
namespace Bes
open ZPoly Real Set Filter Topology

/-- `E' = -W/x + r0`, `W' = -xE + x r1` on `(0,1]` -/
theorem stage_left {E W r0 r1 : ℝ → ℝ} {e w l δ m m' : ℝ} (hδ : 0 ≤ δ) (hl : 0 ≤ l) (hm : 0 ≤ m) (hm' : 0 ≤ m')
    (h1 : ∀ x, 0 < x → x ≤ 1 → HasDerivAt E (-(W x) / x + r0 x) x)
    (h2 : ∀ x, 0 < x → x ≤ 1 → HasDerivAt W (-(x * E x) + x * r1 x) x)
    (b1 : ∀ x, 0 < x → x ≤ 1 → |r0 x| ≤ l + δ / x) (b2 : ∀ x, 0 < x → x ≤ 1 → |r1 x| ≤ m + m' * (-log x))
    (i1 : |E 1| ≤ e) (i2 : |W 1| ≤ w) {x : ℝ} (hx : 0 < x) (hx1 : x ≤ 1) :
    ∃ b, 0 ≤ b ∧ 3 / 4 * b ≤ w + (e + l + m) / 2 + (δ + m') / 4 ∧ |W x| ≤ b ∧ |E x| ≤ e + l + (b + δ) * (-log x) := by
  have he : 0 ≤ e := (abs_nonneg _).trans i1
  set A : Set ℝ := (fun t => |W t|) '' Icc x 1 with hA
  have bdd : BddAbove A := by
    refine (isCompact_Icc.image_of_continuousOn ?_).bddAbove
    exact fun t ht => ((h2 t (by linarith [ht.1]) ht.2).continuousAt.abs).continuousWithinAt
  have ne : A.Nonempty := ⟨_, 1, ⟨hx1, le_rfl⟩, rfl⟩
  set b := sSup A with hb
  have hbx : ∀ t ∈ Icc x 1, |W t| ≤ b := fun t ht => le_csSup bdd ⟨t, ht, rfl⟩
  have hb0 : 0 ≤ b := le_trans (abs_nonneg _) (hbx 1 ⟨hx1, le_rfl⟩)
  -- the bound on E
  have stepE : ∀ (E p : ℝ → ℝ), (∀ t ∈ Icc x 1, HasDerivAt E (p t) t) → (∀ t ∈ Icc x 1, -(l + (b + δ) / t) ≤ p t) → E 1 ≤ e →
      ∀ t ∈ Icc x 1, E t ≤ e + l + (b + δ) * (-log t) := by
    intro E p hd hp hE t ht
    have h := mono_Icc (f := fun t => E t + l * t + (b + δ) * log t) (f' := fun t => p t + (l + (b + δ) / t)) (a := x) (b := 1)
      (fun t ht => by
        have ht0 : t ≠ 0 := by linarith [ht.1]
        refine (((hd t ht).add ((hasDerivAt_id t).const_mul l)).add ((hasDerivAt_log ht0).const_mul (b + δ))).congr_deriv ?_
        rw [div_eq_mul_inv]; ring) (fun t ht => by linarith [hp t ht]) ht.1 ht.2 le_rfl
    simp only [log_one, mul_zero, mul_one, add_zero] at h
    have : 0 ≤ l * t := mul_nonneg hl (by linarith [ht.1])
    linarith
  have hq : ∀ t ∈ Icc x 1, |-(W t) / t + r0 t| ≤ l + (b + δ) / t := by
    intro t ht
    have ht0 : 0 < t := by linarith [ht.1]
    calc |-(W t) / t + r0 t| ≤ |-(W t) / t| + |r0 t| := abs_add_le _ _
      _ ≤ b / t + (l + δ / t) := by
        refine add_le_add ?_ (b1 t ht0 ht.2)
        rw [abs_div, abs_neg, abs_of_pos ht0]
        exact div_le_div_of_nonneg_right (hbx t ht) ht0.le
      _ = _ := by ring
  have hE : ∀ t ∈ Icc x 1, |E t| ≤ e + l + (b + δ) * (-log t) := by
    intro t ht
    rw [abs_le]
    constructor
    · have := stepE (fun t => -E t) (fun t => -(-(W t) / t + r0 t)) (fun t ht => (h1 t (by linarith [ht.1]) ht.2).neg)
        (fun t ht => neg_le_neg ((le_abs_self _).trans (hq t ht))) ((neg_le_abs _).trans i1) t ht
      linarith
    · exact stepE E _ (fun t ht => h1 t (by linarith [ht.1]) ht.2) (fun t ht => neg_le_of_abs_le (hq t ht)) ((le_abs_self _).trans i1) t ht
  -- the bound on W
  have stepW : ∀ (W p : ℝ → ℝ), (∀ t ∈ Icc x 1, HasDerivAt W (p t) t) →
      (∀ t ∈ Icc x 1, -(t * ((e + l + m) + (b + δ + m') * (-log t))) ≤ p t) → W 1 ≤ w →
      ∀ t ∈ Icc x 1, W t ≤ w + (e + l + m) / 2 + (b + δ + m') / 4 := by
    intro W p hd hp hW t ht
    have h := mono_Icc (f := fun t => W t + (e + l + m) / 2 * t ^ 2 + (b + δ + m') * (t ^ 2 / 4 - t ^ 2 * log t / 2))
      (f' := fun t => p t + t * ((e + l + m) + (b + δ + m') * (-log t))) (a := x) (b := 1)
      (fun t ht => by
        have ht0 : t ≠ 0 := by linarith [ht.1]
        have d2 := hasDerivAt_pow 2 t
        refine (((hd t ht).add (d2.const_mul ((e + l + m) / 2))).add (((d2.div_const 4).sub ((d2.mul (hasDerivAt_log ht0)).div_const 2)).const_mul (b + δ + m'))).congr_deriv ?_
        push_cast
        field_simp
        ring) (fun t ht => by linarith [hp t ht]) ht.1 ht.2 le_rfl
    simp only [log_one, mul_zero, mul_one, one_pow, zero_div, sub_zero] at h
    have ht0 : 0 < t := by linarith [ht.1]
    have hlog : log t ≤ 0 := log_nonpos ht0.le ht.2
    have t1 : 0 ≤ (e + l + m) / 2 * t ^ 2 := by positivity
    have t2 : 0 ≤ (b + δ + m') * (t ^ 2 / 4 - t ^ 2 * log t / 2) := by
      refine mul_nonneg (by positivity) ?_
      nlinarith [sq_nonneg t]
    linarith
  have hq2 : ∀ t ∈ Icc x 1, |-(t * E t) + t * r1 t| ≤ t * ((e + l + m) + (b + δ + m') * (-log t)) := by
    intro t ht
    have ht0 : 0 < t := by linarith [ht.1]
    have e1 : -(t * E t) + t * r1 t = t * (-E t + r1 t) := by ring
    rw [e1, abs_mul, abs_of_pos ht0]
    refine mul_le_mul_of_nonneg_left ?_ ht0.le
    calc |-E t + r1 t| ≤ |-E t| + |r1 t| := abs_add_le _ _
      _ ≤ (e + l + (b + δ) * (-log t)) + (m + m' * (-log t)) := by
        rw [abs_neg]; exact add_le_add (hE t ht) (b2 t ht0 ht.2)
      _ = _ := by ring
  have hW : ∀ t ∈ Icc x 1, |W t| ≤ w + (e + l + m) / 2 + (b + δ + m') / 4 := by
    intro t ht
    rw [abs_le]
    constructor
    · have := stepW (fun t => -W t) (fun t => -(-(t * E t) + t * r1 t)) (fun t ht => (h2 t (by linarith [ht.1]) ht.2).neg)
        (fun t ht => neg_le_neg ((le_abs_self _).trans (hq2 t ht))) ((neg_le_abs _).trans i2) t ht
      linarith
    · exact stepW W _ (fun t ht => h2 t (by linarith [ht.1]) ht.2) (fun t ht => neg_le_of_abs_le (hq2 t ht)) ((le_abs_self _).trans i2) t ht
  refine ⟨b, hb0, ?_, hbx x ⟨le_rfl, hx1⟩, hE x ⟨le_rfl, hx1⟩⟩
  have : b ≤ w + (e + l + m) / 2 + (b + δ + m') / 4 := by
    refine csSup_le ne ?_
    rintro _ ⟨t, ht, rfl⟩
    exact hW t ht
  linarith

/-- `p(1-z)` -/
def cmp1 : List ℤ → List ℤ
  | [] => []
  | a :: p => add [a] (mul [1, -1] (cmp1 p))

theorem ev_cmp1 : ∀ (p : List ℤ) (z : ℝ), ev (cmp1 p) z = ev p (1 - z)
  | [], z => by simp [cmp1, ev]
  | a :: p, z => by
    rw [cmp1, ev_add, ev_mul, ev_cmp1 p z]
    simp only [ev]
    push_cast
    ring

/-! the rational functions of the left branch: `k0 = LA/LB - (MA/MB) ln x`, `k1 = x (CA/CB + (DA/DB) ln x) + 1/x` at `z = x²` -/
def LA : List ℤ := K0Pz
def LB : List ℤ := smul 10 (cmp1 K0Qz)
def MA : List ℤ := K0PIz
def MB : List ℤ := smul 10 (cmp1 K0QIz)
def CA : List ℤ := K1Pz
def CB : List ℤ := smul 100 (cmp1 K1Qz)
def DA : List ℤ := K1PIz
def DB : List ℤ := smul 100 (cmp1 K1QIz)

/-- `MA(0)`, `MB(0)` -/
def ma : ℤ := 1000000000000000000000
def mb : ℤ := 999999999999999962570

def Nl1 : List ℤ := add (sh (add (smul (2 * mb) (mul (dd LA LB) (mul CB MB))) (smul mb (mul (mul CA LB) (mul LB MB)))))
  (mul (mul LB LB) (mul CB (sub (smul ma MB) (smul mb MA))))
def Wl1 : List ℤ := smul mb (mul (mul LB LB) (mul CB MB))
def Nl2 : List ℤ := sh (sub (mul DA (mul MB MB)) (smul 2 (mul (dd MA MB) DB)))
def Wl2 : List ℤ := mul DB (mul MB MB)
def Nl3 : List ℤ := sh (add (add (smul 2 (mul (mul CA CB) (mul DB LB))) (mul (mul DA CB) (mul CB LB)))
  (add (smul 2 (sh (mul (dd CA CB) (mul DB LB)))) (mul (mul LA CB) (mul CB DB))))
def Wl3 : List ℤ := mul (mul CB CB) (mul DB LB)
def Nl4 : List ℤ := sh (sub (add (smul 2 (mul DA (mul DB MB))) (smul 2 (sh (mul (dd DA DB) MB)))) (mul MA (mul DB DB)))
def Wl4 : List ℤ := mul (mul DB DB) MB

set_option maxRecDepth 100000

theorem cert_l1 : resOn 323 32 20 1 16 0 11 (10 ^ 14) Nl1 Wl1 = true := by decide +kernel
theorem cert_l2 : resOn 183 32 20 1 16 0 26 (10 ^ 15) Nl2 Wl2 = true := by decide +kernel
theorem cert_l3 : resOn 260 32 20 1 16 0 40 (10 ^ 16) Nl3 Wl3 = true := by decide +kernel
theorem cert_l4 : resOn 186 32 20 1 16 0 12 (10 ^ 16) Nl4 Wl4 = true := by decide +kernel

end Bes
end Verif
