import Mathlib.Data.Real.Basic
import Mathlib.Data.Nat.Log
import Mathlib.Tactic.Ring
import Mathlib.Tactic.Linarith
import Mathlib.Tactic.Positivity
import Mathlib.Tactic.NormNum
import Mathlib.Algebra.Order.Floor.Ring
import Verif.F64.Basic

/-!
# The rounding function of the executable model is IEEE round-to-nearest-even

`rndMag : ℝ → ℕ` is the *specification* of rounding a nonnegative real (in units of `2^-1074`);
`roundMag num den = rndMag (num/den)` ties the executable rounding to it.
-/

namespace Verif

/-! ## `lg` is `Nat.log 2` -/

theorem lgAux_eq (f n a : Nat) (h : n < 2^2^f) : lgAux f n a = a + Nat.log 2 n := by
  induction f generalizing n a with
  | zero =>
    have : n < 2 := by simpa using h
    rw [lgAux_zero, Nat.log_of_lt this]; rfl
  | succ f ih =>
    rw [lgAux_succ]
    have hpos : 0 < 2^2^f := by positivity
    split
    · rename_i h0
      have : n < 2^2^f := by
        rcases Nat.lt_or_ge n (2^2^f) with h1 | h1
        · exact h1
        · have := Nat.div_pos h1 hpos; omega
      exact ih n a this
    · rename_i h0
      have h1 : 2^2^f ≤ n := by
        by_contra hc
        exact h0 (Nat.div_eq_of_lt (by omega))
      have h2 : n / 2^2^f < 2^2^f := by
        rw [Nat.div_lt_iff_lt_mul hpos, ← pow_add]
        have : 2^f + 2^f = 2^(f+1) := by ring
        rw [this]; exact h
      rw [ih _ _ h2, Nat.add_comm (2^f) a, Nat.add_assoc]
      congr 1
      have h3 : n / 2^2^f ≠ 0 := h0
      apply Eq.symm
      rw [Nat.log_eq_iff (Or.inr ⟨by norm_num, by omega⟩)]
      have h4 := Nat.pow_log_le_self 2 h3
      have h5 := Nat.lt_pow_succ_log_self (b := 2) (by norm_num) (n / 2^2^f)
      constructor
      · rw [pow_add]
        calc 2^2^f * 2^(Nat.log 2 (n / 2^2^f)) ≤ 2^2^f * (n / 2^2^f) := Nat.mul_le_mul_left _ h4
          _ ≤ n := Nat.mul_div_le _ _
      · rw [show 2^f + Nat.log 2 (n/2^2^f) + 1 = (Nat.log 2 (n/2^2^f) + 1) + 2^f by ring, pow_add]
        rwa [Nat.div_lt_iff_lt_mul hpos] at h5

theorem lg_eq (n : Nat) : lg n = Nat.log 2 n := by
  unfold lg
  rw [cond_blt]
  split
  · rename_i h; rw [lgAux_eq 13 n 0 h, Nat.zero_add]
  · exact Nat.log2_eq_log_two


/-! ## `iv` -/

theorem iv_small {n : Nat} (h : n < 2^52) : iv n = n := by
  rw [iv_def]; rw [Nat.div_eq_of_lt h, Nat.mod_eq_of_lt h]; simp

/-- The value at index `k*2^52 + m` is `m * 2^k`, when `m` is a 53-bit significand. -/
theorem iv_eq {k m : Nat} (h1 : k = 0 ∨ 2^52 ≤ m) (h2 : m ≤ 2^53) : iv (k*2^52+m) = m * 2^k := by
  rcases Nat.lt_or_ge m (2^52) with hm | hm
  · rcases h1 with h1 | h1
    · subst h1; simp only [Nat.zero_mul, Nat.zero_add, pow_zero, Nat.mul_one]; exact iv_small hm
    · omega
  · rcases Nat.lt_or_ge m (2^53) with hm2 | hm2
    · have e1 : (k*2^52+m)/2^52 = k+1 := by omega
      have e2 : (k*2^52+m)%2^52 = m - 2^52 := by omega
      rw [iv_def]; rw [e1, e2]
      simp only [Nat.add_eq_zero_iff, one_ne_zero, and_false, if_false, Nat.add_sub_cancel]
      rw [Nat.add_sub_cancel' hm]
    · have hm3 : m = 2^53 := by omega
      subst hm3
      have e1 : (k*2^52+2^53)/2^52 = k+2 := by omega
      have e2 : (k*2^52+2^53)%2^52 = 0 := by omega
      rw [iv_def]; rw [e1, e2]
      simp only [Nat.add_eq_zero_iff, OfNat.ofNat_ne_zero, and_false, if_false, Nat.add_zero]
      rw [show k + 2 - 1 = k + 1 by omega, pow_succ]; ring

/-- Every index decomposes as `k*2^52 + m` with a 53-bit significand. -/
theorem idx_decomp (n : Nat) : ∃ k m, n = k*2^52+m ∧ (k = 0 ∨ 2^52 ≤ m) ∧ m < 2^53 := by
  rcases Nat.lt_or_ge n (2^53) with h | h
  · exact ⟨0, n, by omega, Or.inl rfl, h⟩
  · exact ⟨n/2^52 - 1, n % 2^52 + 2^52, by omega, Or.inr (by omega), by omega⟩

theorem iv_succ {k m : Nat} (h1 : k = 0 ∨ 2^52 ≤ m) (h2 : m < 2^53) :
    iv (k*2^52+m+1) = (m+1) * 2^k := by
  rw [Nat.add_assoc]; exact iv_eq (by omega) (by omega)

theorem iv_lt_succ (n : Nat) : iv n < iv (n+1) := by
  obtain ⟨k, m, rfl, h1, h2⟩ := idx_decomp n
  rw [iv_eq h1 (by omega), iv_succ h1 h2]
  exact Nat.mul_lt_mul_of_pos_right (by omega) (by positivity)

theorem iv_strictMono : StrictMono iv := strictMono_nat_of_lt_succ iv_lt_succ

@[simp] theorem iv_zero : iv 0 = 0 := by decide +kernel

theorem iv_eq_zero {n : Nat} : iv n = 0 ↔ n = 0 := by
  constructor
  · intro h
    by_contra hn
    have := iv_strictMono (Nat.pos_of_ne_zero hn)
    simp at this; omega
  · rintro rfl; exact iv_zero

theorem iv_inf : iv INFMAG = 2^2098 := by
  have : INFMAG = 2046 * 2^52 + 2^52 := by decide
  rw [this, iv_eq (Or.inr (le_refl _)) (by norm_num), ← pow_add]

/-! ## specification of rounding -/

/-- `x` (units of `2^-1074`) is rounded above index `n`: it is beyond the midpoint between the values
of `n` and `n+1`, or exactly at the midpoint and `n` is odd (ties to even). -/
def Above (n : Nat) (x : ℝ) : Prop :=
  (iv n : ℝ) + iv (n+1) < 2*x ∨ ((iv n : ℝ) + iv (n+1) = 2*x ∧ n % 2 = 1)

theorem Above.anti {n m : Nat} {x : ℝ} (h : Above m x) (hn : n < m) : Above n x := by
  left
  have h1 : (iv n : ℝ) < iv m := by exact_mod_cast iv_strictMono hn
  have h2 : (iv (n+1) : ℝ) < iv (m+1) := by exact_mod_cast iv_strictMono (by omega)
  rcases h with h | h
  · linarith
  · linarith [h.1]

theorem Above.mono {n : Nat} {x y : ℝ} (h : Above n x) (hxy : x ≤ y) : Above n y := by
  rcases h with h | h
  · left; linarith
  · rcases lt_or_eq_of_le hxy with h1 | h1
    · left; linarith [h.1]
    · right; rw [← h1]; exact h

open Classical in
/-- Specification of round-to-nearest-even on nonnegative reals (units of `2^-1074`): the least index
`x` is not above, or infinity. -/
noncomputable def rndMag (x : ℝ) : Nat :=
  Nat.find (p := fun n => n ≥ INFMAG ∨ ¬ Above n x) ⟨INFMAG, Or.inl (le_refl _)⟩

open Classical in
theorem lt_rndMag {n : Nat} {x : ℝ} : n < rndMag x ↔ n < INFMAG ∧ Above n x := by
  unfold rndMag
  rw [Nat.lt_find_iff]
  constructor
  · intro h
    have := h n (le_refl n)
    push Not at this; exact ⟨by omega, this.2⟩
  · rintro ⟨h1, h2⟩ m hm
    push Not
    refine ⟨by omega, ?_⟩
    rcases Nat.lt_or_ge m n with h | h
    · exact h2.anti h
    · have : m = n := by omega
      subst this; exact h2

theorem rndMag_le (x : ℝ) : rndMag x ≤ INFMAG := by
  by_contra h
  have := (lt_rndMag (n := INFMAG) (x := x)).1 (by omega)
  omega

theorem rndMag_mono {x y : ℝ} (h : x ≤ y) : rndMag x ≤ rndMag y := by
  by_contra hc
  have h1 := (lt_rndMag (n := rndMag y) (x := x)).1 (by omega)
  have h2 := (lt_rndMag (n := rndMag y) (x := y)).2 ⟨h1.1, h1.2.mono h⟩
  omega

/-- Representable values are fixed. -/
theorem rndMag_iv {n : Nat} (h : n ≤ INFMAG) : rndMag (iv n) = n := by
  apply le_antisymm
  · by_contra hc
    have h1 := (lt_rndMag (n := n) (x := iv n)).1 (by omega)
    have h2 : (iv n : ℝ) < iv (n+1) := by exact_mod_cast iv_lt_succ n
    rcases h1.2 with h3 | h3
    · linarith
    · linarith [h3.1]
  · by_contra hc
    rcases Nat.eq_zero_or_pos n with h0 | h0
    · omega
    · have := (lt_rndMag (n := n-1) (x := iv n)).2 ⟨by omega, by
        left
        have h2 : (iv (n-1) : ℝ) < iv n := by exact_mod_cast iv_strictMono (by omega : n-1 < n)
        rw [show n - 1 + 1 = n by omega]; linarith⟩
      omega

theorem rndMag_of_nonpos {x : ℝ} (h : x ≤ 0) : rndMag x = 0 := by
  have := rndMag_mono h
  have h2 := rndMag_iv (n := 0) (by omega)
  simp at h2; omega

/-- bracket: index `n` with `iv n ≤ x < iv (n+1)` decides rounding up to one midpoint test -/
theorem rndMag_bracket {n : Nat} {x : ℝ} (h1 : (iv n : ℝ) ≤ x) (h2 : x < iv (n+1)) (hn : n < INFMAG) :
    (Above n x → rndMag x = n+1) ∧ (¬ Above n x → rndMag x = n) := by
  have hge : n ≤ rndMag x := by
    have := rndMag_mono h1
    rwa [rndMag_iv (by omega)] at this
  have hle : rndMag x ≤ n+1 := by
    have := rndMag_mono h2.le
    rwa [rndMag_iv (by omega)] at this
  constructor
  · intro h
    have := (lt_rndMag (n := n) (x := x)).2 ⟨hn, h⟩
    omega
  · intro h
    by_contra hc
    exact h ((lt_rndMag (n := n) (x := x)).1 (by omega)).2

theorem rndMag_of_ge {x : ℝ} (h : (iv INFMAG : ℝ) ≤ x) : rndMag x = INFMAG := by
  have h1 := rndMag_mono h
  rw [rndMag_iv (le_refl _)] at h1
  have := rndMag_le x; omega

/-- The executable rounding is the specified one. -/
theorem roundMag_eq (num den : Nat) (hd : 0 < den) : roundMag num den = rndMag ((num:ℝ)/den) := by
  set q := num / den with hq
  set k := lg q - 52 with hk
  set d := den * 2^k with hdd
  have hdpos : 0 < d := by positivity
  set m := num / d with hm
  have hmq : m = q / 2^k := by rw [hm, hdd, hq, Nat.div_div_eq_div_mul]
  have hlg : lg q = Nat.log 2 q := lg_eq q
  have hm53 : m < 2^53 := by
    rw [hmq, Nat.div_lt_iff_lt_mul (by positivity), ← pow_add]
    have := Nat.lt_pow_succ_log_self (b := 2) (by norm_num) q
    refine lt_of_lt_of_le this (Nat.pow_le_pow_right (by norm_num) ?_)
    omega
  have hmk : k = 0 ∨ 2^52 ≤ m := by
    rcases Nat.eq_zero_or_pos k with h | h
    · left; exact h
    · right
      rw [hmq, Nat.le_div_iff_mul_le (by positivity), ← pow_add]
      have hq0 : q ≠ 0 := by
        rintro h0
        have : Nat.log 2 q = 0 := by rw [h0]; simp
        omega
      have := Nat.pow_log_le_self 2 hq0
      rwa [show 52 + k = Nat.log 2 q by omega]
  have hnum : num = d * m + num % d := (Nat.div_add_mod num d).symm
  set r := num % d with hr
  have hrlt : r < d := Nat.mod_lt _ hdpos
  set n := k*2^52+m with hn
  have hivn : iv n = m * 2^k := iv_eq hmk (by omega)
  have hivn1 : iv (n+1) = (m+1) * 2^k := iv_succ hmk hm53
  have hdR : (0:ℝ) < den := by exact_mod_cast hd
  have hx : (num:ℝ)/den = ((m:ℝ) + r/d) * 2^k := by
    have hdR' : (d:ℝ) ≠ 0 := by positivity
    have h1 : (num:ℝ) = d * m + r := by exact_mod_cast hnum
    rw [h1, hdd]; push_cast
    field_simp
  have hk2 : (0:ℝ) < 2^k := by positivity
  have hrd0 : (0:ℝ) ≤ (r:ℝ)/d := by positivity
  have hrd1 : (r:ℝ)/d < 1 := by
    rw [div_lt_one (by exact_mod_cast hdpos)]; exact_mod_cast hrlt
  have hx1 : (iv n : ℝ) ≤ (num:ℝ)/den := by
    rw [hivn, hx]; push_cast
    exact mul_le_mul_of_nonneg_right (by linarith) hk2.le
  have hx2 : (num:ℝ)/den < iv (n+1) := by
    rw [hivn1, hx]; push_cast
    exact mul_lt_mul_of_pos_right (by linarith) hk2
  have key : Above n ((num:ℝ)/den) ↔ d < 2*r ∨ (d = 2*r ∧ m % 2 = 1) := by
    have hpar : n % 2 = m % 2 := by omega
    unfold Above
    rw [hivn, hivn1, hx, hpar]
    push_cast
    have e1 : (m:ℝ) * 2^k + (m+1)*2^k = (2*(m:ℝ) + 1) * 2^k := by ring
    have e2 : 2 * (((m:ℝ) + r/d) * 2^k) = (2*(m:ℝ) + 2*(r/d)) * 2^k := by ring
    rw [e1, e2]
    have hdR' : (0:ℝ) < (d:ℝ) := by exact_mod_cast hdpos
    have f1 : (2*(m:ℝ) + 1) * 2^k < (2*(m:ℝ) + 2*(r/d)) * 2^k ↔ d < 2*r := by
      rw [mul_lt_mul_iff_left₀ hk2]
      constructor
      · intro h
        have : (1:ℝ) < 2 * ((r:ℝ)/d) := by linarith
        rw [← mul_div_assoc, lt_div_iff₀ hdR', one_mul] at this
        exact_mod_cast this
      · intro h
        have h' : (d:ℝ) < 2*r := by exact_mod_cast h
        have : (1:ℝ) < 2 * ((r:ℝ)/d) := by
          rw [← mul_div_assoc, lt_div_iff₀ hdR', one_mul]; exact h'
        linarith
    have f2 : (2*(m:ℝ) + 1) * 2^k = (2*(m:ℝ) + 2*(r/d)) * 2^k ↔ d = 2*r := by
      rw [mul_left_inj' hk2.ne']
      constructor
      · intro h
        have : (1:ℝ) = 2 * ((r:ℝ)/d) := by linarith
        rw [← mul_div_assoc, eq_div_iff hdR'.ne', one_mul] at this
        exact_mod_cast this
      · intro h
        have h' : (d:ℝ) = 2*r := by exact_mod_cast h
        have : (1:ℝ) = 2 * ((r:ℝ)/d) := by
          rw [← mul_div_assoc, eq_div_iff hdR'.ne', one_mul]; exact h'
        linarith
    rw [f1, f2]
  have hround : roundMag num den = min (n + if d < 2*r ∨ (d = 2*r ∧ m % 2 = 1) then 1 else 0) INFMAG := by
    have h0 : roundMag num den = min (k * 2^52 + if 2*r < d then m else if d < 2*r then m+1
        else if m % 2 = 0 then m else m+1) INFMAG := by rw [roundMag_def]
    rw [h0]
    by_cases hA : d < 2*r ∨ (d = 2*r ∧ m % 2 = 1)
    · rw [if_pos hA]
      rcases hA with h | h
      · rw [if_neg (by omega), if_pos h, hn, Nat.add_assoc]
      · rw [if_neg (by omega), if_neg (by omega), if_neg (by omega), hn, Nat.add_assoc]
    · rw [if_neg hA]
      push Not at hA
      by_cases h : 2*r < d
      · rw [if_pos h, hn, Nat.add_zero]
      · have := hA.2 (by omega)
        rw [if_neg h, if_neg (by omega), if_pos (by omega), hn, Nat.add_zero]
  rw [hround]
  rcases Nat.lt_or_ge n INFMAG with hlt | hge
  · obtain ⟨b1, b2⟩ := rndMag_bracket hx1 hx2 hlt
    by_cases hA : d < 2*r ∨ (d = 2*r ∧ m % 2 = 1)
    · rw [if_pos hA, b1 (key.2 hA)]; exact Nat.min_eq_left hlt
    · rw [if_neg hA, b2 (fun h => hA (key.1 h))]; rw [Nat.add_zero]; exact Nat.min_eq_left hlt.le
  · have : (iv INFMAG : ℝ) ≤ (num:ℝ)/den := le_trans (Nat.cast_le.2 (iv_strictMono.monotone hge)) hx1
    rw [rndMag_of_ge this]
    exact Nat.min_eq_right (le_trans hge (Nat.le_add_right _ _))

end Verif
