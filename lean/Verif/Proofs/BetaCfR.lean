import Verif.Proofs.IncBeta
import Verif.Props.ContFrac

/-!
# Error of the convergents of the continued fraction of the incomplete beta function (exact arithmetic)
-/

namespace Verif.Bcf
open Hyp

section
variable {a b x : ℝ}

/-- the functions of Gauss' continued fraction -/
noncomputable def G (a b x : ℝ) (n : ℕ) : ℝ := F (a + b + (n / 2 : ℕ)) ((n + 1) / 2 : ℕ) (a + n) x

theorem G_even (m : ℕ) : G a b x (2 * m) = F (a + b + m) m (a + 2 * m) x := by
  unfold G; rw [show 2 * m / 2 = m by omega, show (2 * m + 1) / 2 = m by omega]; push_cast; rfl

theorem G_odd (m : ℕ) : G a b x (2 * m + 1) = F (a + b + m) (m + 1) (a + 2 * m + 1) x := by
  unfold G; rw [show (2 * m + 1) / 2 = m by omega, show (2 * m + 1 + 1) / 2 = m + 1 by omega]; push_cast; rw [← add_assoc a (2 * (m:ℝ))]

theorem G_pos (ha : 0 < a) (hb : 0 < b) (h0 : 0 ≤ x) (h1 : x < 1) (n : ℕ) : 0 < G a b x n :=
  lt_of_lt_of_le one_pos (F_ge_one (by positivity) (Nat.cast_nonneg _) (by positivity) h0 h1)

theorem G_zero : G a b x 0 = 1 := by
  have := G_even (a := a) (b := b) (x := x) 0
  rw [mul_zero, Nat.cast_zero] at this
  rw [this]; exact F_zero

theorem G_rec_even (ha : 0 < a) (hb : 0 < b) (h0 : 0 ≤ x) (h1 : x < 1) (m : ℕ) :
    G a b x (2 * m) = G a b x (2 * m + 1) + betaCoeff a b x (2 * m + 1) * G a b x (2 * m + 2) := by
  have hm : (0:ℝ) ≤ m := Nat.cast_nonneg m
  rw [show 2 * m + 2 = 2 * (m + 1) by ring, G_even, G_odd, G_even, betaCoeff_odd]
  rw [contiguous (by linarith) hm (by linarith) h0 h1]
  push_cast
  rw [show a + b + m + 1 = a + b + (m + 1 : ℝ) by ring, show a + 2 * m + 2 = a + 2 * (m + 1 : ℝ) by ring]
  congr 2
  have n1 : a + 2 * m ≠ 0 := by positivity
  have n2 : a + 2 * m + 1 ≠ 0 := by positivity
  field_simp
  ring

theorem G_rec_odd (ha : 0 < a) (hb : 0 < b) (h0 : 0 ≤ x) (h1 : x < 1) (m : ℕ) :
    G a b x (2 * m + 1) = G a b x (2 * m + 2) + betaCoeff a b x (2 * m + 2) * G a b x (2 * m + 3) := by
  have hm : (0:ℝ) ≤ m := Nat.cast_nonneg m
  rw [show 2 * m + 2 = 2 * (m + 1) by ring, show 2 * m + 3 = 2 * (m + 1) + 1 by ring, G_odd, G_even, G_odd, betaCoeff_even a b x _ (by omega)]
  rw [F_comm, contiguous (by linarith) (by linarith) (by linarith) h0 h1, F_comm, F_comm (_ + 1 + 1)]
  push_cast
  rw [show a + b + m + 1 = a + b + (m + 1 : ℝ) by ring, show a + 2 * m + 1 + 1 = a + 2 * (m + 1 : ℝ) by ring,
    show a + 2 * m + 1 + 2 = a + 2 * (m + 1 : ℝ) + 1 by ring]
  congr 2
  have n1 : a + 2 * m + 1 ≠ 0 := by positivity
  have n2 : a + 2 * (m + 1) ≠ 0 := by positivity
  have n3 : a + 2 * (m + 1) - 1 ≠ 0 := by
    have : a + 2 * ((m:ℝ) + 1) - 1 = a + 2 * m + 1 := by ring
    rw [this]; exact n1
  have e : a + 2 * ((m:ℝ) + 1) - 1 = a + 2 * m + 1 := by ring
  rw [e]
  field_simp
  ring

theorem G_rec (ha : 0 < a) (hb : 0 < b) (h0 : 0 ≤ x) (h1 : x < 1) (n : ℕ) :
    G a b x n = G a b x (n + 1) + betaCoeff a b x (n + 1) * G a b x (n + 2) := by
  rcases Nat.even_or_odd' n with ⟨m, rfl | rfl⟩
  · exact G_rec_even ha hb h0 h1 m
  · exact G_rec_odd ha hb h0 h1 m

/-- the parameters of the chain sequence: `d_n = -(1 - g_(n-1)) g_n x` -/
noncomputable def g (a b : ℝ) (n : ℕ) : ℝ := if n % 2 = 0 then (n / 2 : ℕ) / (a + n) else (a + b + (n / 2 : ℕ)) / (a + n)

theorem g_even (m : ℕ) : g a b (2 * m) = m / (a + 2 * m) := by
  unfold g; rw [if_pos (by omega), show 2 * m / 2 = m by omega]; push_cast; rfl

theorem g_odd (m : ℕ) : g a b (2 * m + 1) = (a + b + m) / (a + 2 * m + 1) := by
  unfold g; rw [if_neg (by omega), show (2 * m + 1) / 2 = m by omega]; push_cast; rw [add_assoc a (2 * (m:ℝ))]

theorem coeff_g (ha : 0 < a) (n : ℕ) : betaCoeff a b x (n + 1) = -((1 - g a b n) * g a b (n + 1) * x) := by
  rcases Nat.even_or_odd' n with ⟨m, rfl | rfl⟩
  · have hm : (0:ℝ) ≤ m := Nat.cast_nonneg m
    rw [betaCoeff_odd, g_even, g_odd]
    have n1 : a + 2 * m ≠ 0 := by positivity
    have n2 : a + 2 * m + 1 ≠ 0 := by positivity
    field_simp
    ring
  · have hm : (0:ℝ) ≤ m := Nat.cast_nonneg m
    rw [show 2 * m + 1 + 1 = 2 * (m + 1) by ring, betaCoeff_even a b x _ (by omega), g_odd, g_even]
    push_cast
    have e : a + 2 * ((m:ℝ) + 1) - 1 = a + 2 * m + 1 := by ring
    have n1 : a + 2 * m + 1 ≠ 0 := by positivity
    have n2 : a + 2 * (m + 1) ≠ 0 := by positivity
    rw [e]
    field_simp
    ring

theorem g_nonneg (ha : 0 < a) (hb : 0 < b) (n : ℕ) : 0 ≤ g a b n := by
  unfold g; split <;> positivity

theorem g_even_le (ha : 0 < a) (m : ℕ) : g a b (2 * m) ≤ 1 := by
  rw [g_even]
  have hm : (0:ℝ) ≤ m := Nat.cast_nonneg m
  rw [div_le_one (by positivity)]; linarith

theorem g_odd_le (ha : 0 < a) (m : ℕ) (h : b ≤ m + 1) : g a b (2 * m + 1) ≤ 1 := by
  rw [g_odd]
  have hm : (0:ℝ) ≤ m := Nat.cast_nonneg m
  rw [div_le_one (by positivity)]; linarith

/-- the odd parameters decrease when `b ≥ 1` -/
theorem g_odd_le_first (ha : 0 < a) (hb : 1 ≤ b) (m : ℕ) : g a b (2 * m + 1) ≤ (a + b) / (a + 1) := by
  rw [g_odd]
  have hm : (0:ℝ) ≤ m := Nat.cast_nonneg m
  rw [div_le_div_iff₀ (by positivity) (by positivity)]
  nlinarith

/-- `G_n ≥ g_n G_(n+1)` when `g_n ≤ 1` -/
theorem G_lower (ha : 0 < a) (hb : 0 < b) (h0 : 0 ≤ x) (h1 : x < 1) (n : ℕ) (h : g a b n ≤ 1) : g a b n * G a b x (n + 1) ≤ G a b x n := by
  rcases Nat.even_or_odd' n with ⟨m, rfl | rfl⟩
  · rcases Nat.eq_zero_or_pos m with h' | h'
    · subst h'
      rw [g_even]; simp only [Nat.cast_zero, zero_div, zero_mul]
      exact (G_pos ha hb h0 h1 _).le
    · have hm : (1:ℝ) ≤ m := by exact_mod_cast h'
      rw [g_even, G_even, G_odd]
      exact F_lower (by linarith) (by linarith) (by linarith) (by linarith) h0 h1
  · have hm : (0:ℝ) ≤ m := Nat.cast_nonneg m
    rw [g_odd] at h ⊢
    rw [div_le_one (by positivity)] at h
    rw [show 2 * m + 1 + 1 = 2 * (m + 1) by ring, G_odd, G_even, F_comm, F_comm _ _ (_ + _ + _)]
    have := F_lower (α := (m:ℝ) + 1) (β := a + b + m) (γ := a + 2 * m + 1) (x := x) (by linarith) (by linarith) (by linarith) h h0 h1
    push_cast
    rw [show a + b + ((m:ℝ) + 1) = a + b + m + 1 by ring, show a + 2 * ((m:ℝ) + 1) = a + 2 * m + 1 + 1 by ring]
    exact this

end

/-! ## denominators of the convergents -/

section
variable {a b x : ℝ}

theorem den0 : (betaFraction a b x).dens 0 = 1 := den_zero _ _
theorem den1 : (betaFraction a b x).dens 1 = 1 := den_one _ _
theorem denS (k : ℕ) : (betaFraction a b x).dens (k + 2) =
    (betaFraction a b x).dens (k + 1) + betaCoeff a b x (k + 1) * (betaFraction a b x).dens k := by
  have := den_rec (betaCoeff a b x) (fun _ => 1) k
  rw [one_mul] at this; exact this
theorem num0 : (betaFraction a b x).nums 0 = 0 := num_zero _ _
theorem num1 : (betaFraction a b x).nums 1 = 1 := num_one _ _
theorem numS (k : ℕ) : (betaFraction a b x).nums (k + 2) =
    (betaFraction a b x).nums (k + 1) + betaCoeff a b x (k + 1) * (betaFraction a b x).nums k := by
  have := num_rec (betaCoeff a b x) (fun _ => 1) k
  rw [one_mul] at this; exact this

/-- `x` is in the range where no denominator vanishes: `x < 1` and `x(a+b)/(a+1) < 1` -/
structure Good (a b x : ℝ) : Prop where
  ha : 0 < a
  hb : 0 < b
  h0 : 0 < x
  h1 : x < 1
  h2 : x * ((a + b) / (a + 1)) < 1

theorem Good.gx (H : Good a b x) (n : ℕ) : g a b n * x < 1 := by
  rcases Nat.even_or_odd' n with ⟨m, rfl | rfl⟩
  · have := mul_le_mul_of_nonneg_right (g_even_le (b := b) H.ha m) H.h0.le
    linarith [H.h1]
  · rcases le_total 1 b with h | h
    · have := mul_le_mul_of_nonneg_right (g_odd_le_first H.ha h m) H.h0.le
      linarith [H.h2]
    · have hm : (0:ℝ) ≤ m := Nat.cast_nonneg m
      have := mul_le_mul_of_nonneg_right (g_odd_le (b := b) H.ha m (by linarith)) H.h0.le
      linarith [H.h1]

/-- `B_(n+1) ≥ (1 - g_n x) B_n > 0` -/
theorem den_lower (H : Good a b x) (n : ℕ) : 0 < (betaFraction a b x).dens n ∧
    (1 - g a b n * x) * (betaFraction a b x).dens n ≤ (betaFraction a b x).dens (n + 1) := by
  induction n with
  | zero =>
    rw [den0, den1]
    have : g a b 0 = 0 := by have := g_even (a := a) (b := b) 0; simpa using this
    rw [this]; norm_num
  | succ n ih =>
    have p := H.gx n
    have q : 0 < (betaFraction a b x).dens (n + 1) := lt_of_lt_of_le (mul_pos (by linarith) ih.1) ih.2
    refine ⟨q, ?_⟩
    rw [denS, coeff_g H.ha]
    have k : (1 - g a b n) * (betaFraction a b x).dens n ≤ (betaFraction a b x).dens (n + 1) := by
      refine le_trans (mul_le_mul_of_nonneg_right ?_ ih.1.le) ih.2
      have := mul_le_of_le_one_right (g_nonneg H.ha H.hb n) H.h1.le
      linarith
    have := mul_le_mul_of_nonneg_left k (mul_nonneg (g_nonneg H.ha H.hb (n + 1)) H.h0.le)
    nlinarith

/-- `B_n G_n + d_n B_(n-1) G_(n+1) = 1` -/
theorem den_inv (H : Good a b x) (n : ℕ) : (betaFraction a b x).dens (n + 1) * G a b x (n + 1) +
    betaCoeff a b x (n + 1) * (betaFraction a b x).dens n * G a b x (n + 2) = 1 := by
  induction n with
  | zero =>
    have := G_rec H.ha H.hb H.h0.le H.h1 0
    rw [G_zero] at this
    simp only [zero_add] at *
    rw [den0, den1]; linarith
  | succ n ih =>
    have := G_rec H.ha H.hb H.h0.le H.h1 (n + 1)
    rw [denS]
    rw [this] at ih
    simp only [add_assoc] at *
    norm_num at *
    linarith

/-- the error `G_1 B_n - A_n` is the product of the partial numerators times `G_(n+1)` -/
theorem err_rec (H : Good a b x) (n : ℕ) :
    G a b x (n + 1) * (G a b x 1 * (betaFraction a b x).dens (n + 1) - (betaFraction a b x).nums (n + 1)) =
      -(betaCoeff a b x (n + 1) * G a b x (n + 2) * (G a b x 1 * (betaFraction a b x).dens n - (betaFraction a b x).nums n)) := by
  induction n with
  | zero =>
    have := G_rec H.ha H.hb H.h0.le H.h1 0
    rw [G_zero] at this
    simp only [zero_add] at *
    rw [den0, den1, num0, num1]
    have : G a b x 1 - 1 = -(betaCoeff a b x 1 * G a b x 2) := by linarith
    rw [mul_one, sub_zero, this]; ring
  | succ n ih =>
    have r := G_rec H.ha H.hb H.h0.le H.h1 (n + 1)
    rw [denS, numS]
    rw [r] at ih
    simp only [add_assoc] at *
    norm_num at *
    generalize (betaFraction a b x).dens (n + 1) = D1 at *
    generalize (betaFraction a b x).nums (n + 1) = N1 at *
    generalize (betaFraction a b x).dens n = D0 at *
    generalize (betaFraction a b x).nums n = N0 at *
    linear_combination ih

/-- the contraction factor: `ε_(n+1) = -ρ_n ε_n` -/
noncomputable def rho (a b x : ℝ) (n : ℕ) : ℝ :=
  betaCoeff a b x (n + 1) * (G a b x (n + 2) / G a b x (n + 1)) * ((betaFraction a b x).dens n / (betaFraction a b x).dens (n + 1))

theorem err_step (H : Good a b x) (n : ℕ) :
    G a b x 1 - (betaFraction a b x).convs (n + 1) = -(rho a b x n * (G a b x 1 - (betaFraction a b x).convs n)) := by
  have e := err_rec H n
  have p1 := G_pos H.ha H.hb H.h0.le H.h1 (n + 1)
  have d0 := (den_lower H n).1
  have d1 := (den_lower H (n + 1)).1
  rw [GenContFract.conv_eq_num_div_den, GenContFract.conv_eq_num_div_den]
  unfold rho
  field_simp
  linear_combination e

theorem err_zero : G a b x 1 - (betaFraction a b x).convs 0 = G a b x 1 := by
  rw [GenContFract.conv_eq_num_div_den, num0, zero_div, sub_zero]

theorem rho_gt (H : Good a b x) (n : ℕ) : -1 < rho a b x n := by
  have e := den_inv H n
  have p1 := G_pos H.ha H.hb H.h0.le H.h1 (n + 1)
  have d1 := (den_lower H (n + 1)).1
  have : 1 + rho a b x n = 1 / ((betaFraction a b x).dens (n + 1) * G a b x (n + 1)) := by
    unfold rho; field_simp; linarith
  have : 0 < 1 + rho a b x n := by rw [this]; positivity
  linarith

/-- contraction by `x` at every step where the chain parameters are at most one -/
theorem rho_le (H : Good a b x) (n : ℕ) (g0 : g a b n ≤ 1) (g1 : g a b (n + 1) ≤ 1) (g2 : g a b (n + 2) ≤ 1) :
    rho a b x n ≤ 0 ∧ -x ≤ rho a b x n := by
  have p1 := G_pos H.ha H.hb H.h0.le H.h1 (n + 1)
  have p2 := G_pos H.ha H.hb H.h0.le H.h1 (n + 2)
  have p3 := G_pos H.ha H.hb H.h0.le H.h1 (n + 3)
  have d0 := den_lower H n
  have d1 := (den_lower H (n + 1)).1
  have q0 := g_nonneg H.ha H.hb n
  have q1 := g_nonneg H.ha H.hb (n + 1)
  have hx := H.h0
  have hx1 := H.h1
  have r := G_rec H.ha H.hb H.h0.le H.h1 (n + 1)
  have l := G_lower H.ha H.hb H.h0.le H.h1 (n + 2) g2
  rw [coeff_g H.ha (n + 1)] at r
  simp only [add_assoc] at r l
  norm_num at r l
  -- `G_(n+1) ≥ (1 - (1-g_(n+1))x) G_(n+2)`
  have t : (1 - (1 - g a b (n + 1)) * x) * G a b x (n + 2) ≤ G a b x (n + 1) := by
    have := mul_le_mul_of_nonneg_left l (mul_nonneg (sub_nonneg.2 g1) hx.le)
    nlinarith
  -- `(1 - g_n) B_n ≤ B_(n+1)`
  have k : (1 - g a b n) * (betaFraction a b x).dens n ≤ (betaFraction a b x).dens (n + 1) := by
    refine le_trans (mul_le_mul_of_nonneg_right ?_ d0.1.le) d0.2
    have := mul_le_of_le_one_right q0 hx1.le
    linarith
  have e : rho a b x n = -((1 - g a b n) * (betaFraction a b x).dens n / (betaFraction a b x).dens (n + 1) *
      (g a b (n + 1) * G a b x (n + 2) / G a b x (n + 1)) * x) := by
    unfold rho; rw [coeff_g H.ha]; field_simp
  have u0 : 0 ≤ (1 - g a b n) * (betaFraction a b x).dens n / (betaFraction a b x).dens (n + 1) :=
    div_nonneg (mul_nonneg (sub_nonneg.2 g0) d0.1.le) d1.le
  have u1 : (1 - g a b n) * (betaFraction a b x).dens n / (betaFraction a b x).dens (n + 1) ≤ 1 := (div_le_one d1).2 k
  have v0 : 0 ≤ g a b (n + 1) * G a b x (n + 2) / G a b x (n + 1) := by positivity
  have v1 : g a b (n + 1) * G a b x (n + 2) / G a b x (n + 1) ≤ 1 := by
    rw [div_le_one p1]
    refine le_trans (mul_le_mul_of_nonneg_right ?_ p2.le) t
    nlinarith
  rw [e]
  have w0 := mul_nonneg u0 v0
  have w1 := mul_le_one₀ u1 v0 v1
  constructor
  · have := mul_nonneg w0 hx.le; linarith
  · have := mul_le_of_le_one_left hx.le w1; linarith

/-- two successive steps never increase the error while `m ≤ b` -/
theorem rho_pair (H : Good a b x) (h : x * (a + 2 * b - 1) ≤ a + 1) (j : ℕ) (hj : (j:ℝ) + 1 ≤ b) :
    0 ≤ rho a b x (2 * j + 1) ∧ |rho a b x (2 * j + 1) * rho a b x (2 * j + 2)| ≤ 1 := by
  have hj0 : (0:ℝ) ≤ j := Nat.cast_nonneg j
  have hx := H.h0
  have hx1 := H.h1
  have ha := H.ha
  have p2 := G_pos H.ha H.hb H.h0.le H.h1 (2 * j + 2)
  have p3 := G_pos H.ha H.hb H.h0.le H.h1 (2 * j + 3)
  have p4 := G_pos H.ha H.hb H.h0.le H.h1 (2 * j + 4)
  have d1 : 0 < (betaFraction a b x).dens (2 * j + 1) ∧ (1 - g a b (2 * j + 1) * x) * (betaFraction a b x).dens (2 * j + 1) ≤
    (betaFraction a b x).dens (2 * j + 2) := den_lower H (2 * j + 1)
  have d2 := (den_lower H (2 * j + 2)).1
  have d3 := (den_lower H (2 * j + 3)).1
  have r : G a b x (2 * j + 2) = G a b x (2 * j + 3) + betaCoeff a b x (2 * j + 3) * G a b x (2 * j + 4) :=
    G_rec H.ha H.hb H.h0.le H.h1 (2 * j + 2)
  have s : (betaFraction a b x).dens (2 * j + 3) = (betaFraction a b x).dens (2 * j + 2) +
    betaCoeff a b x (2 * j + 2) * (betaFraction a b x).dens (2 * j + 1) := denS (a := a) (b := b) (x := x) (2 * j + 1)
  have c3 : betaCoeff a b x (2 * j + 3) ≤ 0 := by
    rw [coeff_g ha, show 2 * j + 2 = 2 * (j + 1) by ring]
    have := mul_nonneg (mul_nonneg (sub_nonneg.2 (g_even_le (b := b) ha (j + 1))) (g_nonneg ha H.hb (2 * (j + 1) + 1))) hx.le
    linarith
  have ge0 := g_nonneg (a := a) (b := b) ha H.hb (2 * j + 2)
  have ge1 : g a b (2 * j + 2) ≤ 1 := by rw [show 2 * j + 2 = 2 * (j + 1) by ring]; exact g_even_le ha _
  have l : g a b (2 * j + 2) * G a b x (2 * j + 3) ≤ G a b x (2 * j + 2) := G_lower H.ha H.hb H.h0.le H.h1 (2 * j + 2) ge1
  have gp : 0 < g a b (2 * j + 2) := by
    rw [show 2 * j + 2 = 2 * (j + 1) by ring, g_even]; push_cast; positivity
  have go := g_odd_le_first ha (by linarith : 1 ≤ b) j
  have go1 : 1 ≤ g a b (2 * j + 1) := by
    rw [g_odd, le_div_iff₀ (by positivity)]; linarith
  -- `(g_o - 1) x ≤ 1 - g_o x`
  have gx : (g a b (2 * j + 1) - 1) * x ≤ 1 - g a b (2 * j + 1) * x := by
    have : (a + b) / (a + 1) * x * 2 ≤ 1 + x := by
      rw [div_mul_eq_mul_div, div_mul_eq_mul_div, div_le_iff₀ (by linarith)]
      nlinarith
    have := mul_le_mul_of_nonneg_right go hx.le
    nlinarith
  have c2 : betaCoeff a b x (2 * j + 2) = -((1 - g a b (2 * j + 1)) * g a b (2 * j + 2) * x) := coeff_g (a := a) (b := b) (x := x) ha (2 * j + 1)
  have e1 : rho a b x (2 * j + 1) = betaCoeff a b x (2 * j + 2) * (G a b x (2 * j + 3) / G a b x (2 * j + 2)) *
    ((betaFraction a b x).dens (2 * j + 1) / (betaFraction a b x).dens (2 * j + 2)) := rfl
  have e2 : rho a b x (2 * j + 2) = betaCoeff a b x (2 * j + 3) * (G a b x (2 * j + 4) / G a b x (2 * j + 3)) *
    ((betaFraction a b x).dens (2 * j + 2) / (betaFraction a b x).dens (2 * j + 3)) := rfl
  rw [e1, e2]
  clear e1 e2 go H
  -- abbreviations
  generalize G a b x (2 * j + 2) = G2 at *
  generalize G a b x (2 * j + 3) = G3 at *
  generalize G a b x (2 * j + 4) = G4 at *
  generalize (betaFraction a b x).dens (2 * j + 1) = B1 at *
  generalize (betaFraction a b x).dens (2 * j + 2) = B2 at *
  generalize (betaFraction a b x).dens (2 * j + 3) = B3 at *
  generalize betaCoeff a b x (2 * j + 2) = k2 at *
  generalize betaCoeff a b x (2 * j + 3) = k3 at *
  generalize g a b (2 * j + 1) = go at *
  have d11 := d1.1
  generalize g a b (2 * j + 2) = ge at *
  have k20 : 0 ≤ k2 := by
    rw [c2]
    have := mul_nonneg (mul_nonneg (sub_nonneg.2 go1) ge0) hx.le
    nlinarith
  -- `v = k2 B1 / B2 ≤ ge`
  have v1 : k2 * B1 ≤ ge * B2 := by
    have e1 : (go - 1) * x * B1 ≤ B2 := le_trans (mul_le_mul_of_nonneg_right gx d1.1.le) d1.2
    have := mul_le_mul_of_nonneg_left e1 ge0
    rw [c2]; nlinarith
  have v0 : 0 ≤ k2 * B1 := mul_nonneg k20 d1.1.le
  refine ⟨by positivity, ?_⟩
  have e : k2 * (G3 / G2) * (B1 / B2) * (k3 * (G4 / G3) * (B2 / B3)) = (k2 * B1) * (k3 * G4) / (G2 * B3) := by field_simp
  rw [e, abs_div, abs_of_pos (mul_pos p2 d3), div_le_one (mul_pos p2 d3), abs_mul, abs_of_nonneg v0,
    abs_of_nonpos (mul_nonpos_of_nonpos_of_nonneg c3 p4.le)]
  have q : -(k3 * G4) = G3 - G2 := by linarith
  have q0 : 0 ≤ G3 - G2 := by
    have := mul_nonpos_of_nonpos_of_nonneg c3 p4.le
    linarith
  rw [q, s]
  -- `k2 B1 (G3 - G2) ≤ G2 (B2 + k2 B1)`
  have w1 : k2 * B1 * (G3 - G2) ≤ ge * B2 * (G3 - G2) := mul_le_mul_of_nonneg_right v1 q0
  have w2 : ge * B2 * (G3 - G2) ≤ B2 * G2 := by
    have : B2 * (ge * G3) ≤ B2 * G2 := mul_le_mul_of_nonneg_left l d2.le
    have : 0 ≤ B2 * (ge * G2) := by positivity
    nlinarith
  have w3 : 0 ≤ G2 * (k2 * B1) := mul_nonneg p2.le v0
  nlinarith

/-- the distance of the `n`-th convergent from its limit -/
noncomputable def E (a b x : ℝ) (n : ℕ) : ℝ := |G a b x 1 - (betaFraction a b x).convs n|

theorem E_step (H : Good a b x) (n : ℕ) : E a b x (n + 1) = |rho a b x n| * E a b x n := by
  unfold E; rw [err_step H, abs_neg, abs_mul]

theorem E_first (H : Good a b x) (h : x * (a + 2 * b - 1) ≤ a + 1) (j : ℕ) (hj : (j:ℝ) ≤ b) : E a b x (2 * j + 1) ≤ G a b x 1 := by
  have p := G_pos H.ha H.hb H.h0.le H.h1 1
  induction j with
  | zero =>
    rw [mul_zero, E_step H]
    have e0 : E a b x 0 = G a b x 1 := by unfold E; rw [err_zero, abs_of_pos p]
    rw [e0]
    refine mul_le_of_le_one_left p.le ?_
    have r1 := rho_gt H 0
    have r2 : rho a b x 0 ≤ 0 := by
      unfold rho
      have c : betaCoeff a b x (0 + 1) ≤ 0 := by
        rw [coeff_g H.ha]
        have := mul_nonneg (mul_nonneg (sub_nonneg.2 (g_even_le (b := b) H.ha 0)) (g_nonneg H.ha H.hb (0 + 1))) H.h0.le
        simp only [mul_zero] at this
        linarith
      have p2 := G_pos H.ha H.hb H.h0.le H.h1 (0 + 2)
      have d0 := (den_lower H 0).1
      have d1 := (den_lower H (0 + 1)).1
      exact mul_nonpos_of_nonpos_of_nonneg (mul_nonpos_of_nonpos_of_nonneg c (by positivity)) (by positivity)
    rw [abs_of_nonpos r2]; linarith
  | succ j ih =>
    push_cast at hj
    have := ih (by linarith)
    rw [show 2 * (j + 1) + 1 = 2 * j + 1 + 1 + 1 by ring, E_step H, E_step H, ← mul_assoc, ← abs_mul, mul_comm (rho a b x _)]
    exact le_trans (mul_le_of_le_one_left (abs_nonneg _) (rho_pair H h j hj).2) this

theorem g_ok (H : Good a b x) {M n : ℕ} (hM : b ≤ M + 1) (hn : 2 * M + 1 ≤ n) : g a b n ≤ 1 := by
  rcases Nat.even_or_odd' n with ⟨m, rfl | rfl⟩
  · exact g_even_le H.ha m
  · refine g_odd_le H.ha m ?_
    have : (M:ℝ) ≤ m := by exact_mod_cast (by omega : M ≤ m)
    linarith

theorem E_geom (H : Good a b x) (h : x * (a + 2 * b - 1) ≤ a + 1) (M : ℕ) (h1 : (M:ℝ) ≤ b) (h2 : b ≤ M + 1) (k : ℕ) :
    E a b x (2 * M + 1 + k) ≤ x ^ k * G a b x 1 := by
  induction k with
  | zero => rw [pow_zero, one_mul]; exact E_first H h M h1
  | succ k ih =>
    have r := rho_le H (2 * M + 1 + k) (g_ok H h2 (by omega)) (g_ok H h2 (by omega)) (g_ok H h2 (by omega))
    rw [← add_assoc, E_step H, pow_succ]
    have a1 : |rho a b x (2 * M + 1 + k)| ≤ x := by rw [abs_of_nonpos r.1]; linarith
    calc _ ≤ x * (x ^ k * G a b x 1) := mul_le_mul a1 ih (abs_nonneg _) H.h0.le
      _ = _ := by ring

theorem E_stop (H : Good a b x) (h : x * (a + 2 * b - 1) ≤ a + 1) {j : ℕ} (hj : 1 ≤ j) {e : ℝ} (he0 : 0 ≤ e) (he : e * (1 + 1 / (1 - x)) ≤ 1 / 2)
    (hs : |(betaFraction a b x).convs (2 * j) / (betaFraction a b x).convs (2 * j - 1) - 1| ≤ e) :
    E a b x (2 * j) ≤ 2 * e / (1 - x) * G a b x 1 := by
  obtain ⟨i, rfl⟩ : ∃ i, j = i + 1 := ⟨j - 1, by omega⟩
  rw [show 2 * (i + 1) - 1 = 2 * i + 1 by omega, show 2 * (i + 1) = 2 * i + 1 + 1 by ring] at *
  have p := G_pos H.ha H.hb H.h0.le H.h1 1
  have w : 0 < 1 - x := by linarith [H.h1]
  have r : -x ≤ rho a b x (2 * i + 1) := by
    rcases le_total ((i:ℝ) + 1) b with q | q
    · have := (rho_pair H h i q).1; linarith [H.h0]
    · exact (rho_le H (2 * i + 1) (g_ok H q (by omega)) (g_ok H q (by omega)) (g_ok H q (by omega))).2
  have s := err_step H (2 * i + 1)
  unfold E
  generalize (betaFraction a b x).convs (2 * i + 1 + 1) = h1 at *
  generalize (betaFraction a b x).convs (2 * i + 1) = h0 at *
  generalize rho a b x (2 * i + 1) = ρ at *
  generalize G a b x 1 = S at *
  have z : h0 ≠ 0 := by
    intro z; rw [z, div_zero, zero_sub, abs_neg, abs_one] at hs
    have : e ≤ e * (1 + 1 / (1 - x)) := le_mul_of_one_le_right he0 (by have : 0 ≤ 1 / (1 - x) := by positivity
                                                                       linarith)
    linarith
  have d : |h1 - h0| ≤ e * |h0| := by
    have : h1 - h0 = (h1 / h0 - 1) * h0 := by field_simp
    rw [this, abs_mul]; exact mul_le_mul_of_nonneg_right hs (abs_nonneg _)
  have ρ1 : 0 < 1 + ρ := by linarith
  have k : |S - h1| ≤ 1 / (1 - x) * |h1 - h0| := by
    have e1 : (1 + ρ) * (S - h1) = -(ρ * (h1 - h0)) := by linear_combination s
    have e2 : |S - h1| = |ρ| / (1 + ρ) * |h1 - h0| := by
      have := congrArg abs e1
      rw [abs_mul, abs_of_pos ρ1, abs_neg, abs_mul] at this
      field_simp; linarith
    rw [e2]
    refine mul_le_mul_of_nonneg_right ?_ (abs_nonneg _)
    rw [div_le_div_iff₀ ρ1 w]
    rcases abs_cases ρ with ⟨q, _⟩ | ⟨q, _⟩
    · rw [q]; nlinarith [H.h0]
    · rw [q]; nlinarith [H.h0]
  have t1 : |h0| ≤ S + |S - h1| + |h1 - h0| := by
    have e1 : h0 = S - (S - h1) - (h1 - h0) := by ring
    have a1 := abs_sub (S - (S - h1)) (h1 - h0)
    have a2 := abs_sub S (S - h1)
    rw [← e1] at a1
    rw [abs_of_pos p] at a2
    linarith
  generalize |h1 - h0| = D at *
  generalize |S - h1| = X at *
  have D0 : 0 ≤ D ∨ D < 0 := le_or_gt 0 D
  have f1 : D ≤ e * (S + (1 + 1 / (1 - x)) * D) := by
    refine d.trans (mul_le_mul_of_nonneg_left ?_ he0)
    linarith
  have f2 : D ≤ 2 * e * S := by
    rcases D0 with q | q
    · have := mul_le_mul_of_nonneg_right he q
      nlinarith
    · have : 0 ≤ 2 * e * S := by positivity
      linarith
  calc X ≤ 1 / (1 - x) * D := k
    _ ≤ 1 / (1 - x) * (2 * e * S) := mul_le_mul_of_nonneg_left f2 (by positivity)
    _ = _ := by ring

/-- the value of `betacf` in exact arithmetic -/
theorem betacf_err [Cfg] (H : Good a b x) (h : x * (a + 2 * b - 1) ≤ a + 1) (h1 : x ≤ 1 - 1 / 10^6) (h2 : x * ((a + b) / (a + 1)) ≤ 1 - 1 / 10^6)
    (M : ℕ) (hM : (M:ℝ) ≤ b) (hM' : b ≤ M + 1) (hM2 : M ≤ 5000) :
    |betacf a b x - G a b x 1| ≤ (2 / 2^52 / (1 - x) + x ^ (19999 - 2 * M)) * G a b x 1 := by
  have f : (1 / 2 ^ 970 : ℝ) ≤ 1 / 10^6 :=
    one_div_le_one_div_of_le (by norm_num) (le_trans (by norm_num : (10:ℝ)^6 ≤ 2^20) (pow_le_pow_right₀ (by norm_num) (by norm_num)))
  obtain ⟨j, j1, j2, e, s⟩ := betacf_convergent a b x H.ha (betaFraction_unguarded a b x H.ha H.hb H.h0.le (by linarith)
    (by rw [mul_div_assoc]; linarith) 20000)
  have p := G_pos H.ha H.hb H.h0.le H.h1 1
  have w : 0 < 1 - x := by linarith [H.h1]
  rw [e, abs_sub_comm]
  show E a b x (2 * j) ≤ _
  have x0 : 0 ≤ x ^ (19999 - 2 * M) * G a b x 1 := mul_nonneg (pow_nonneg H.h0.le _) p.le
  have y0 : 0 ≤ 2 / 2^52 / (1 - x) * G a b x 1 := by positivity
  rw [add_mul]
  rcases lt_or_eq_of_le j2 with q | q
  · have es : (EPS : ℝ) = 1 / 2^52 := rfl
    have := s q
    rw [es] at this
    have t := E_stop H h j1 (e := 1 / 2^52) (by positivity) (by
      have : 1 / (1 - x) ≤ 10^6 := by rw [div_le_iff₀ w]; linarith
      nlinarith) this
    have : 2 * (1 / 2^52 : ℝ) / (1 - x) * G a b x 1 = 2 / 2^52 / (1 - x) * G a b x 1 := by ring
    linarith
  · subst q
    have t := E_geom H h M hM hM' (19999 - 2 * M)
    rw [show 2 * M + 1 + (19999 - 2 * M) = 2 * 10000 by omega] at t
    linarith

end
end Verif.Bcf
