import Verif.Proofs.BetaAccR

/-!
# The fraction of the incomplete beta function for `b ≤ 1`: bounds between two nearby arguments

All coefficients are negative, so every denominator ratio is monotone in every coefficient, and rounding errors can be moved into the argument `x`.
-/

namespace Verif.Bcf
open Hyp

section
variable {a b x : ℝ}

/-- minus the coefficient of number `k + 1` -/
noncomputable def pk (a b x : ℝ) (k : ℕ) : ℝ := (1 - g a b k) * g a b (k + 1) * x

theorem pk_eq (ha : 0 < a) (k : ℕ) : pk a b x k = -betaCoeff a b x (k + 1) := by rw [coeff_g ha]; unfold pk; ring

/-- ratios of successive denominators and numerators -/
noncomputable def Dk (a b x : ℝ) : ℕ → ℝ
  | 0 => 1 - pk a b x 0
  | k + 1 => 1 - pk a b x (k + 1) / Dk a b x k
noncomputable def Ck (a b x : ℝ) : ℕ → ℝ
  | 0 => 1
  | k + 1 => 1 - pk a b x (k + 1) / Ck a b x k
noncomputable def cv (a b x : ℝ) : ℕ → ℝ
  | 0 => Ck a b x 0 / Dk a b x 0
  | k + 1 => cv a b x k * (Ck a b x (k + 1) / Dk a b x (k + 1))

/-- the setting: `0 < b ≤ 1` -/
structure Neg (a b : ℝ) : Prop where
  ha : 0 < a
  hb : 0 < b
  hb1 : b ≤ 1

theorem Neg.g0 (H : Neg a b) (k : ℕ) : 0 ≤ g a b k := g_nonneg H.ha H.hb k
theorem Neg.g1 (H : Neg a b) (k : ℕ) : g a b k ≤ 1 := by
  rcases Nat.even_or_odd' k with ⟨m, rfl | rfl⟩
  · exact g_even_le H.ha m
  · exact g_odd_le H.ha m (by have : (0:ℝ) ≤ m := Nat.cast_nonneg m; linarith [H.hb1])

theorem Neg.pk0 (H : Neg a b) (h0 : 0 ≤ x) (k : ℕ) : 0 ≤ pk a b x k :=
  mul_nonneg (mul_nonneg (sub_nonneg.2 (H.g1 k)) (H.g0 _)) h0

theorem Neg.good (H : Neg a b) (h0 : 0 < x) (h1 : x < 1) : Good a b x := by
  refine ⟨H.ha, H.hb, h0, h1, ?_⟩
  have : (a + b) / (a + 1) ≤ 1 := (div_le_one (by linarith [H.ha])).2 (by linarith [H.hb1])
  have := mul_le_of_le_one_right h0.le this
  linarith

/-- one step of the lower bound -/
theorem step_low (H : Neg a b) (h0 : 0 ≤ x) (h1 : x < 1) {k : ℕ} {E : ℝ} (h : 1 - g a b (k + 1) * x ≤ E) (hE : E ≤ 1) :
    1 - g a b (k + 2) * x ≤ 1 - pk a b x (k + 1) / E ∧ 1 - pk a b x (k + 1) / E ≤ 1 := by
  have q := mul_le_of_le_one_right (H.g0 (k + 1)) h1.le
  have q2 := mul_le_of_le_one_left h0 (H.g1 (k + 1))
  have E0 : 0 < E := by linarith
  constructor
  · have : pk a b x (k + 1) / E ≤ g a b (k + 2) * x := by
      rw [div_le_iff₀ E0]
      unfold pk
      have := mul_le_mul_of_nonneg_left (show 1 - g a b (k + 1) ≤ E by linarith) (mul_nonneg (H.g0 (k + 2)) h0)
      linarith
    linarith
  · have : 0 ≤ pk a b x (k + 1) / E := div_nonneg (H.pk0 h0 _) E0.le
    linarith

theorem g_zero : g a b 0 = 0 := by have := g_even (a := a) (b := b) 0; simpa using this

theorem Dk_low (H : Neg a b) (h0 : 0 ≤ x) (h1 : x < 1) (k : ℕ) : 1 - g a b (k + 1) * x ≤ Dk a b x k ∧ Dk a b x k ≤ 1 := by
  induction k with
  | zero =>
    have : Dk a b x 0 = 1 - g a b 1 * x := by unfold Dk pk; rw [g_zero]; ring
    rw [this]
    exact ⟨le_rfl, by have := mul_nonneg (H.g0 1) h0; linarith⟩
  | succ k ih => exact step_low H h0 h1 ih.1 ih.2

theorem Ck_low (H : Neg a b) (h0 : 0 ≤ x) (h1 : x < 1) (k : ℕ) : 1 - g a b (k + 1) * x ≤ Ck a b x k ∧ Ck a b x k ≤ 1 := by
  induction k with
  | zero =>
    refine ⟨?_, le_rfl⟩
    show _ ≤ (1:ℝ)
    have := mul_nonneg (H.g0 1) h0; linarith
  | succ k ih => exact step_low H h0 h1 ih.1 ih.2

theorem low' (H : Neg a b) (h0 : 0 ≤ x) (k : ℕ) : 1 - x ≤ 1 - g a b k * x := by
  have := mul_le_of_le_one_left h0 (H.g1 k); linarith

theorem Dk_ge (H : Neg a b) (h0 : 0 ≤ x) (h1 : x < 1) (k : ℕ) : 1 - x ≤ Dk a b x k := (low' H h0 (k + 1)).trans (Dk_low H h0 h1 k).1
theorem Ck_ge (H : Neg a b) (h0 : 0 ≤ x) (h1 : x < 1) (k : ℕ) : 1 - x ≤ Ck a b x k := (low' H h0 (k + 1)).trans (Ck_low H h0 h1 k).1
theorem Dk_pos (H : Neg a b) (h0 : 0 ≤ x) (h1 : x < 1) (k : ℕ) : 0 < Dk a b x k := lt_of_lt_of_le (by linarith) (Dk_ge H h0 h1 k)
theorem Ck_pos (H : Neg a b) (h0 : 0 ≤ x) (h1 : x < 1) (k : ℕ) : 0 < Ck a b x k := lt_of_lt_of_le (by linarith) (Ck_ge H h0 h1 k)

theorem Dk_dens (H : Neg a b) (h0 : 0 < x) (h1 : x < 1) (k : ℕ) : (betaFraction a b x).dens (k + 2) = Dk a b x k * (betaFraction a b x).dens (k + 1) := by
  induction k with
  | zero =>
    rw [denS, den0, den1]; unfold Dk; rw [pk_eq H.ha]; ring
  | succ k ih =>
    rw [denS]
    have d := Dk_pos H h0.le h1 k
    show _ = (1 - pk a b x (k + 1) / Dk a b x k) * _
    rw [pk_eq H.ha, ih]
    field_simp
    ring

theorem Ck_nums (H : Neg a b) (h0 : 0 < x) (h1 : x < 1) (k : ℕ) : (betaFraction a b x).nums (k + 2) = Ck a b x k * (betaFraction a b x).nums (k + 1) := by
  induction k with
  | zero =>
    rw [numS, num0, num1]; unfold Ck; ring
  | succ k ih =>
    rw [numS]
    have d := Ck_pos H h0.le h1 k
    show _ = (1 - pk a b x (k + 1) / Ck a b x k) * _
    rw [pk_eq H.ha, ih]
    field_simp
    ring

theorem cv_conv (H : Neg a b) (h0 : 0 < x) (h1 : x < 1) (k : ℕ) : cv a b x k = (betaFraction a b x).convs (k + 2) := by
  induction k with
  | zero =>
    rw [GenContFract.conv_eq_num_div_den, Dk_dens H h0 h1, Ck_nums H h0 h1, den1, num1]; unfold cv; ring
  | succ k ih =>
    show cv a b x k * _ = _
    rw [ih, GenContFract.conv_eq_num_div_den, GenContFract.conv_eq_num_div_den, Dk_dens H h0 h1 (k + 1), Ck_nums H h0 h1 (k + 1), div_mul_div_comm,
      mul_comm (Ck a b x (k + 1)), mul_comm (Dk a b x (k + 1))]

theorem cv_ratio (k : ℕ) : cv a b x (k + 1) = cv a b x k * (Ck a b x (k + 1) / Dk a b x (k + 1)) := rfl

/-! ## comparison of two arguments -/

theorem pk_mono (H : Neg a b) {y : ℝ} (hxy : x ≤ y) (k : ℕ) : pk a b x k ≤ pk a b y k :=
  mul_le_mul_of_nonneg_left hxy (mul_nonneg (sub_nonneg.2 (H.g1 k)) (H.g0 _))

theorem Q_step {r w v Q R κ : ℝ} (hr : 0 ≤ r) (hκ0 : 0 < κ) (hκ1 : κ ≤ 1) (hw0 : 0 < w) (hw1 : w ≤ 1) (hv : v = κ * w) (hQ : 0 ≤ Q) (hR : κ * Q ≤ R)
    (hp : 0 < r + Q) (hp2 : 0 < r + R) : κ * ((Q + r * w) / (r + Q)) ≤ (R + r * v) / (r + R) := by
  rw [hv, mul_div_assoc', div_le_div_iff₀ hp hp2]
  have h1 : 0 ≤ R - κ * Q := by linarith
  have e : (R + r * (κ * w)) * (r + Q) - κ * (Q + r * w) * (r + R) = (R - κ * Q) * r + (R * Q) * (1 - κ) - κ * r * w * (R - Q) := by ring
  have k1 : κ * r * w * (R - Q) ≤ (R - κ * Q) * r + (R * Q) * (1 - κ) := by
    rcases le_total R Q with h | h
    · have := mul_nonneg (mul_nonneg (mul_nonneg hκ0.le hr) hw0.le) (sub_nonneg.2 h)
      have := mul_nonneg h1 hr
      have := mul_nonneg (mul_nonneg (le_trans (mul_nonneg hκ0.le hQ) hR) hQ) (sub_nonneg.2 hκ1)
      nlinarith
    · have a1 : κ * r * w * (R - Q) ≤ κ * r * (R - Q) := by
        have := mul_le_mul_of_nonneg_left hw1 (mul_nonneg (mul_nonneg hκ0.le hr) (sub_nonneg.2 h))
        nlinarith
      have a2 : κ * r * (R - Q) ≤ (R - κ * Q) * r := by
        have : κ * R ≤ R := mul_le_of_le_one_left (by linarith) hκ1
        nlinarith
      have := mul_nonneg (mul_nonneg (le_trans (mul_nonneg hκ0.le hQ) hR) hQ) (sub_nonneg.2 hκ1)
      linarith
  linarith

theorem Q_formula (H : Neg a b) (h0 : 0 ≤ x) (h1 : x < 1) (k : ℕ) :
    Dk a b x (k + 1) - (1 - g a b (k + 2)) = g a b (k + 2) * (((Dk a b x k - (1 - g a b (k + 1))) + (1 - g a b (k + 1)) * (1 - x)) /
      ((1 - g a b (k + 1)) + (Dk a b x k - (1 - g a b (k + 1))))) := by
  have d := (Dk_pos H h0 h1 k).ne'
  show 1 - pk a b x (k + 1) / Dk a b x k - _ = _
  rw [add_sub_cancel]
  unfold pk
  field_simp
  ring

/-- `D_k(y) ≥ κ D_k(x)` with `κ = (1-y)/(1-x)` -/
theorem Dk_ratio (H : Neg a b) {y : ℝ} (h0 : 0 ≤ x) (hxy : x ≤ y) (h1 : y < 1) (k : ℕ) :
    (1 - y) / (1 - x) * Dk a b x k ≤ Dk a b y k := by
  have wx : 0 < 1 - x := by linarith
  have κ0 : 0 < (1 - y) / (1 - x) := div_pos (by linarith) wx
  have κ1 : (1 - y) / (1 - x) ≤ 1 := (div_le_one wx).2 (by linarith)
  have hv : 1 - y = (1 - y) / (1 - x) * (1 - x) := by field_simp
  generalize (1 - y) / (1 - x) = κ at *
  have key : κ * (Dk a b x k - (1 - g a b (k + 1))) ≤ Dk a b y k - (1 - g a b (k + 1)) := by
    induction k with
    | zero =>
      have e : ∀ z, Dk a b z 0 - (1 - g a b 1) = g a b 1 * (1 - z) := fun z => by unfold Dk pk; rw [g_zero]; ring
      rw [e, e, hv]
      linarith
    | succ k ih =>
      rw [Q_formula H h0 (by linarith), Q_formula H (by linarith) h1]
      have s := Q_step (r := 1 - g a b (k + 1)) (w := 1 - x) (v := 1 - y) (sub_nonneg.2 (H.g1 _)) κ0 κ1 wx (by linarith) hv
        (Q := Dk a b x k - (1 - g a b (k + 1))) (R := Dk a b y k - (1 - g a b (k + 1)))
        (by
          have := (Dk_low H h0 (by linarith) k).1
          have := mul_le_of_le_one_right (H.g0 (k + 1)) (show x ≤ 1 by linarith)
          linarith) ih (by rw [add_sub_cancel]; exact Dk_pos H h0 (by linarith) k) (by rw [add_sub_cancel]; exact Dk_pos H (by linarith) h1 k)
      have := mul_le_mul_of_nonneg_left s (H.g0 (k + 2))
      linarith
  have := mul_le_of_le_one_left (sub_nonneg.2 (H.g1 (k + 1))) κ1
  linarith

/-- sandwich for one step -/
theorem sand_step {E lo hi P p q : ℝ} (hlo : 0 < lo) (h1 : lo ≤ E) (h2 : E ≤ hi) (hp0 : 0 ≤ p) (hp : p ≤ P) (hq : P ≤ q) :
    1 - q / lo ≤ 1 - P / E ∧ 1 - P / E ≤ 1 - p / hi := by
  have E0 : 0 < E := by linarith
  constructor
  · have : P / E ≤ q / lo := div_le_div₀ (by linarith) hq hlo h1
    linarith
  · have : p / hi ≤ P / E := div_le_div₀ (by linarith) hp E0 h2
    linarith

/-! ## the limit -/

theorem G_mono (H : Neg a b) {y : ℝ} (h0 : 0 ≤ x) (hxy : x ≤ y) (h1 : y < 1) : G a b x 1 ≤ G a b y 1 := by
  unfold G F
  have hα : 0 ≤ a + b + ((1 / 2 : ℕ) : ℝ) := by have := H.ha; have := H.hb; positivity
  have hγ : 0 < a + ((1 : ℕ) : ℝ) := by have := H.ha; positivity
  refine (summable hα (Nat.cast_nonneg _) hγ h0 (by linarith)).tsum_le_tsum (fun k => ?_) (summable hα (Nat.cast_nonneg _) hγ (by linarith) h1)
  exact mul_le_mul_of_nonneg_left (pow_le_pow_left₀ h0 hxy k) (coef_nonneg hα (Nat.cast_nonneg _) hγ k)

theorem G_le (H : Neg a b) (h0 : 0 < x) (h1 : x < 1) : G a b x 1 ≤ 1 / (1 - x) := by
  have r := G_rec H.ha H.hb h0.le h1 0
  have l := G_lower H.ha H.hb h0.le h1 1 (H.g1 1)
  rw [G_zero, coeff_g H.ha, g_zero] at r
  rw [le_div_iff₀ (by linarith)]
  norm_num at r l
  have := mul_le_mul_of_nonneg_right l h0.le
  nlinarith

theorem cv_le (H : Neg a b) (h0 : 0 < x) (h1 : x < 1) (k : ℕ) : cv a b x k ≤ G a b x 1 := by
  rw [cv_conv H h0 h1]
  have gd := H.good h0 h1
  have : ∀ n, 0 ≤ G a b x 1 - (betaFraction a b x).convs n := by
    intro n
    induction n with
    | zero => rw [err_zero]; exact (G_pos H.ha H.hb h0.le h1 1).le
    | succ n ih =>
      rw [err_step gd]
      have := (rho_le gd n (H.g1 _) (H.g1 _) (H.g1 _)).1
      nlinarith
  linarith [this (k + 2)]

theorem cv_tail (H : Neg a b) (h0 : 0 < x) (h1 : x < 1) (k : ℕ) : (1 - x ^ (k + 1)) * G a b x 1 ≤ cv a b x k := by
  rw [cv_conv H h0 h1]
  have hh : x * (a + 2 * b - 1) ≤ a + 1 := by
    have := H.ha; have := H.hb; have := H.hb1
    rcases le_total 0 (a + 2 * b - 1) with q | q
    · have := mul_le_of_le_one_left q h1.le; linarith
    · have := mul_nonpos_of_nonneg_of_nonpos h0.le q; linarith
  have e := E_geom (H.good h0 h1) hh 0 (by rw [Nat.cast_zero]; exact H.hb.le) (by rw [Nat.cast_zero, zero_add]; exact H.hb1) (k + 1)
  rw [show 2 * 0 + 1 + (k + 1) = k + 2 by ring] at e
  have := (abs_le.1 e).2
  linarith

theorem cv_stop (H : Neg a b) (h0 : 0 < x) (h1 : x < 1) {j : ℕ} {e : ℝ} (he0 : 0 ≤ e) (he : e * (1 + 1 / (1 - x)) ≤ 1 / 2)
    (hs : |Ck a b x (2 * j + 2) / Dk a b x (2 * j + 2) - 1| ≤ e) : (1 - 2 * e / (1 - x)) * G a b x 1 ≤ cv a b x (2 * j + 2) := by
  rw [cv_conv H h0 h1]
  have hh : x * (a + 2 * b - 1) ≤ a + 1 := by
    have := H.ha; have := H.hb; have := H.hb1
    rcases le_total 0 (a + 2 * b - 1) with q | q
    · have := mul_le_of_le_one_left q h1.le; linarith
    · have := mul_nonpos_of_nonneg_of_nonpos h0.le q; linarith
  have e := E_stop (H.good h0 h1) hh (j := j + 2) (by omega) he0 he (by
    have p : 0 < cv a b x (2 * j + 1) := by
      have q : ∀ k, 0 < cv a b x k := fun k => by
        induction k with
        | zero => exact div_pos (Ck_pos H h0.le h1 0) (Dk_pos H h0.le h1 0)
        | succ k ih => exact mul_pos ih (div_pos (Ck_pos H h0.le h1 _) (Dk_pos H h0.le h1 _))
      exact q _
    have c1 := cv_conv H h0 h1 (2 * j + 1)
    have c2 := cv_conv H h0 h1 (2 * j + 2)
    rw [show 2 * (j + 2) = 2 * j + 2 + 2 by ring, show 2 * j + 2 + 2 - 1 = 2 * j + 1 + 2 by omega, ← c1, ← c2, cv_ratio]
    rw [mul_div_cancel_left₀ _ p.ne']
    exact hs)
  rw [show 2 * (j + 2) = 2 * j + 2 + 2 by ring] at e
  have := (abs_le.1 e).2
  linarith

end
end Verif.Bcf
