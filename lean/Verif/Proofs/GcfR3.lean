import Verif.Proofs.GcfR2

/-! Distance between a convergent and the value of the continued fraction. -/

namespace Verif
namespace Gcf
open Real

variable {a x φ : ℝ}

/-- the value of the continued fraction -/
noncomputable def F (a x : ℝ) : ℝ := W a x 0 / (x ^ a * exp (-x))
/-- scaled remainders -/
noncomputable def V (a x : ℝ) (k : ℕ) : ℝ := W a x k / (x ^ a * exp (-x))

theorem V_zero : V a x 0 = F a x := rfl

theorem scale_pos (hx : 0 < x) : 0 < x ^ a * exp (-x) := mul_pos (rpow_pos_of_pos hx _) (exp_pos _)

theorem V_pos (ha : 0 < a) (hx : 0 < x) (k : ℕ) : 0 < V a x k := div_pos (W_pos ha hx k) (scale_pos hx)
theorem V_le (ha : 0 < a) (hx : 0 < x) (k : ℕ) : V a x (k + 1) ≤ V a x k :=
  div_le_div_of_nonneg_right (W_le ha hx k) (scale_pos hx).le
theorem V_rec (ha : 0 < a) (hx : 0 < x) (k : ℕ) : bk a x (k + 1) * V a x (k + 1) = (k + 1) * V a x k + (k + 2 - a) * V a x (k + 2) := by
  have h := W_rec ha hx k
  unfold V bk
  have := (scale_pos (a := a) hx).ne'
  field_simp
  push_cast at *
  linarith
theorem V_rec0 (ha : 0 < a) (hx : 0 < x) : bk a x 0 * V a x 0 = 1 + (1 - a) * V a x 1 := by
  have h := W_rec0 ha hx
  unfold V bk
  have := (scale_pos (a := a) hx).ne'
  field_simp
  push_cast at *
  linarith

/-- `F` solves the recurrence of the numerators -/
noncomputable def cp (a : ℝ) : ℕ → ℝ
  | 0 => 1
  | k + 1 => cp a k * (k + 1 - a)

theorem err_form (ha : 0 < a) (hx : 0 < x) (k : ℕ) : F a x * Bn a x k - An a x 0 k = cp a k * V a x k := by
  suffices h : F a x * Bn a x k - An a x 0 k = cp a k * V a x k ∧ F a x * Bn a x (k + 1) - An a x 0 (k + 1) = cp a (k + 1) * V a x (k + 1) from h.1
  induction k with
  | zero =>
    have := V_rec0 ha hx
    rw [V_zero] at this
    simp only [Bn, An, cp, V_zero]
    push_cast
    constructor <;> linarith
  | succ k ih =>
    refine ⟨ih.2, ?_⟩
    have h := V_rec ha hx k
    have e : F a x * Bn a x (k + 1 + 1) - An a x 0 (k + 1 + 1) = bk a x (k + 1) * (F a x * Bn a x (k + 1) - An a x 0 (k + 1)) +
        ak a (k + 1) * (F a x * Bn a x k - An a x 0 k) := by
      simp only [Bn, An]; ring
    rw [e, ih.1, ih.2]
    simp only [cp, ak]
    push_cast at *
    linear_combination cp a k * (k + 1 - a) * h

theorem Bn_pos (ha : 0 < a) (hx : a + 99/100 ≤ x) (k : ℕ) : 0 < Bn a x k ∧ Bn a x (k + 1) = D a x k * Bn a x k := by
  induction k with
  | zero =>
    constructor
    · simp [Bn]
    · simp [Bn, D]
  | succ k ih =>
    have hD := D_ge ha hx k
    have hk0 : (0:ℝ) ≤ k := Nat.cast_nonneg k
    have h1 : 0 < Bn a x (k + 1) := by rw [ih.2]; exact mul_pos (by linarith) ih.1
    refine ⟨h1, ?_⟩
    have hd : D a x k ≠ 0 := by intro e; rw [e] at hD; linarith
    have e : Bn a x k = Bn a x (k + 1) / D a x k := by rw [ih.2]; field_simp
    show bk a x (k + 1) * Bn a x (k + 1) + ak a (k + 1) * Bn a x k = (bk a x (k + 1) + ak a (k + 1) / D a x k) * Bn a x (k + 1)
    rw [e]; field_simp

theorem An_pos (ha : 0 < a) (hx : a + 99/100 ≤ x) (hφ : 0 < φ) (hφ1 : φ ≤ 1/2) (k : ℕ) : 0 < An a x φ k ∧ An a x φ (k + 1) = C a x φ k * An a x φ k := by
  induction k with
  | zero =>
    constructor
    · simpa [An] using hφ
    · simp [An, C, hφ.ne']
  | succ k ih =>
    have hD := C_ge ha hx hφ hφ1 k
    have hk0 : (0:ℝ) ≤ k := Nat.cast_nonneg k
    have h1 : 0 < An a x φ (k + 1) := by rw [ih.2]; exact mul_pos (by linarith) ih.1
    refine ⟨h1, ?_⟩
    have hd : C a x φ k ≠ 0 := by intro e; rw [e] at hD; linarith
    have e : An a x φ k = An a x φ (k + 1) / C a x φ k := by rw [ih.2]; field_simp
    show bk a x (k + 1) * An a x φ (k + 1) + ak a (k + 1) * An a x φ k = (bk a x (k + 1) + ak a (k + 1) / C a x φ k) * An a x φ (k + 1)
    rw [e]; field_simp

theorem H_eq (ha : 0 < a) (hx : a + 99/100 ≤ x) (hφ : 0 < φ) (hφ1 : φ ≤ 1/2) (k : ℕ) : H a x φ k = An a x φ (k + 1) / Bn a x (k + 1) := by
  induction k with
  | zero => simp [H, An, Bn]
  | succ k ih =>
    obtain ⟨b1, b2⟩ := Bn_pos ha hx (k + 1)
    obtain ⟨a1, a2⟩ := An_pos ha hx hφ hφ1 (k + 1)
    have hD := D_ge ha hx (k + 1)
    have hk0 : (0:ℝ) ≤ ((k + 1 : ℕ) : ℝ) := Nat.cast_nonneg _
    have hd : 0 < D a x (k + 1) := by linarith
    show H a x φ k * (C a x φ (k + 1) / D a x (k + 1)) = _
    rw [ih, b2, a2]
    field_simp

theorem An_shift (k : ℕ) : An a x φ k = An a x 0 k + φ * (Bn a x k - bk a x 0 * An a x 0 k) := by
  suffices h : An a x φ k = An a x 0 k + φ * (Bn a x k - bk a x 0 * An a x 0 k) ∧
    An a x φ (k + 1) = An a x 0 (k + 1) + φ * (Bn a x (k + 1) - bk a x 0 * An a x 0 (k + 1)) from h.1
  induction k with
  | zero => simp [An, Bn]
  | succ k ih =>
    refine ⟨ih.2, ?_⟩
    simp only [An, Bn]
    rw [ih.1, ih.2]; ring

/-- the convergents -/
noncomputable def f (a x : ℝ) (k : ℕ) : ℝ := An a x 0 k / Bn a x k

theorem H_f (ha : 0 < a) (hx : a + 99/100 ≤ x) (hφ : 0 < φ) (hφ1 : φ ≤ 1/2) (k : ℕ) :
    H a x φ k = f a x (k + 1) * (1 - φ * bk a x 0) + φ := by
  rw [H_eq ha hx hφ hφ1, An_shift]
  unfold f
  have := (Bn_pos ha hx (k + 1)).1
  field_simp
  ring

/-- the ratio of successive errors -/
noncomputable def r (a x : ℝ) (k : ℕ) : ℝ := (k + 1 - a) * (V a x (k + 1) / V a x k) / D a x k

theorem err_ratio (ha : 0 < a) (hx : a + 99/100 ≤ x) (k : ℕ) : F a x - f a x (k + 1) = r a x k * (F a x - f a x k) := by
  have x0 : 0 < x := by linarith
  have h1 := err_form ha x0 k
  have h2 := err_form ha x0 (k + 1)
  obtain ⟨b1, b2⟩ := Bn_pos ha hx k
  have b3 := (Bn_pos ha hx (k + 1)).1
  have hv := V_pos ha x0 k
  have e1 : F a x - f a x k = cp a k * V a x k / Bn a x k := by unfold f; rw [← h1]; field_simp
  have e2 : F a x - f a x (k + 1) = cp a (k + 1) * V a x (k + 1) / Bn a x (k + 1) := by unfold f; rw [← h2]; field_simp
  have hd : D a x k ≠ 0 := by
    have := D_ge ha hx k
    have hk0 : (0:ℝ) ≤ k := Nat.cast_nonneg k
    intro e; rw [e] at this; linarith
  rw [e1, e2, b2]
  unfold r
  simp only [cp]
  field_simp

theorem r_le (ha : 0 < a) (hx : a + 99/100 ≤ x) {k : ℕ} (hk : k ≤ 10000) : r a x k ≤ 169/170 := by
  have x0 : 0 < x := by linarith
  have hv := V_pos ha x0 k
  have hv1 := V_pos ha x0 (k + 1)
  have hq : V a x (k + 1) / V a x k ≤ 1 := by rw [div_le_one hv]; exact V_le ha x0 k
  have hq0 : 0 ≤ V a x (k + 1) / V a x k := by positivity
  have hk0 : (0:ℝ) ≤ k := Nat.cast_nonneg k
  have hD := D_ge ha hx k
  have hD' := D_ge' ha hx k
  have d0 : 0 < D a x k := by linarith
  unfold r
  rw [div_le_iff₀ d0]
  have h1 : ((k:ℝ) + 1 - a) * (V a x (k + 1) / V a x k) ≤ k + 1 := by
    rcases le_total 0 ((k:ℝ) + 1 - a) with h | h
    · nlinarith
    · nlinarith
  refine h1.trans ?_
  have hs := Real.sqrt_nonneg (k:ℝ)
  have hs2 := Real.sq_sqrt hk0
  have hK : (k:ℝ) ≤ 10000 := by exact_mod_cast hk
  have hsm : √(k:ℝ) ≤ 100 := by rw [Real.sqrt_le_left (by norm_num)]; linarith
  rcases Nat.eq_zero_or_pos k with h | h
  · subst h; push_cast at *; linarith
  · have : 1 ≤ √(k:ℝ) := by rw [Real.one_le_sqrt]; exact_mod_cast h
    generalize √(k:ℝ) = s at *
    nlinarith

theorem r_nonneg (ha : 0 < a) (hx : a + 99/100 ≤ x) {k : ℕ} (hk : a ≤ k + 1) : 0 ≤ r a x k := by
  have x0 : 0 < x := by linarith
  have hv := V_pos ha x0 k
  have hv1 := V_pos ha x0 (k + 1)
  have hk0 : (0:ℝ) ≤ k := Nat.cast_nonneg k
  have hD := D_ge ha hx k
  have d0 : 0 < D a x k := by linarith
  have : 0 ≤ (k:ℝ) + 1 - a := by linarith
  unfold r
  positivity

theorem r_nonpos (ha : 0 < a) (hx : a + 99/100 ≤ x) {k : ℕ} (hk : k + 1 ≤ a) : r a x k ≤ 0 := by
  have x0 : 0 < x := by linarith
  have hv := V_pos ha x0 k
  have hv1 := V_pos ha x0 (k + 1)
  have hk0 : (0:ℝ) ≤ k := Nat.cast_nonneg k
  have hD := D_ge ha hx k
  have d0 : 0 < D a x k := by linarith
  have : (k:ℝ) + 1 - a ≤ 0 := by linarith
  unfold r
  exact div_nonpos_of_nonpos_of_nonneg (mul_nonpos_of_nonpos_of_nonneg this (by positivity)) d0.le

/-- when successive convergents are close, the value is close -/
theorem err_post (ha : 0 < a) (hx : a + 99/100 ≤ x) {k : ℕ} (hk : k ≤ 10000) :
    |F a x - f a x (k + 1)| ≤ 170 * |f a x (k + 1) - f a x k| := by
  have h := err_ratio ha hx k
  have hr := r_le ha hx hk
  have e : f a x (k + 1) - f a x k = (1 - r a x k) * (F a x - f a x k) := by linarith
  rw [h, e, abs_mul, abs_mul, ← mul_assoc]
  refine mul_le_mul_of_nonneg_right ?_ (abs_nonneg _)
  rw [abs_of_pos (show 0 < 1 - r a x k by linarith)]
  rcases abs_cases (r a x k) with ⟨e, _⟩ | ⟨e, _⟩ <;> rw [e] <;> linarith

theorem F_pos (ha : 0 < a) (hx : 0 < x) : 0 < F a x := V_pos ha hx 0

theorem F_ge (ha : 0 < a) (ha1 : a < 100) (hx : a + 99/100 ≤ x) : 1 / bk a x 0 ≤ 51 * F a x := by
  have x0 : 0 < x := by linarith
  have h := V_rec0 ha x0
  have hv := V_le ha x0 0
  have hv1 := V_pos ha x0 1
  have hv0 := V_pos ha x0 0
  have hb := bk_ge hx 0
  rw [← V_zero]
  push_cast at *
  rw [div_le_iff₀ (by linarith)]
  have h1 : (1 - a) * V a x 1 ≥ -(99 * V a x 0) := by
    rcases le_total a 1 with c | c
    · nlinarith [mul_nonneg (sub_nonneg.2 c) hv1.le]
    · nlinarith
  have h2 : 2 * V a x 0 * 0.995 ≤ bk a x 0 * V a x 0 := by nlinarith
  nlinarith

theorem F_le (ha : 0 < a) (hx : a + 99/100 ≤ x) : F a x ≤ 2 := by
  have x0 : 0 < x := by linarith
  have h := V_rec0 ha x0
  have hv := V_le ha x0 0
  have hv1 := V_pos ha x0 1
  have hv0 := V_pos ha x0 0
  have hb := bk_ge hx 0
  rw [← V_zero]
  push_cast at *
  rcases le_total a 1 with c | c
  · have h1 : (1 - a) * V a x 1 ≤ (1 - a) * V a x 0 := mul_le_mul_of_nonneg_left hv (by linarith)
    unfold bk at h
    push_cast at h
    have : x * V a x 0 ≤ 1 := by linarith
    nlinarith
  · have h1 : (1 - a) * V a x 1 ≤ 0 := mul_nonpos_of_nonpos_of_nonneg (by linarith) hv1.le
    nlinarith

/-- the convergents before the order `a` lie between 0 and the first one -/
theorem f_early (ha : 0 < a) (hx : a + 99/100 ≤ x) (k : ℕ) (hk : (k:ℝ) ≤ a) : 0 ≤ f a x k ∧ f a x k ≤ 1 / bk a x 0 := by
  have hb0 : 0 < bk a x 0 := by have := bk_ge hx 0; push_cast at this; linarith
  suffices h : ∀ k : ℕ, ((k:ℝ) ≤ a → 0 ≤ An a x 0 k ∧ 0 ≤ Bn a x k - bk a x 0 * An a x 0 k) ∧
      (((k + 1 : ℕ) : ℝ) ≤ a → 0 ≤ An a x 0 (k + 1) ∧ 0 ≤ Bn a x (k + 1) - bk a x 0 * An a x 0 (k + 1)) by
    obtain ⟨h1, h2⟩ := (h k).1 hk
    have b := (Bn_pos ha hx k).1
    refine ⟨div_nonneg h1 b.le, ?_⟩
    unfold f
    rw [div_le_div_iff₀ b hb0]
    linarith
  intro k
  induction k with
  | zero => simp [An, Bn]
  | succ k ih =>
    refine ⟨ih.2, fun hk2 => ?_⟩
    push_cast at hk2
    obtain ⟨p1, p2⟩ := ih.1 (by linarith)
    obtain ⟨q1, q2⟩ := ih.2 (by push_cast; linarith)
    have hb : 0 ≤ bk a x (k + 1) := by have := bk_ge hx (k + 1); have : (0:ℝ) ≤ ((k + 1 : ℕ) : ℝ) := Nat.cast_nonneg _; linarith
    have hA : 0 ≤ ak a (k + 1) := by unfold ak; push_cast; have : (0:ℝ) ≤ k := Nat.cast_nonneg k; nlinarith
    refine ⟨add_nonneg (mul_nonneg hb q1) (mul_nonneg hA p1), ?_⟩
    have e : Bn a x (k + 1 + 1) - bk a x 0 * An a x 0 (k + 1 + 1) = bk a x (k + 1) * (Bn a x (k + 1) - bk a x 0 * An a x 0 (k + 1)) +
        ak a (k + 1) * (Bn a x k - bk a x 0 * An a x 0 k) := by simp only [An, Bn]; ring
    rw [e]
    exact add_nonneg (mul_nonneg hb q2) (mul_nonneg hA p2)

theorem err_early (ha : 0 < a) (ha1 : a < 100) (hx : a + 99/100 ≤ x) : |F a x - f a x 100| ≤ 51 * F a x := by
  have x0 : 0 < x := by linarith
  have hF := F_pos ha x0
  obtain ⟨n, hn1, hn2⟩ : ∃ n : ℕ, (n:ℝ) ≤ a ∧ a < n + 1 := ⟨⌊a⌋₊, Nat.floor_le ha.le, Nat.lt_floor_add_one a⟩
  have hn : n < 100 := by have : (n:ℝ) < 100 := by linarith
                          exact_mod_cast this
  have start : |F a x - f a x n| ≤ 51 * F a x := by
    rcases n with _ | n
    · have : f a x 0 = 0 := by simp [f, An, Bn]
      rw [this, sub_zero, abs_of_pos hF]; linarith
    · have hr := r_nonpos ha hx (k := n) (by push_cast at hn1; linarith)
      have h := err_ratio ha hx n
      obtain ⟨p1, p2⟩ := f_early ha hx n (by push_cast at hn1; linarith)
      obtain ⟨q1, q2⟩ := f_early ha hx (n + 1) hn1
      have hg := F_ge ha ha1 hx
      have e : f a x (n + 1) - f a x n = (1 - r a x n) * (F a x - f a x n) := by linarith
      have : |F a x - f a x (n + 1)| ≤ |f a x (n + 1) - f a x n| := by
        rw [h, e, abs_mul, abs_mul]
        refine mul_le_mul_of_nonneg_right ?_ (abs_nonneg _)
        rw [abs_of_nonpos hr, abs_of_pos (by linarith)]; linarith
      refine this.trans (le_trans ?_ hg)
      rw [abs_le]; constructor <;> linarith
  have mono : ∀ m : ℕ, n + m ≤ 10000 → |F a x - f a x (n + m)| ≤ |F a x - f a x n| := by
    intro m
    induction m with
    | zero => intro _; exact le_rfl
    | succ m ih =>
      intro hm
      refine le_trans ?_ (ih (by omega))
      have h0 := r_nonneg ha hx (k := n + m) (by push_cast; have : (0:ℝ) ≤ m := Nat.cast_nonneg m; linarith)
      have h1 := r_le ha hx (k := n + m) (by omega)
      rw [show n + (m + 1) = n + m + 1 from rfl, err_ratio ha hx, abs_mul, abs_of_nonneg h0]
      have := abs_nonneg (F a x - f a x (n + m))
      nlinarith
  have := mono (100 - n) (by omega)
  rw [show n + (100 - n) = 100 by omega] at this
  exact this.trans start

theorem err_late (ha : 0 < a) (ha1 : a < 100) (hx : a + 99/100 ≤ x) : |F a x - f a x 10001| ≤ 1e-14 * F a x := by
  have x0 : 0 < x := by linarith
  have hF := F_pos ha x0
  have geo : ∀ m : ℕ, 100 + m ≤ 10001 → |F a x - f a x (100 + m)| ≤ (169/170)^m * |F a x - f a x 100| := by
    intro m
    induction m with
    | zero => intro _; simp
    | succ m ih =>
      intro hm
      have h0 := r_nonneg ha hx (k := 100 + m) (by push_cast; have : (0:ℝ) ≤ m := Nat.cast_nonneg m; linarith)
      have h1 := r_le ha hx (k := 100 + m) (by omega)
      rw [show 100 + (m + 1) = 100 + m + 1 from rfl, err_ratio ha hx, abs_mul, abs_of_nonneg h0, pow_succ]
      have h2 := ih (by omega)
      have h3 := mul_le_mul h1 h2 (abs_nonneg _) (by norm_num)
      linarith
  have h := geo 9901 (by norm_num)
  rw [show 100 + 9901 = 10001 from rfl] at h
  have hp : ((169:ℝ)/170)^9901 ≤ 1e-16 := by
    have h1 : ((169:ℝ)/170)^128 ≤ 1/2 := by norm_num
    have : ((169:ℝ)/170)^9901 ≤ ((169:ℝ)/170)^(128 * 64) := pow_le_pow_of_le_one (by norm_num) (by norm_num) (by norm_num)
    refine this.trans ?_
    rw [pow_mul]
    refine (pow_le_pow_left₀ (by positivity) h1 64).trans ?_
    norm_num
  have h2 := err_early ha ha1 hx
  have := mul_le_mul hp h2 (abs_nonneg _) (by norm_num)
  refine h.trans (this.trans ?_)
  generalize F a x = y at *
  norm_num
  linarith

end Gcf
end Verif
