import Verif.Proofs.GcfF2

/-! The loop of `gcf` in binary64 approximates the continued fraction. -/

namespace Verif
namespace Gcf
open F64

noncomputable def phi : ℝ := 1 / 2^970

theorem phi_pos : 0 < phi := by unfold phi; positivity
theorem phi_le : phi ≤ 1 / 10^100 := by
  unfold phi
  refine one_div_le_one_div_of_le (by positivity) ?_
  calc (10:ℝ)^100 ≤ 16^100 := pow_le_pow_left₀ (by norm_num) (by norm_num) _
    _ = 2^400 := by rw [show (16:ℝ) = 2^4 by norm_num, ← pow_mul]
    _ ≤ _ := pow_le_pow_right₀ (by norm_num) (by norm_num)
theorem phi_half : phi ≤ 1/2 := phi_le.trans (by norm_num)

variable {a x : ℝ}

theorem pos_seq (ha : 0 < a) (hx : a + 99/100 ≤ x) {X : ℕ → ℝ} (hr : ∀ k, X (k + 2) = bk a x (k + 1) * X (k + 1) + ak a (k + 1) * X k)
    (h1 : 0 < X 1) (h2 : 2 * X 1 ≤ X 2) (k : ℕ) : 0 < X (k + 1) ∧ ((k:ℝ) + 2) * X (k + 1) ≤ X (k + 2) := by
  induction k with
  | zero => push_cast; exact ⟨h1, by linarith⟩
  | succ k ih =>
    have hk : (0:ℝ) ≤ k := Nat.cast_nonneg k
    have p : 0 < X (k + 2) := lt_of_lt_of_le (mul_pos (by linarith) ih.1) ih.2
    refine ⟨p, ?_⟩
    have q := q_step ha hx (k + 1) (r := X (k + 2) / X (k + 1)) (by rw [le_div_iff₀ ih.1]; push_cast; linarith [ih.2])
    have e := hr (k + 1)
    have e2 : ak a (k + 1 + 1) / (X (k + 2) / X (k + 1)) = ak a (k + 1 + 1) * X (k + 1) / X (k + 2) := by
      have := ih.1.ne'
      field_simp
    rw [e2] at q
    have q' := mul_le_mul_of_nonneg_right q p.le
    have e3 : (bk a x (k + 1 + 1) + ak a (k + 1 + 1) * X (k + 1) / X (k + 2)) * X (k + 2) = bk a x (k + 1 + 1) * X (k + 2) + ak a (k + 1 + 1) * X (k + 1) := by
      have := p.ne'
      field_simp
    rw [e3, ← e] at q'
    push_cast at *
    nlinarith

theorem f_ge (ha : 0 < a) (ha1 : a < 100) (hx : a + 99/100 ≤ x) (k : ℕ) : 1 / (bk a x 0 + 60) ≤ f a x (k + 1) := by
  have hb0 := bk_ge hx 0
  have hb1 := bk_ge hx 1
  push_cast at *
  have h := (pos_seq ha hx (X := fun k => (bk a x 0 + 60) * An a x 0 k - Bn a x k) (fun k => by simp only [An, Bn]; ring)
    (by simp [An, Bn]) (by
      simp only [An, Bn, ak]; push_cast
      ring_nf at *
      nlinarith) k).1
  have b := (Bn_pos ha hx (k + 1)).1
  unfold f
  rw [div_le_div_iff₀ (by linarith) b]
  linarith

theorem f_le (ha : 0 < a) (hx : a + 99/100 ≤ x) (k : ℕ) : f a x (k + 1) ≤ 1.02 := by
  have hb0 := bk_ge hx 0
  have hb1 := bk_ge hx 1
  push_cast at *
  have h := (pos_seq ha hx (X := fun k => Bn a x k - (bk a x 0 - 1) * An a x 0 k) (fun k => by simp only [An, Bn]; ring)
    (by simp [An, Bn]) (by
      simp only [An, Bn, ak]; push_cast
      ring_nf at *
      nlinarith) k).1
  have b := (Bn_pos ha hx (k + 1)).1
  have bA := (An_pos (φ := phi) ha hx phi_pos phi_half (k + 1)).1
  unfold f
  rw [div_le_iff₀ b]
  rcases le_total 0 (An a x 0 (k + 1)) with c | c
  · norm_num; nlinarith
  · norm_num; nlinarith

theorem H_bounds (ha : 0 < a) (ha1 : a < 100) (hx : a + 99/100 ≤ x) (hx1 : x ≤ 400) (k : ℕ) :
    1/500 ≤ H a x phi k ∧ H a x phi k ≤ 11/10 := by
  rw [H_f ha hx phi_pos phi_half]
  have h1 := f_ge ha ha1 hx k
  have h2 := f_le ha hx k
  have hb0 := bk_ge hx 0
  have hb : bk a x 0 ≤ 401 := by unfold bk; push_cast; linarith
  push_cast at hb0
  have h3 : 1 / (401 + 60 : ℝ) ≤ 1 / (bk a x 0 + 60) := one_div_le_one_div_of_le (by linarith) (by linarith)
  have p0 := phi_pos
  have p1 := phi_le
  have p2 : phi * bk a x 0 ≤ 1 / 1000 := by
    have : phi * bk a x 0 ≤ 1 / 10^100 * 401 := mul_le_mul p1 hb (by linarith) (by norm_num)
    refine this.trans (by norm_num)
  have p3 : 0 ≤ phi * bk a x 0 := mul_nonneg p0.le (by linarith)
  have f0 : 1 / 461 ≤ f a x (k + 1) := by norm_num at *; linarith
  generalize phi * bk a x 0 = w at *
  generalize f a x (k + 1) = g at *
  have p4 : phi ≤ 1/100 := p1.trans (by norm_num)
  norm_num at *
  constructor
  · nlinarith
  · nlinarith

theorem D_le (ha : 0 < a) (ha1 : a < 100) (hx1 : x ≤ 400) {k : ℕ} (hk : k + 1 ≤ 10000) {r : ℝ} (hr : (k:ℝ) + 1 ≤ r) :
    bk a x (k + 1) + ak a (k + 1) / r ≤ 10^6 := by
  have hk0 : (0:ℝ) ≤ k := Nat.cast_nonneg k
  have hK : (k:ℝ) + 1 ≤ 10000 := by exact_mod_cast hk
  have : ak a (k + 1) / r ≤ 100 := by
    rw [div_le_iff₀ (by linarith)]
    unfold ak; push_cast
    nlinarith
  unfold bk; push_cast
  norm_num
  linarith

end Gcf
end Verif
