import Verif.Proofs.BesselJd
import Verif.Props.Miller

/-! The downward recurrence of `Jn` against `J_n`. -/

namespace Verif
namespace Bes
open Real

variable {x : ℝ} {m : ℕ} {b : ℕ → ℝ}

theorem dn_step (hx : 0 < x) (hb : Downward 1 x m b) {j : ℕ} (hj : j < m) : b j = (j + 1 : ℕ) * (2 / x) * b (j + 1) - b (j + 2) := by
  have := hb.step j hj
  rwa [abs_of_pos hx, one_mul] at this

/-- the Casoratian is constant -/
theorem cas (hx : 0 < x) (hb : Downward 1 x m b) : ∀ k j, m = j + k → b j * besselJR (j + 1) x - b (j + 1) * besselJR j x = besselJR (m + 1) x
  | 0, j, h => by
    rw [add_zero] at h; subst h
    rw [hb.start, hb.top]; ring
  | k + 1, j, h => by
    have ih := cas hx hb k (j + 1) (by omega)
    rw [dn_step hx hb (by omega : j < m)]
    rw [J_rec j hx.ne'] at ih
    rw [← ih]
    show _ = b (j + 1) * _ - b (j + 2) * _
    ring

/-- the quotients above the starting index -/
theorem quo_above (hx : 0 < x) (hb : Downward 1 x m b) {j0 : ℕ} (h0 : x ≤ j0) : ∀ i, j0 + i ≤ m →
    0 ≤ b j0 / besselJR j0 x - b (j0 + i) / besselJR (j0 + i) x ∧
    (b j0 / besselJR j0 x - b (j0 + i) / besselJR (j0 + i) x) * besselJR (j0 + i) x * besselJR m x ≤ i * besselJR (m + 1) x
  | 0, _ => by simp
  | i + 1, hi => by
    obtain ⟨ih1, ih2⟩ := quo_above hx hb h0 i (by omega)
    have hi0 : (0:ℝ) ≤ i := Nat.cast_nonneg i
    have hc := cas hx hb (m - (j0 + i)) (j0 + i) (by omega)
    have p0 := J_pos hx (j := j0 + i) (by push_cast; linarith)
    have p1 := J_mono hx (j := j0 + i) (by push_cast; linarith)
    have pm := J_pos hx (j := m) (h0.trans (by exact_mod_cast (by omega : j0 ≤ m)))
    have pm1 := J_pos hx (j := m + 1) (h0.trans (by exact_mod_cast (by omega : j0 ≤ m + 1)))
    have hm := J_anti' hx (i := j0 + i) (j := m) (by push_cast; linarith) (by omega)
    rw [show j0 + (i + 1) = j0 + i + 1 by omega]
    have e : b (j0 + i) / besselJR (j0 + i) x - b (j0 + i + 1) / besselJR (j0 + i + 1) x = besselJR (m + 1) x / (besselJR (j0 + i) x * besselJR (j0 + i + 1) x) := by
      rw [← hc, div_sub_div _ _ p0.ne' p1.1.ne']
      congr 1; ring
    have e2 : b j0 / besselJR j0 x - b (j0 + i + 1) / besselJR (j0 + i + 1) x = (b j0 / besselJR j0 x - b (j0 + i) / besselJR (j0 + i) x) +
      besselJR (m + 1) x / (besselJR (j0 + i) x * besselJR (j0 + i + 1) x) := by rw [← e]; ring
    rw [e2]
    generalize b j0 / besselJR j0 x - b (j0 + i) / besselJR (j0 + i) x = q at *
    constructor
    · have := p1.1; positivity
    · rw [add_mul, add_mul]
      have h1 : q * besselJR (j0 + i + 1) x * besselJR m x ≤ i * besselJR (m + 1) x := by
        refine le_trans ?_ ih2
        exact mul_le_mul_of_nonneg_right (mul_le_mul_of_nonneg_left p1.2 ih1) pm.le
      have h2 : besselJR (m + 1) x / (besselJR (j0 + i) x * besselJR (j0 + i + 1) x) * besselJR (j0 + i + 1) x * besselJR m x ≤ besselJR (m + 1) x := by
        have : besselJR (m + 1) x / (besselJR (j0 + i) x * besselJR (j0 + i + 1) x) * besselJR (j0 + i + 1) x * besselJR m x =
          besselJR (m + 1) x * (besselJR m x / besselJR (j0 + i) x) := by have := p1.1.ne'; field_simp
        rw [this]
        refine mul_le_of_le_one_right pm1.le ?_
        rw [div_le_one p0]; exact hm
      push_cast
      linarith

/-- one step of the energy downwards -/
theorem EQ_down {k : ℕ} (hx : 0 < x) (hk : (k:ℝ) + 1 < x) (a c : ℝ) :
    EQ x k a c ≤ (x - k) / (x - (k + 1)) * EQ x (k + 1) c ((k + 1 : ℕ) * (2 / x) * c - a) := by
  have e : EQ x (k + 1) c ((k + 1 : ℕ) * (2 / x) * c - a) = EQ x (k + 1) a c := by
    unfold EQ; push_cast; field_simp; ring
  rw [e]
  have h1 := EQ_ge (k := k + 1) hx (by push_cast; exact hk) a c
  have hd : 0 < x - (k + 1) := by linarith
  have e2 : (x - k) / (x - (k + 1)) = 1 + 1 / (x - (k + 1)) := by field_simp; ring
  have e3 : EQ x k a c = EQ x (k + 1) a c + 2 / x * (a * c) := by unfold EQ; push_cast; field_simp; ring
  rw [e2, e3, add_mul, one_mul]
  have h2 : 2 / x * (a * c) ≤ 1 / x * (a ^ 2 + c ^ 2) := by
    have : 0 ≤ 1 / x * (a - c) ^ 2 := by positivity
    have e3 : 1 / x * (a - c) ^ 2 = 1 / x * (a ^ 2 + c ^ 2) - 2 / x * (a * c) := by ring
    linarith
  have h3 : 1 / x * (a ^ 2 + c ^ 2) = 1 / (x - (k + 1)) * ((1 - (k + 1 : ℕ) / x) * (a ^ 2 + c ^ 2)) := by
    push_cast
    have := hd.ne'
    field_simp
  have h4 := mul_le_mul_of_nonneg_left h1 (by positivity : 0 ≤ 1 / (x - (k + 1)))
  linarith

theorem down_energy {e : ℕ → ℝ} {K : ℕ} {N : ℝ} (hx : 0 < x) (hK : (K:ℝ) + 1 < x) (he : ∀ j, j < K → e j = (j + 1 : ℕ) * (2 / x) * e (j + 1) - e (j + 2))
    (h0 : EQ x K (e K) (e (K + 1)) ≤ N) : ∀ k j, K = j + k → EQ x j (e j) (e (j + 1)) ≤ (x - j) / (x - K) * N
  | 0, j, h => by
    rw [add_zero] at h; subst h
    rw [div_self (by linarith), one_mul]; exact h0
  | k + 1, j, h => by
    have ih := down_energy hx hK he h0 k (j + 1) (by omega)
    have hjK : (j:ℝ) + 1 ≤ K := by exact_mod_cast (by omega : j + 1 ≤ K)
    have h1 := EQ_down (k := j) hx (by linarith) (e j) (e (j + 1))
    have e2 : (j + 1 : ℕ) * (2 / x) * e (j + 1) - e j = e (j + 1 + 1) := by
      have := he j (by omega)
      rw [this]; ring
    rw [e2] at h1
    refine h1.trans ((mul_le_mul_of_nonneg_left ih (div_nonneg (by linarith) (by linarith))).trans (le_of_eq ?_))
    rw [← mul_assoc]
    congr 1
    push_cast
    have a1 : x - (j + 1) ≠ 0 := by linarith
    have a2 : x - K ≠ 0 := by linarith
    field_simp

/-- the deviation from the multiple of `J` below the starting index -/
theorem dev_below {e : ℕ → ℝ} {j0 : ℕ} {D : ℝ} (hx : 0 < x) (hxj : x ≤ j0) (h0 : (j0:ℝ) < x + 1) (he : ∀ j, j < j0 → e j = (j + 1 : ℕ) * (2 / x) * e (j + 1) - e (j + 2))
    (hz : e j0 = 0) (hD : ∀ j, j + 1 = j0 → |e j| ≤ D) (hD0 : 0 ≤ D) {j : ℕ} (hj : j < j0) : |e j| ≤ 3 * j0 * D := by
  have hj1 : (1:ℝ) ≤ j0 := by exact_mod_cast (by omega : 1 ≤ j0)
  rcases Nat.lt_or_ge (j + 1) j0 with h | h
  · obtain ⟨K, rfl⟩ : ∃ K, j0 = K + 2 := ⟨j0 - 2, by omega⟩
    have hK : (K:ℝ) + 1 < x := by push_cast at h0; linarith
    have hk0 : (0:ℝ) ≤ K := Nat.cast_nonneg K
    have d1 := hD (K + 1) rfl
    have d0 : |e K| ≤ 2 * D := by
      rw [he K (by omega), hz, sub_zero, abs_mul]
      refine mul_le_mul ?_ d1 (abs_nonneg _) (by norm_num)
      rw [abs_of_nonneg (by positivity), ← mul_div_assoc, div_le_iff₀ hx]
      push_cast; linarith
    have hE : EQ x K (e K) (e (K + 1)) ≤ 9 * D ^ 2 := by
      unfold EQ
      have hK1 : (K:ℝ) / x ≤ 1 := by rw [div_le_one hx]; linarith
      have hK2 : 0 ≤ (K:ℝ) / x := by positivity
      have a1 : e K ^ 2 ≤ (2 * D) ^ 2 := by rw [← sq_abs]; exact pow_le_pow_left₀ (abs_nonneg _) d0 2
      have a2 : e (K + 1) ^ 2 ≤ D ^ 2 := by rw [← sq_abs]; exact pow_le_pow_left₀ (abs_nonneg _) d1 2
      have a3 : |e K * e (K + 1)| ≤ 2 * D * D := by rw [abs_mul]; exact mul_le_mul d0 d1 (abs_nonneg _) (by linarith)
      have a4 : -(2 * (K:ℝ) / x * e K * e (K + 1)) ≤ 2 * (2 * D * D) := by
        have e3 : 2 * (K:ℝ) / x * e K * e (K + 1) = 2 * (K / x * (e K * e (K + 1))) := by ring
        rw [e3]
        have : |(K:ℝ) / x * (e K * e (K + 1))| ≤ 1 * (2 * D * D) := by
          rw [abs_mul, abs_of_nonneg hK2]; exact mul_le_mul hK1 a3 (abs_nonneg _) (by norm_num)
        have := (abs_le.1 this).1
        linarith
      nlinarith
    have h1 := down_energy hx hK (fun j hj => he j (by omega)) hE (K - j) j (by omega)
    have hjK : (j:ℝ) ≤ K := by exact_mod_cast (by omega : j ≤ K)
    have h2 := (EQ_ge (k := j) hx (by linarith) (e j) (e (j + 1))).trans h1
    have hxj' : 0 < x - j := by linarith
    have e4 : 1 - (j:ℝ) / x = (x - j) / x := by field_simp
    rw [e4] at h2
    have h3 : (x - j) / x * e j ^ 2 ≤ (x - j) / (x - K) * (9 * D ^ 2) := by
      refine le_trans (mul_le_mul_of_nonneg_left ?_ (by positivity)) h2
      nlinarith [sq_nonneg (e (j + 1))]
    have h4 : e j ^ 2 ≤ x * (9 * D ^ 2) := by
      have h5 : (x - j) / (x - K) * (9 * D ^ 2) ≤ (x - j) * (9 * D ^ 2) := by
        refine mul_le_mul_of_nonneg_right ?_ (by positivity)
        exact div_le_self hxj'.le (by linarith)
      have h6 := h3.trans h5
      rw [div_mul_eq_mul_div, div_le_iff₀ hx] at h6
      have : (x - j) * e j ^ 2 ≤ (x - j) * (x * (9 * D ^ 2)) := by linarith
      exact le_of_mul_le_mul_left this hxj'
    refine abs_le_of_sq_le_sq (h4.trans ?_) (by positivity)
    have e5 : (3 * ((K + 2 : ℕ):ℝ) * D) ^ 2 = ((K + 2 : ℕ):ℝ) ^ 2 * (9 * D ^ 2) := by ring
    rw [e5]
    exact mul_le_mul_of_nonneg_right (by nlinarith) (by positivity)
  · have : j + 1 = j0 := by omega
    refine (hD j this).trans ?_
    nlinarith

/-- all deviations -/
theorem dev_all (hx : 0 < x) (hb : Downward 1 x m b) {j0 : ℕ} (h0 : x ≤ j0) (h1 : (j0:ℝ) < x + 1) (hm : j0 ≤ m) {j : ℕ} (hj : j ≤ m) :
    |b j - b j0 / besselJR j0 x * besselJR j x| * besselJR m x ≤ 3 * m * besselJR (m + 1) x := by
  have p0 := J_pos hx h0
  have hm' : (j0:ℝ) ≤ m := by exact_mod_cast hm
  have pm := J_pos hx (j := m) (h0.trans hm')
  have pm1 := J_pos hx (j := m + 1) (by push_cast; linarith)
  have a0 := J_anti' hx h0 hm
  rcases Nat.lt_or_ge j j0 with h | h
  · have hz : b j0 - b j0 / besselJR j0 x * besselJR j0 x = 0 := by rw [div_mul_cancel₀ _ p0.ne', sub_self]
    have hd := dev_below (e := fun j => b j - b j0 / besselJR j0 x * besselJR j x) (j0 := j0) (D := besselJR (m + 1) x / besselJR j0 x) hx h0 h1 (by
      intro i hi
      show b i - _ = _ * (b (i + 1) - _) - (b (i + 2) - _)
      rw [dn_step hx hb (by omega : i < m), J_rec i hx.ne']
      ring) hz (by
      intro i hi
      show |b i - b j0 / besselJR j0 x * besselJR i x| ≤ _
      have hc := cas hx hb (m - i) i (by omega)
      rw [hi] at hc
      have e : b i - b j0 / besselJR j0 x * besselJR i x = besselJR (m + 1) x / besselJR j0 x := by
        rw [← hc]; field_simp
      rw [e, abs_of_pos (by positivity)]) (by positivity) h
    have e : (3 * (j0:ℝ) * (besselJR (m + 1) x / besselJR j0 x)) * besselJR m x = 3 * j0 * (besselJR (m + 1) x * (besselJR m x / besselJR j0 x)) := by ring
    refine (mul_le_mul_of_nonneg_right hd pm.le).trans ?_
    rw [e]
    have h2 : besselJR (m + 1) x * (besselJR m x / besselJR j0 x) ≤ besselJR (m + 1) x :=
      mul_le_of_le_one_right pm1.le (by rw [div_le_one p0]; exact a0)
    exact mul_le_mul (by linarith) h2 (by positivity) (by positivity)
  · obtain ⟨i, rfl⟩ : ∃ i, j = j0 + i := ⟨j - j0, by omega⟩
    obtain ⟨q1, q2⟩ := quo_above hx hb h0 i hj
    have pj := J_pos hx (j := j0 + i) (by push_cast; linarith [(Nat.cast_nonneg i : (0:ℝ) ≤ i)])
    have e : b (j0 + i) - b j0 / besselJR j0 x * besselJR (j0 + i) x = -((b j0 / besselJR j0 x - b (j0 + i) / besselJR (j0 + i) x) * besselJR (j0 + i) x) := by
      field_simp; ring
    rw [e, abs_neg, abs_of_nonneg (mul_nonneg q1 pj.le)]
    refine q2.trans (mul_le_mul_of_nonneg_right ?_ pm1.le)
    have : (i:ℝ) ≤ m := by exact_mod_cast (by omega : i ≤ m)
    linarith

/-- the normalising sum of the program -/
noncomputable def mS (b : ℕ → ℝ) (M : ℕ) : ℝ := b 0 + 2 * ∑ k ∈ Finset.Ico 1 M, b (2 * k)

theorem norm_sum {M j0 : ℕ} (hx : 0 < x) (hb : Downward 1 x (2 * M) b) (hM : 1 ≤ M) (h0 : x ≤ j0) (h1 : (j0:ℝ) < x + 1) (hm : j0 ≤ 2 * M) :
    |mS b M - b j0 / besselJR j0 x| ≤ b j0 / besselJR j0 x * (2 * besselJR (2 * M) x + 3 * (2 * M : ℕ) ^ 2 * besselJR (2 * M + 1) x) := by
  set m := 2 * M with hmM
  set lam := b j0 / besselJR j0 x with hlam
  have hm' : (j0:ℝ) ≤ m := by exact_mod_cast hm
  have p0 := J_pos hx h0
  have pm := J_pos hx (j := m) (h0.trans hm')
  have pm1 := J_pos hx (j := m + 1) (by push_cast; linarith)
  have hl : 1 ≤ lam * besselJR m x := by
    have := (quo_above hx hb h0 (m - j0) (by omega)).1
    rw [show j0 + (m - j0) = m by omega, hb.start, ← hlam] at this
    rw [← div_le_iff₀ pm]; linarith
  have hlp : 0 < lam := by
    by_contra h
    have := mul_nonpos_of_nonpos_of_nonneg (not_lt.1 h) pm.le
    linarith
  set F := besselJR 0 x + 2 * ∑ k ∈ Finset.Ico 1 M, besselJR (2 * k) x with hF
  have hFn : |F - 1| ≤ 2 * besselJR m x + x * besselJR (m + 1) x := by
    have := J_norm (K := M) hx.le (by have : x ≤ m := h0.trans hm'; rw [hmM] at this; push_cast at this; linarith)
    rw [Finset.sum_Ico_succ_top (by omega)] at this
    have e : besselJR 0 x + 2 * (∑ k ∈ Finset.Ico 1 M, besselJR (2 * k) x + besselJR (2 * M) x) - 1 = (F - 1) + 2 * besselJR m x := by rw [hF]; ring
    rw [e] at this
    rw [abs_le] at this ⊢
    constructor <;> linarith [this.1, this.2]
  have e1 : mS b M - lam = lam * (F - 1) + ((b 0 - lam * besselJR 0 x) + 2 * ∑ k ∈ Finset.Ico 1 M, (b (2 * k) - lam * besselJR (2 * k) x)) := by
    rw [Finset.sum_sub_distrib, ← Finset.mul_sum, hF]; unfold mS; ring
  have hdev : ∀ j, j ≤ m → |b j - lam * besselJR j x| ≤ lam * (3 * m * besselJR (m + 1) x) := by
    intro j hj
    have h2 := dev_all hx hb h0 h1 hm hj
    rw [← hlam] at h2
    have h3 : |b j - lam * besselJR j x| ≤ |b j - lam * besselJR j x| * (lam * besselJR m x) := le_mul_of_one_le_right (abs_nonneg _) hl
    refine h3.trans ?_
    have h4 := mul_le_mul_of_nonneg_left h2 hlp.le
    linarith
  have hsum : |(b 0 - lam * besselJR 0 x) + 2 * ∑ k ∈ Finset.Ico 1 M, (b (2 * k) - lam * besselJR (2 * k) x)| ≤ (m - 1) * (lam * (3 * m * besselJR (m + 1) x)) := by
    have h2 : |∑ k ∈ Finset.Ico 1 M, (b (2 * k) - lam * besselJR (2 * k) x)| ≤ (M - 1) * (lam * (3 * m * besselJR (m + 1) x)) := by
      refine (Finset.abs_sum_le_sum_abs _ _).trans ((Finset.sum_le_card_nsmul _ _ _ (fun k hk => hdev (2 * k) ?_)).trans (le_of_eq ?_))
      · rw [Finset.mem_Ico] at hk; omega
      · rw [Nat.card_Ico, nsmul_eq_mul, Nat.cast_sub hM, Nat.cast_one]
    have h3 := hdev 0 (by omega)
    refine (abs_add_le _ _).trans ?_
    rw [abs_mul, abs_two]
    have : (m:ℝ) = 2 * M := by rw [hmM]; push_cast; ring
    generalize lam * (3 * m * besselJR (m + 1) x) = G at *
    rw [this]
    linarith
  rw [e1]
  refine (abs_add_le _ _).trans ?_
  rw [abs_mul, abs_of_pos hlp]
  have hx2 : x ≤ m := h0.trans hm'
  have h5 : lam * |F - 1| ≤ lam * (2 * besselJR m x + x * besselJR (m + 1) x) := mul_le_mul_of_nonneg_left hFn hlp.le
  have h6 : lam * (2 * besselJR m x + x * besselJR (m + 1) x) + (m - 1) * (lam * (3 * m * besselJR (m + 1) x)) ≤ lam * (2 * besselJR m x + 3 * m ^ 2 * besselJR (m + 1) x) := by
    have h7 : x * besselJR (m + 1) x ≤ m * besselJR (m + 1) x := mul_le_mul_of_nonneg_right hx2 pm1.le
    have h8 : 2 * besselJR m x + x * besselJR (m + 1) x + (m - 1) * (3 * m * besselJR (m + 1) x) ≤ 2 * besselJR m x + 3 * m ^ 2 * besselJR (m + 1) x := by
      have : (m - 1) * (3 * m * besselJR (m + 1) x) = 3 * m ^ 2 * besselJR (m + 1) x - 3 * (m * besselJR (m + 1) x) := by ring
      have h9 : 0 ≤ (m:ℝ) * besselJR (m + 1) x := by positivity
      linarith
    have := mul_le_mul_of_nonneg_left h8 hlp.le
    linarith
  linarith

/-- the downward recurrence -/
theorem miller_J {M n : ℕ} {η : ℝ} (hx : 0 < x) (hb : Downward 1 x (2 * M) b) (hn : x ≤ n) (hnm : n ≤ 2 * M)
    (hη : 2 * besselJR (2 * M) x + 3 * (2 * M : ℕ) ^ 2 * besselJR (2 * M + 1) x + n * besselJR (2 * M + 1) x / besselJR n x ≤ η) (h1 : η ≤ 1 / 1000) :
    |b n / mS b M - besselJR n x| ≤ 1.01 * η * besselJR n x := by
  have hn1 : 1 ≤ n := by
    rcases n with _ | n
    · simp at hn; linarith
    · omega
  set j0 := ⌈x⌉₊ with hj0
  have h0 : x ≤ j0 := Nat.le_ceil x
  have h1' : (j0:ℝ) < x + 1 := Nat.ceil_lt_add_one hx.le
  have hjn : j0 ≤ n := Nat.ceil_le.2 hn
  have hN := norm_sum hx hb (by omega) h0 h1' (by omega)
  set lam := b j0 / besselJR j0 x with hlam
  have pn := J_pos hx hn
  have hnm' : (n:ℝ) ≤ (2 * M : ℕ) := by exact_mod_cast hnm
  have pm := J_pos hx (j := 2 * M) (hn.trans hnm')
  have pm1 := J_pos hx (j := 2 * M + 1) (by push_cast at hnm' ⊢; linarith)
  have hl : 1 ≤ lam * besselJR (2 * M) x := by
    have := (quo_above hx hb h0 (2 * M - j0) (by omega)).1
    rw [show j0 + (2 * M - j0) = 2 * M by omega, hb.start, ← hlam] at this
    rw [← div_le_iff₀ pm]; linarith
  have hlp : 0 < lam := by
    by_contra h
    have := mul_nonpos_of_nonpos_of_nonneg (not_lt.1 h) pm.le
    linarith
  have hq := quo_above hx hb h0 (n - j0) (by omega)
  rw [show j0 + (n - j0) = n by omega, ← hlam] at hq
  obtain ⟨q1, q2⟩ := hq
  set q := b n / besselJR n x with hqd
  have hbn : b n = q * besselJR n x := by rw [hqd, div_mul_cancel₀ _ pn.ne']
  set E := 2 * besselJR (2 * M) x + 3 * (2 * M : ℕ) ^ 2 * besselJR (2 * M + 1) x with hE
  have hE0 : 0 ≤ E := by positivity
  set φ := n * besselJR (2 * M + 1) x / besselJR n x with hφ
  have hφ0 : 0 ≤ φ := by positivity
  have h3 : lam - q ≤ lam * φ := by
    have a1 : (lam - q) * besselJR (2 * M) x ≤ φ := by
      rw [hφ, le_div_iff₀ pn]
      have : ((n - j0 : ℕ):ℝ) ≤ n := by exact_mod_cast Nat.sub_le _ _
      have := mul_le_mul_of_nonneg_right this pm1.le
      linarith
    have a2 : lam - q ≤ (lam - q) * (lam * besselJR (2 * M) x) := le_mul_of_one_le_right q1 hl
    have a3 := mul_le_mul_of_nonneg_left a1 hlp.le
    linarith
  have hN' := abs_le.1 hN
  have hS : lam * (1 - E) ≤ mS b M := by linarith [hN'.1]
  have hS0 : 0 < mS b M := lt_of_lt_of_le (mul_pos hlp (by linarith)) hS
  have e : b n / mS b M - besselJR n x = besselJR n x * ((q - mS b M) / mS b M) := by rw [hbn]; field_simp
  rw [e, abs_mul, abs_of_pos pn, mul_comm]
  refine mul_le_mul_of_nonneg_right ?_ pn.le
  rw [abs_div, abs_of_pos hS0, div_le_iff₀ hS0]
  have h4 : |q - mS b M| ≤ lam * (E + φ) := by
    rw [abs_le]; constructor <;> linarith [hN'.1, hN'.2]
  refine h4.trans ?_
  have h5 : lam * (E + φ) ≤ lam * η := mul_le_mul_of_nonneg_left hη hlp.le
  have h6 : 1.01 * η * (lam * (1 - E)) ≤ 1.01 * η * mS b M := mul_le_mul_of_nonneg_left hS (by norm_num; linarith)
  have h7 : lam * η ≤ 1.01 * η * (lam * (1 - E)) := by
    have h8 : η ≤ 1.01 * η * (1 - E) := by
      have : (1:ℝ) ≤ 1.01 * (1 - E) := by norm_num; linarith
      have := mul_le_mul_of_nonneg_left this (by linarith : 0 ≤ η)
      linarith
    have := mul_le_mul_of_nonneg_left h8 hlp.le
    linarith
  linarith

end Bes
end Verif
