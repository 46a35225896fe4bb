import Verif.Proofs.BesselI2
import Verif.Props.Miller

/-! `In` for orders `n ≥ 2`: error of the downward recurrence against the modified Bessel functions. -/

namespace Verif
namespace Bes
open Real

theorem SB_pos (n : ℕ) {u : ℝ} (hu : 0 ≤ u) : 0 < SB n u := by
  have h := (sb_summable n u).sum_le_tsum {0} (fun i _ => by positivity)
  simp only [Finset.sum_singleton, pow_zero, Nat.factorial_zero] at h
  refine lt_of_lt_of_le ?_ h
  positivity

theorem I_pos (n : ℕ) {x : ℝ} (hx : 0 < x) : 0 < besselIR n x := by
  rw [besselIR_eq]
  have := SB_pos n (by positivity : 0 ≤ x ^ 2 / 4)
  positivity

/-- `I_n = (2(n+1)/x) I_{n+1} + I_{n+2}` -/
theorem I_rec (n : ℕ) {x : ℝ} (hx : 0 < x) : besselIR n x = (n + 1 : ℕ) * (2 / x) * besselIR (n + 1) x + besselIR (n + 2) x := by
  rw [besselIR_eq, besselIR_eq, besselIR_eq, ← sb_rec]
  push_cast
  rw [pow_succ, pow_add (x / 2) n 2]
  field_simp
  ring

theorem I_le (n : ℕ) {x : ℝ} (hx : 0 < x) : besselIR (n + 1) x ≤ x / (2 * (n + 1)) * besselIR n x := by
  have h := I_rec n hx
  have h2 := I_pos (n + 2) hx
  rw [h]
  have e : x / (2 * ((n:ℝ) + 1)) * ((n + 1 : ℕ) * (2 / x) * besselIR (n + 1) x + besselIR (n + 2) x) =
      besselIR (n + 1) x + x / (2 * ((n:ℝ) + 1)) * besselIR (n + 2) x := by
    push_cast; field_simp
  rw [e]
  have : 0 ≤ x / (2 * ((n:ℝ) + 1)) * besselIR (n + 2) x := by positivity
  linarith

theorem I_parity (n : ℕ) (x : ℝ) : besselIR n x = (if x < 0 ∧ n % 2 = 1 then -1 else 1) * besselIR n |x| := by
  by_cases hx : x < 0
  · rw [abs_of_neg hx, besselIR_eq, besselIR_eq, neg_sq, neg_div, neg_pow (x / 2) n]
    rcases Nat.even_or_odd n with h | h
    · rw [if_neg (by intro h2; rw [Nat.even_iff] at h; omega), h.neg_one_pow]; ring
    · rw [if_pos ⟨hx, Nat.odd_iff.1 h⟩, h.neg_one_pow]; ring
  · rw [if_neg (by tauto), one_mul, abs_of_nonneg (not_lt.1 hx)]

section miller
variable {x : ℝ} {m : ℕ} {b : ℕ → ℝ}

/-- the quotient `b_k/I_k` -/
noncomputable def mq (x : ℝ) (b : ℕ → ℝ) (k : ℕ) : ℝ := b k / besselIR k |x|
/-- the weight `I_{k+2}/I_k` -/
noncomputable def mth (x : ℝ) (k : ℕ) : ℝ := besselIR (k + 2) |x| / besselIR k |x|

theorem mth_nonneg (hx : x ≠ 0) (k : ℕ) : 0 ≤ mth x k :=
  div_nonneg (I_pos _ (abs_pos.2 hx)).le (I_pos _ (abs_pos.2 hx)).le

theorem mth_le_one (hx : x ≠ 0) (k : ℕ) : mth x k ≤ 1 := by
  have hx := abs_pos.2 hx
  have h0 := I_pos k hx
  unfold mth
  rw [div_le_one h0, I_rec k hx]
  have := I_pos (k + 1) hx
  have : 0 ≤ ((k + 1 : ℕ) : ℝ) * (2 / |x|) * besselIR (k + 1) |x| := by positivity
  linarith

theorem mth_le (hx : x ≠ 0) (k : ℕ) (hk : |x| ≤ k + 1) : mth x k ≤ 1 / 4 := by
  have hx := abs_pos.2 hx
  have h0 := I_pos k hx
  unfold mth
  rw [div_le_iff₀ h0]
  have h1 := I_le k hx
  have h2 := I_le (k + 1) hx
  have hk0 : (0:ℝ) ≤ k := Nat.cast_nonneg k
  have a1 : |x| / (2 * ((k:ℝ) + 1)) ≤ 1 / 2 := by
    rw [div_le_iff₀ (by positivity)]; linarith
  have a2 : |x| / (2 * (((k + 1 : ℕ) : ℝ) + 1)) ≤ 1 / 2 := by
    rw [div_le_iff₀ (by positivity)]; push_cast; linarith
  have p1 := I_pos (k + 1) hx
  calc besselIR (k + 2) |x| ≤ |x| / (2 * (((k + 1 : ℕ) : ℝ) + 1)) * besselIR (k + 1) |x| := h2
    _ ≤ 1 / 2 * (|x| / (2 * ((k:ℝ) + 1)) * besselIR k |x|) := by gcongr
    _ ≤ 1 / 2 * (1 / 2 * besselIR k |x|) := by gcongr
    _ = _ := by ring

theorem mq_step (hx : x ≠ 0) (hb : Downward (-1) x m b) {j : ℕ} (hj : j < m) :
    mq x b j = (1 - mth x j) * mq x b (j + 1) + mth x j * mq x b (j + 2) := by
  have hx' := abs_pos.2 hx
  have h0 := (I_pos j hx').ne'
  have h1 := (I_pos (j + 1) hx').ne'
  have h2 := (I_pos (j + 2) hx').ne'
  have hr := I_rec j hx'
  have e : 1 - mth x j = (j + 1 : ℕ) * (2 / |x|) * besselIR (j + 1) |x| / besselIR j |x| := by
    unfold mth
    rw [eq_div_iff h0, sub_mul, one_mul, div_mul_cancel₀ _ h0]
    linarith
  rw [e]
  unfold mq mth
  rw [hb.step j hj]
  field_simp
  ring

theorem mq_diff (hx : x ≠ 0) (hb : Downward (-1) x m b) {j : ℕ} (hj : j < m) :
    |mq x b j - mq x b (j + 1)| = mth x j * |mq x b (j + 1) - mq x b (j + 2)| := by
  rw [mq_step hx hb hj, show (1 - mth x j) * mq x b (j + 1) + mth x j * mq x b (j + 2) - mq x b (j + 1) =
    -(mth x j * (mq x b (j + 1) - mq x b (j + 2))) by ring, abs_neg, abs_mul, abs_of_nonneg (mth_nonneg hx j)]

theorem mq_hull (hx : x ≠ 0) (hb : Downward (-1) x m b) {A B : ℝ} {k : ℕ} (hk : k ≤ m) (h0 : A ≤ mq x b k ∧ mq x b k ≤ B)
    (h1 : A ≤ mq x b (k + 1) ∧ mq x b (k + 1) ≤ B) : ∀ i j, k = j + i → (A ≤ mq x b j ∧ mq x b j ≤ B) ∧ (A ≤ mq x b (j + 1) ∧ mq x b (j + 1) ≤ B)
  | 0, j, h => by rw [add_zero] at h; rw [← h]; exact ⟨h0, h1⟩
  | i + 1, j, h => by
    obtain ⟨a0, a1⟩ := mq_hull hx hb hk h0 h1 i (j + 1) (by omega)
    refine ⟨?_, a0⟩
    have hs := mq_step hx hb (j := j) (by omega)
    have t0 := mth_nonneg hx j
    have t1 := mth_le_one hx j
    rw [hs]
    constructor <;> nlinarith [a0.1, a0.2, a1.1, a1.2]

theorem mq_top (hb : Downward (-1) x m b) : mq x b (m + 1) = 0 := by unfold mq; rw [hb.top, zero_div]
theorem mq_m (hx : x ≠ 0) (hb : Downward (-1) x m b) : 0 < mq x b m := by
  unfold mq; rw [hb.start]; exact div_pos one_pos (I_pos _ (abs_pos.2 hx))

theorem mq_ge (hx : x ≠ 0) (hb : Downward (-1) x m b) (hm : 1 ≤ m) (hxm : |x| ≤ m) {j : ℕ} (hj : j ≤ m) : 3 / 4 * mq x b m ≤ mq x b j := by
  obtain ⟨k, rfl⟩ : ∃ k, m = k + 1 := ⟨m - 1, by omega⟩
  have hs := mq_step hx hb (j := k) (by omega)
  have ht := mth_le hx k (by push_cast at hxm; exact hxm)
  rw [show k + 2 = k + 1 + 1 by omega, mq_top hb] at hs
  have hp := mq_m hx hb
  have h0 : 3 / 4 * mq x b (k + 1) ≤ mq x b k := by rw [hs]; nlinarith
  have h1 : mq x b k ≤ mq x b (k + 1) := by rw [hs]; nlinarith [mth_nonneg hx k]
  rcases Nat.lt_or_ge j (k + 1) with h | h
  · exact (mq_hull hx hb (A := 3 / 4 * mq x b (k + 1)) (B := mq x b (k + 1)) (by omega : k ≤ k + 1) ⟨h0, h1⟩ ⟨by linarith, le_rfl⟩ (k - j) j (by omega)).1.1
  · rw [show j = k + 1 by omega]; linarith

theorem mq_small (hx : x ≠ 0) (hb : Downward (-1) x m b) {t : ℕ} (hxt : |x| ≤ t) :
    ∀ i j, m = j + i → t ≤ j + 1 → |mq x b j - mq x b (j + 1)| ≤ (1 / 4) ^ i * mq x b m
  | 0, j, h, _ => by
    rw [add_zero] at h
    rw [← h, mq_top hb, sub_zero, abs_of_pos (mq_m hx hb), pow_zero, one_mul]
  | i + 1, j, h, ht => by
    have ih := mq_small hx hb hxt i (j + 1) (by omega) (by omega)
    rw [mq_diff hx hb (by omega), pow_succ]
    have h4 := mth_le hx j (hxt.trans (by exact_mod_cast ht))
    have := mul_le_mul h4 ih (abs_nonneg _) (by norm_num)
    rw [show j + 1 + 1 = j + 2 by omega] at this
    linarith

theorem mq_low (hx : x ≠ 0) (hb : Downward (-1) x m b) {k : ℕ} (hk : k ≤ m) :
    ∀ i j, k = j + i → |mq x b j - mq x b (j + 1)| ≤ |mq x b k - mq x b (k + 1)|
  | 0, j, h => by rw [add_zero] at h; rw [h]
  | i + 1, j, h => by
    have ih := mq_low hx hb hk i (j + 1) (by omega)
    rw [mq_diff hx hb (by omega)]
    have t1 := mth_le_one hx j
    have := mul_le_mul_of_nonneg_right t1 (abs_nonneg (mq x b (j + 1) - mq x b (j + 2)))
    rw [show j + 1 + 1 = j + 2 by omega] at ih
    linarith

/-- relative error of the quotient `b_n/b_0` -/
theorem miller_I (hx : x ≠ 0) (hb : Downward (-1) x m b) {n t : ℕ} (hn : 1 ≤ n) (hnt : n ≤ t) (htm : t ≤ m) (hxt : |x| ≤ t) :
    abs (b n / b 0 - besselIR n |x| / besselIR 0 |x|) ≤ 1 / 3 * (1 / 4) ^ (m - t) * (besselIR n |x| / besselIR 0 |x|) := by
  have hx' := abs_pos.2 hx
  have hxm : |x| ≤ m := hxt.trans (by exact_mod_cast htm)
  have p0 := I_pos 0 hx'
  have pn := I_pos n hx'
  have hq0 := mq_ge hx hb (by omega) hxm (Nat.zero_le m)
  have hp := mq_m hx hb
  obtain ⟨k, rfl⟩ : ∃ k, n = k + 1 := ⟨n - 1, by omega⟩
  have d1 : |mq x b (t - 1) - mq x b (t - 1 + 1)| ≤ (1 / 4) ^ (m - (t - 1)) * mq x b m :=
    mq_small hx hb hxt (m - (t - 1)) (t - 1) (by omega) (by omega)
  have d2 := (mq_low hx hb (k := t - 1) (by omega) (t - 1 - k) k (by omega)).trans d1
  -- q₀ lies between q_k and q_{k+1}
  have hull := (mq_hull hx hb (A := min (mq x b k) (mq x b (k + 1))) (B := max (mq x b k) (mq x b (k + 1))) (by omega : k ≤ m)
    ⟨min_le_left _ _, le_max_left _ _⟩ ⟨min_le_right _ _, le_max_right _ _⟩ k 0 (by omega)).1
  have d3 : |mq x b (k + 1) - mq x b 0| ≤ (1 / 4) ^ (m - (t - 1)) * mq x b m := by
    refine le_trans ?_ d2
    rcases le_total (mq x b k) (mq x b (k + 1)) with h | h
    · rw [min_eq_left h, max_eq_right h] at hull
      rw [abs_of_nonneg (by linarith [hull.2]), abs_sub_comm, abs_of_nonneg (by linarith)]; linarith [hull.1]
    · rw [min_eq_right h, max_eq_left h] at hull
      rw [abs_sub_comm, abs_of_nonneg (by linarith [hull.1]), abs_of_nonneg (by linarith)]; linarith [hull.2]
  have q0 : 0 < mq x b 0 := by linarith
  have hb0 : b 0 = mq x b 0 * besselIR 0 |x| := by unfold mq; field_simp
  have hbn : b (k + 1) = mq x b (k + 1) * besselIR (k + 1) |x| := by unfold mq; field_simp
  have e : b (k + 1) / b 0 - besselIR (k + 1) |x| / besselIR 0 |x| =
      (mq x b (k + 1) - mq x b 0) / mq x b 0 * (besselIR (k + 1) |x| / besselIR 0 |x|) := by
    rw [hb0, hbn]; field_simp
  rw [e, abs_mul, abs_of_pos (by positivity : 0 < besselIR (k + 1) |x| / besselIR 0 |x|)]
  refine mul_le_mul_of_nonneg_right ?_ (by positivity)
  rw [abs_div, abs_of_pos q0, div_le_iff₀ q0]
  refine d3.trans ?_
  rw [show m - (t - 1) = m - t + 1 by omega, pow_succ]
  have h4 : (0:ℝ) < (1 / 4) ^ (m - t) := by positivity
  nlinarith

end miller

theorem I_mono_small (n : ℕ) {x : ℝ} (hx : 0 < x) (h2 : x ≤ 2) : besselIR (n + 1) x ≤ besselIR n x := by
  refine (I_le n hx).trans ?_
  have h := I_pos n hx
  have : x / (2 * ((n:ℝ) + 1)) ≤ 1 := by
    rw [div_le_one (by positivity)]
    have : (0:ℝ) ≤ n := Nat.cast_nonneg n
    linarith
  nlinarith

/-- below the cut-off, where the code returns 0, the function itself is tiny -/
theorem I_tiny {n : ℕ} (hn : 2 ≤ n) {x : ℝ} (hx : 0 < x) (h2 : x * x ≤ 1) : besselIR n x ≤ x * x / 4 := by
  have hx2 : x ≤ 2 := by nlinarith
  have h0 : besselIR 0 x ≤ 2 := by
    have hr := I_rec 0 hx
    have h1 := I_le 0 hx
    have h3 := I_le 1 hx
    have p0 := I_pos 0 hx
    have p1 := I_pos 1 hx
    have hs := sb_trunc 0 0 (x ^ 2 / 4) (by rw [abs_of_nonneg (by positivity)]; norm_num; nlinarith)
    rw [besselIR_eq, pow_zero, one_mul]
    simp only [Bes.hs, Nat.factorial] at hs
    rw [abs_le] at hs
    rw [abs_of_nonneg (by positivity : 0 ≤ x ^ 2 / 4)] at hs
    norm_num at hs
    nlinarith [hs.2]
  have h1 := I_le 0 hx
  have h3 := I_le 1 hx
  have hI2 : besselIR 2 x ≤ x * x / 4 := by
    have p0 := I_pos 0 hx
    calc besselIR 2 x ≤ x / (2 * (((1:ℕ):ℝ) + 1)) * besselIR 1 x := h3
      _ ≤ x / (2 * (((1:ℕ):ℝ) + 1)) * (x / (2 * (((0:ℕ):ℝ) + 1)) * besselIR 0 x) := by gcongr
      _ ≤ x / (2 * (((1:ℕ):ℝ) + 1)) * (x / (2 * (((0:ℕ):ℝ) + 1)) * 2) := by gcongr
      _ = _ := by push_cast; ring
  obtain ⟨k, rfl⟩ : ∃ k, n = 2 + k := ⟨n - 2, by omega⟩
  clear hn
  induction k with
  | zero => exact hI2
  | succ k ih => exact (I_mono_small (2 + k) hx hx2).trans ih

end Bes
end Verif
