import Verif.Proofs.BesselRight5
import Verif.Model.Bessel

/-! The upward recurrence of `Jn`: an energy estimate for the propagated errors. -/

namespace Verif
namespace Bes
open Real

/-- `J_{k+2} = (2(k+1)/x) J_{k+1} - J_k` -/
theorem J_rec (k : ℕ) {x : ℝ} (hx : x ≠ 0) : besselJR (k + 2) x = (k + 1 : ℕ) * (2 / x) * besselJR (k + 1) x - besselJR k x := by
  have h := sb_rec k (-(x ^ 2 / 4))
  rw [besselJR_eq, besselJR_eq, besselJR_eq, ← h, pow_succ, pow_succ]
  push_cast
  field_simp
  ring

theorem J_parity (n : ℕ) (x : ℝ) : besselJR n x = (if x < 0 ∧ n % 2 = 1 then -1 else 1) * besselJR n |x| := by
  by_cases hx : x < 0
  · rw [abs_of_neg hx, besselJR_eq, besselJR_eq, neg_sq, neg_div, neg_pow (x / 2) n]
    rcases Nat.even_or_odd n with h | h
    · rw [if_neg (by intro h2; rw [Nat.even_iff] at h; omega), h.neg_one_pow]; ring
    · rw [if_pos ⟨hx, Nat.odd_iff.1 h⟩, h.neg_one_pow]; ring
  · rw [if_neg (by tauto), one_mul, abs_of_nonneg (not_lt.1 hx)]

/-- the energy of two neighbours -/
noncomputable def EQ (x : ℝ) (k : ℕ) (a b : ℝ) : ℝ := a ^ 2 - 2 * k / x * a * b + b ^ 2

theorem EQ_ge {x : ℝ} {k : ℕ} (hx : 0 < x) (hk : (k:ℝ) < x) (a b : ℝ) : (1 - k / x) * (a ^ 2 + b ^ 2) ≤ EQ x k a b := by
  unfold EQ
  have h0 : 0 ≤ (k:ℝ) / x := by positivity
  have e : 2 * (k:ℝ) / x * a * b = (k / x) * (2 * a * b) := by ring
  rw [e]
  nlinarith [mul_nonneg h0 (sq_nonneg (a - b))]

theorem EQ_ge' {x : ℝ} {k : ℕ} (a b : ℝ) : (1 - (k / x) ^ 2) * b ^ 2 ≤ EQ x k a b := by
  unfold EQ
  have e : 2 * (k:ℝ) / x * a * b = 2 * (k / x) * a * b := by ring
  rw [e]
  nlinarith [sq_nonneg (a - k / x * b)]

theorem EQ_nonneg {x : ℝ} {k : ℕ} (hx : 0 < x) (hk : (k:ℝ) < x) (a b : ℝ) : 0 ≤ EQ x k a b := by
  refine le_trans ?_ (EQ_ge hx hk a b)
  have : (k:ℝ) / x ≤ 1 := by rw [div_le_one hx]; exact hk.le
  exact mul_nonneg (by linarith) (by positivity)

/-- a perturbation of the second entry -/
theorem EQ_pert {x : ℝ} {k : ℕ} (hx : 0 < x) (hk : (k:ℝ) < x) (a b d : ℝ) : √(EQ x k a (b + d)) ≤ √(EQ x k a b) + |d| := by
  have h0 := EQ_nonneg hx hk a b
  have hs := Real.sqrt_nonneg (EQ x k a b)
  rw [Real.sqrt_le_left (by positivity), add_sq, Real.sq_sqrt h0, sq_abs]
  have hq : (2 * b - 2 * k / x * a) ^ 2 ≤ (2 * √(EQ x k a b)) ^ 2 := by
    rw [mul_pow, Real.sq_sqrt h0]
    unfold EQ
    have h1 : ((k:ℝ) / x) ^ 2 ≤ 1 := by
      rw [sq_le_one_iff₀ (by positivity), div_le_one hx]; exact hk.le
    have e : 2 * (k:ℝ) / x = 2 * (k / x) := by ring
    rw [e]
    nlinarith [mul_nonneg (sub_nonneg.2 h1) (sq_nonneg a)]
  have h2 := abs_le_of_sq_le_sq hq (by positivity)
  have h3 : d * (2 * b - 2 * k / x * a) ≤ |d| * (2 * √(EQ x k a b)) := by
    refine (le_abs_self _).trans ?_
    rw [abs_mul]
    exact mul_le_mul_of_nonneg_left h2 (abs_nonneg _)
  have e2 : EQ x k a (b + d) = EQ x k a b + d * (2 * b - 2 * k / x * a) + d ^ 2 := by unfold EQ; ring
  rw [e2]
  linarith

/-- one exact step -/
theorem EQ_step {x : ℝ} {k : ℕ} (hx : 0 < x) (hk : ((k + 1 : ℕ):ℝ) < x) (a b : ℝ) :
    EQ x (k + 1) b ((k + 1 : ℕ) * (2 / x) * b - a) ≤ (x - k + 1) / (x - k) * EQ x k a b := by
  have hk' : (k:ℝ) < x := by push_cast at hk; linarith
  have e : EQ x (k + 1) b ((k + 1 : ℕ) * (2 / x) * b - a) = EQ x k a b - 2 / x * (a * b) := by
    unfold EQ; push_cast; field_simp; ring
  rw [e]
  have h1 := EQ_ge hx hk' a b
  have hd : 0 < x - k := by linarith
  have e2 : (x - k + 1) / (x - k) = 1 + 1 / (x - k) := by field_simp
  rw [e2, add_mul, one_mul]
  have h2 : -(2 / x * (a * b)) ≤ 1 / x * (a ^ 2 + b ^ 2) := by
    have : 0 ≤ 1 / x * (a + b) ^ 2 := by positivity
    have e3 : 1 / x * (a + b) ^ 2 = 1 / x * (a ^ 2 + b ^ 2) + 2 / x * (a * b) := by ring
    linarith
  have h3 : 1 / x * (a ^ 2 + b ^ 2) = 1 / (x - k) * ((1 - k / x) * (a ^ 2 + b ^ 2)) := by field_simp
  have h4 := mul_le_mul_of_nonneg_left h1 (by positivity : 0 ≤ 1 / (x - k))
  linarith

/-- the propagated energy -/
theorem up_energy {x δ N : ℝ} {e : ℕ → ℝ} {n : ℕ} (hx : 0 < x) (hn : (n:ℝ) < x) (hN : √(EQ x 0 (e 0) (e 1)) ≤ N) (hδ : 0 ≤ δ)
    (hs : ∀ k, k + 1 ≤ n → |e (k + 2) - ((k + 1 : ℕ) * (2 / x) * e (k + 1) - e k)| ≤ δ) :
    ∀ k, k ≤ n → √(EQ x k (e k) (e (k + 1))) ≤ √((x + 1) / (x - k + 1)) * (N + k * δ)
  | 0, _ => by
    rw [Nat.cast_zero, sub_zero, div_self (by positivity), Real.sqrt_one, zero_mul, add_zero, one_mul]; exact hN
  | k + 1, hk => by
    have ih := up_energy hx hn hN hδ hs k (by omega)
    have hk1 : ((k + 1 : ℕ):ℝ) < x := lt_of_le_of_lt (by exact_mod_cast hk) hn
    have hk0 : (k:ℝ) < x := by push_cast at hk1; linarith
    have hd := hs k hk
    set d := e (k + 2) - ((k + 1 : ℕ) * (2 / x) * e (k + 1) - e k) with hdd
    have e1 : e (k + 1 + 1) = ((k + 1 : ℕ) * (2 / x) * e (k + 1) - e k) + d := by rw [hdd, show k + 1 + 1 = k + 2 from rfl]; ring
    rw [e1]
    refine (EQ_pert hx hk1 _ _ _).trans ?_
    have h1 : √(EQ x (k + 1) (e (k + 1)) ((k + 1 : ℕ) * (2 / x) * e (k + 1) - e k)) ≤
        √((x - k + 1) / (x - k)) * (√((x + 1) / (x - k + 1)) * (N + k * δ)) := by
      refine (Real.sqrt_le_sqrt (EQ_step hx hk1 _ _)).trans ?_
      rw [Real.sqrt_mul (div_nonneg (by linarith) (by linarith))]
      exact mul_le_mul_of_nonneg_left ih (Real.sqrt_nonneg _)
    have h2 : √((x - k + 1) / (x - k)) * √((x + 1) / (x - k + 1)) = √((x + 1) / (x - (k + 1 : ℕ) + 1)) := by
      rw [← Real.sqrt_mul (div_nonneg (by linarith) (by linarith))]
      congr 1
      have : x - k ≠ 0 := by linarith
      have : x - k + 1 ≠ 0 := by linarith
      push_cast
      rw [show x - (k + 1) + 1 = x - k by ring]
      field_simp
    rw [← mul_assoc, h2] at h1
    have h3 : 1 ≤ √((x + 1) / (x - (k + 1 : ℕ) + 1)) := by
      rw [Real.one_le_sqrt, one_le_div (by linarith)]
      have : (0:ℝ) ≤ ((k + 1 : ℕ):ℝ) := by positivity
      linarith
    have h4 : |d| ≤ √((x + 1) / (x - (k + 1 : ℕ) + 1)) * δ := hd.trans (le_mul_of_one_le_left hδ h3)
    calc _ ≤ √((x + 1) / (x - (k + 1 : ℕ) + 1)) * (N + k * δ) + √((x + 1) / (x - (k + 1 : ℕ) + 1)) * δ := add_le_add h1 h4
      _ = _ := by push_cast; ring

/-- the propagated error -/
theorem up_error {x δ N : ℝ} {e : ℕ → ℝ} {n : ℕ} (hx : 0 < x) (h1 : 1 ≤ n) (hn : (n:ℝ) ≤ x) (hN : √(EQ x 0 (e 0) (e 1)) ≤ N) (hδ : 0 ≤ δ)
    (hs : ∀ k, k + 2 ≤ n → |e (k + 2) - ((k + 1 : ℕ) * (2 / x) * e (k + 1) - e k)| ≤ δ) :
    |e n| ≤ (x + 1) / (x - n + 1) * (N + n * δ) := by
  obtain ⟨k, rfl⟩ : ∃ k, n = k + 1 := ⟨n - 1, by omega⟩
  have hN0 : 0 ≤ N := (Real.sqrt_nonneg _).trans hN
  have hk : (k:ℝ) < x := by push_cast at hn; linarith
  have h := up_energy (n := k) hx hk hN hδ (fun i hi => hs i (by omega)) k le_rfl
  have h2 : (1 - (k / x) ^ 2) * e (k + 1) ^ 2 ≤ (√((x + 1) / (x - k + 1)) * (N + k * δ)) ^ 2 := by
    refine (EQ_ge' (e k) _).trans ?_
    rw [← Real.sq_sqrt (EQ_nonneg hx hk (e k) (e (k + 1)))]
    exact pow_le_pow_left₀ (Real.sqrt_nonneg _) h 2
  rw [mul_pow, Real.sq_sqrt (div_nonneg (by linarith) (by linarith))] at h2
  have k0 : (0:ℝ) ≤ k := by positivity
  have d0 : 0 < x - k := by linarith
  have e1 : 1 - ((k:ℝ) / x) ^ 2 = (x - k) * (x + k) / x ^ 2 := by field_simp; ring
  have h3 : (x - k) / x ≤ 1 - ((k:ℝ) / x) ^ 2 := by
    rw [e1, div_le_div_iff₀ hx (by positivity)]
    have : (x - k) * x ^ 2 ≤ (x - k) * (x + k) * x := by nlinarith [mul_nonneg d0.le (mul_nonneg k0 hx.le)]
    linarith
  have h4 := (mul_le_mul_of_nonneg_right h3 (sq_nonneg (e (k + 1)))).trans h2
  have e2 : x - ((k + 1 : ℕ):ℝ) + 1 = x - k := by push_cast; ring
  rw [e2]
  refine abs_le_of_sq_le_sq' ?_ (by positivity) |> abs_le.2
  have h5 : e (k + 1) ^ 2 ≤ x / (x - k) * ((x + 1) / (x - k + 1) * (N + k * δ) ^ 2) := by
    have := mul_le_mul_of_nonneg_left h4 (by positivity : 0 ≤ x / (x - k))
    have e3 : x / (x - k) * ((x - k) / x * e (k + 1) ^ 2) = e (k + 1) ^ 2 := by field_simp
    rw [e3] at this; exact this
  refine h5.trans ?_
  rw [← mul_assoc, mul_pow]
  refine mul_le_mul ?_ (pow_le_pow_left₀ (by positivity) (by push_cast; linarith [mul_le_mul_of_nonneg_right (by linarith : (k:ℝ) ≤ k + 1) hδ]) 2) (by positivity) (by positivity)
  rw [div_mul_div_comm, div_pow, div_le_div_iff₀ (mul_pos d0 (by linarith)) (by positivity)]
  have a1 : x * (x + 1) ≤ (x + 1) ^ 2 := by nlinarith
  have a2 : (x - k) ^ 2 ≤ (x - k) * (x - k + 1) := by nlinarith
  exact mul_le_mul a1 a2 (by positivity) (by positivity)

theorem EQ_zero (x a b : ℝ) : EQ x 0 a b = a ^ 2 + b ^ 2 := by unfold EQ; simp

theorem EQ_zero_le {x a b ε : ℝ} (ha : |a| ≤ ε) (hb : |b| ≤ ε) : √(EQ x 0 a b) ≤ 1.42 * ε := by
  have h0 : 0 ≤ ε := (abs_nonneg _).trans ha
  rw [EQ_zero, Real.sqrt_le_left (by positivity)]
  have h1 : a ^ 2 ≤ ε ^ 2 := by rw [← sq_abs]; exact pow_le_pow_left₀ (abs_nonneg _) ha 2
  have h2 : b ^ 2 ≤ ε ^ 2 := by rw [← sq_abs]; exact pow_le_pow_left₀ (abs_nonneg _) hb 2
  rw [mul_pow]
  norm_num
  nlinarith [sq_nonneg ε]

end Bes
end Verif
