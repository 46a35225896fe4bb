import Verif.Proofs.BesselJd2

/-! The starting order of `Jn` is large enough. -/

namespace Verif
namespace Bes
open Real

/-- `(n+2)(n+4)…(n+2k)` -/
def jP (n : ℕ) : ℕ → ℕ
  | 0 => 1
  | k + 1 => jP n k * (n + 2 * (k + 1))

theorem jP_eq (n : ℕ) : ∀ k, ((jP n k : ℕ) : ℝ) = ∏ i ∈ Finset.range k, ((n + 2 * (i + 1) : ℕ) : ℝ)
  | 0 => by simp [jP]
  | k + 1 => by rw [Finset.prod_range_succ, ← jP_eq n k, jP]; push_cast; ring

theorem jP_pos (n : ℕ) : ∀ k, 0 < jP n k
  | 0 => by simp [jP]
  | k + 1 => by rw [jP]; have := jP_pos n k; positivity

/-- the condition on the starting order `m = n + k` -/
def jCond (n k m : ℕ) : Prop := n ^ k * (2 * (n + 2 * (k + 1)) + (3 * m ^ 2 + n) * n) * (5 * 10 ^ 12) ≤ jP n (k + 1)

def jChk (n s : ℕ) : Bool :=
  let m := 2 * ((n + s) / 2)
  let k := m - n
  Nat.ble (n ^ k * (2 * (n + 2 * (k + 1)) + (3 * m ^ 2 + n) * n) * (5 * 10 ^ 12)) (jP n (k + 1))

theorem j_table : ((List.range 198).all fun i => (List.range 200).all fun s => !(Nat.ble (s * s) (160 * (i + 2)) && Nat.ble (160 * (i + 2) + 1) ((s + 1) * (s + 1))) || jChk (i + 2) s) = true := by
  decide +kernel

theorem jCond_small {n : ℕ} (h2 : 2 ≤ n) (hn : n < 200) : jCond n (2 * ((n + Nat.sqrt (160 * n)) / 2) - n) (2 * ((n + Nat.sqrt (160 * n)) / 2)) := by
  have h := j_table
  rw [List.all_eq_true] at h
  have h1 := h (n - 2) (List.mem_range.2 (by omega))
  rw [List.all_eq_true] at h1
  have hs : Nat.sqrt (160 * n) < 200 := Nat.sqrt_lt.2 (by omega)
  have h3 := h1 _ (List.mem_range.2 hs)
  rw [show n - 2 + 2 = n by omega] at h3
  have a := Nat.sqrt_le (160 * n)
  have c : 160 * n + 1 ≤ (Nat.sqrt (160 * n) + 1) * (Nat.sqrt (160 * n) + 1) := Nat.lt_succ_sqrt (160 * n)
  rw [Nat.ble_eq_true_of_le a, Nat.ble_eq_true_of_le c] at h3
  simp only [Bool.and_self, Bool.not_true, Bool.false_or] at h3
  exact Nat.le_of_ble_eq_true h3

/-- pairing the factors from both ends -/
theorem jP_sq (n k : ℕ) : (n * (n + 2 * (k + 1))) ^ k ≤ jP n k * jP n k := by
  have h : ((n * (n + 2 * (k + 1))) ^ k : ℕ) ≤ (∏ i ∈ Finset.range k, (n + 2 * (i + 1))) * ∏ i ∈ Finset.range k, (n + 2 * (k - 1 - i + 1)) := by
    rw [← Finset.prod_mul_distrib, ← Finset.card_range k, ← Finset.prod_const, Finset.card_range]
    refine Finset.prod_le_prod' fun i hi => ?_
    rw [Finset.mem_range] at hi
    obtain ⟨j, rfl⟩ : ∃ j, k = i + 1 + j := ⟨k - (i + 1), by omega⟩
    rw [show i + 1 + j - 1 - i + 1 = j + 1 by omega]
    nlinarith
  have e : ∀ k, ∏ i ∈ Finset.range k, (n + 2 * (i + 1)) = jP n k := by
    intro k
    induction k with
    | zero => rfl
    | succ k ih => rw [Finset.prod_range_succ, ih, jP]
  rw [Finset.prod_range_reflect (fun i => n + 2 * (i + 1)) k, e] at h
  exact h

theorem two_pow_big : ∀ j : ℕ, 10 ^ 30 * (j + 177 + 1) ^ 4 ≤ 2 ^ (j + 177)
  | 0 => by norm_num
  | j + 1 => by
    have ih := two_pow_big j
    rw [show j + 1 + 177 = (j + 177) + 1 by ring, pow_succ 2]
    have : (j + 177 + 1 + 1) ^ 4 ≤ 2 * (j + 177 + 1) ^ 4 := by
      have e : (6 * (j + 177 + 1 + 1)) ^ 4 ≤ (7 * (j + 177 + 1)) ^ 4 := Nat.pow_le_pow_left (by omega) 4
      rw [mul_pow, mul_pow] at e
      norm_num at e
      omega
    nlinarith

theorem exp200 : (10:ℝ) ^ 66 ≤ Real.exp 200 := by
  have h : (2.7:ℝ) ≤ Real.exp 1 := by have := Real.exp_one_gt_d9; norm_num at this ⊢; linarith
  have e : Real.exp 200 = Real.exp 1 ^ 200 := by rw [← Real.exp_nat_mul]; norm_num
  rw [e]
  exact le_trans (by norm_num) (pow_le_pow_left₀ (by norm_num) h 200)

/-- `(1 + 2(k+1)/n)^k` is large -/
theorem jgrow {n k : ℕ} (hn : 200 ≤ n) (hn2 : n ≤ 2000000000) (hk : 177 ≤ k) (hkn : 150 * n ≤ k * (k + 1)) :
    6.4e27 * (n:ℝ) ^ 4 ≤ (1 + 2 * (k + 1) / n) ^ k := by
  have hn0 : (0:ℝ) < n := by exact_mod_cast (by omega : 0 < n)
  rcases le_total n (2 * (k + 1)) with h | h
  · have h1 : (1:ℝ) ≤ 2 * (k + 1) / n := by rw [one_le_div hn0]; exact_mod_cast h
    refine le_trans ?_ (pow_le_pow_left₀ (by norm_num) (by linarith : (2:ℝ) ≤ 1 + 2 * (k + 1) / n) k)
    have h2 := two_pow_big (k - 177)
    rw [show k - 177 + 177 = k by omega] at h2
    have h3 : (10:ℝ) ^ 30 * (k + 1) ^ 4 ≤ 2 ^ k := by exact_mod_cast h2
    refine le_trans ?_ h3
    have h4 : (n:ℝ) ^ 4 ≤ (2 * (k + 1)) ^ 4 := pow_le_pow_left₀ hn0.le (by exact_mod_cast h) 4
    rw [mul_pow] at h4
    have : (0:ℝ) ≤ (k + 1) ^ 4 := by positivity
    norm_num at h4 ⊢
    linarith
  · have t1 : 2 * ((k:ℝ) + 1) / n ≤ 1 := by rw [div_le_one hn0]; exact_mod_cast h
    have t0 : 0 ≤ 2 * ((k:ℝ) + 1) / n := by positivity
    set t := 2 * ((k:ℝ) + 1) / n with ht
    have hlog := Real.le_log_one_add_of_nonneg t0
    have h1 : 2 / 3 * t ≤ Real.log (1 + t) := by
      refine le_trans ?_ hlog
      rw [le_div_iff₀ (by linarith)]
      nlinarith
    have h2 : 200 ≤ k * Real.log (1 + t) := by
      have hk0 : (0:ℝ) ≤ k := Nat.cast_nonneg k
      have h3 := mul_le_mul_of_nonneg_left h1 hk0
      have h4 : 150 ≤ (k:ℝ) * (k + 1) / n := by rw [le_div_iff₀ hn0]; exact_mod_cast hkn
      have e : (k:ℝ) * (2 / 3 * t) = 4 / 3 * (k * (k + 1) / n) := by rw [ht]; ring
      linarith
    have h5 : (1 + t) ^ k = Real.exp (k * Real.log (1 + t)) := by
      rw [Real.exp_nat_mul, Real.exp_log (by linarith)]
    rw [h5]
    refine le_trans ?_ (exp200.trans (Real.exp_le_exp.2 h2))
    have h6 : (n:ℝ) ^ 4 ≤ 2000000000 ^ 4 := pow_le_pow_left₀ hn0.le (by exact_mod_cast hn2) 4
    norm_num at h6 ⊢
    linarith

theorem jCond_big {n : ℕ} (hn : 200 ≤ n) (hn2 : n ≤ 2000000000) : jCond n (2 * ((n + Nat.sqrt (160 * n)) / 2) - n) (2 * ((n + Nat.sqrt (160 * n)) / 2)) := by
  set s := Nat.sqrt (160 * n) with hs
  have a : s * s ≤ 160 * n := Nat.sqrt_le (160 * n)
  have c : 160 * n < (s + 1) * (s + 1) := Nat.lt_succ_sqrt (160 * n)
  have s178 : 178 ≤ s := Nat.le_sqrt.2 (by omega)
  have sn : s ≤ n := by nlinarith
  set m := 2 * ((n + s) / 2) with hm
  obtain ⟨k, hk⟩ : ∃ k, m = n + k := ⟨m - n, by omega⟩
  rw [hk, show n + k - n = k by omega]
  have ks : s ≤ k + 1 := by omega
  have kn : k ≤ n := by omega
  have hkk : 150 * n ≤ k * (k + 1) := by
    have : (s - 1) * s ≤ k * (k + 1) := Nat.mul_le_mul (by omega) ks
    obtain ⟨r, hr⟩ : ∃ r, s = r + 1 := ⟨s - 1, by omega⟩
    rw [hr] at this a c s178 sn
    rw [show r + 1 - 1 = r by omega] at this
    nlinarith
  have hg := jgrow hn hn2 (by omega : 177 ≤ k) hkk
  have hsq := jP_sq n k
  have hn0 : (0:ℝ) < n := by exact_mod_cast (by omega : 0 < n)
  -- the ratio
  have h1 : (8e13 * (n:ℝ) ^ 2) * (n:ℝ) ^ k ≤ jP n k := by
    have h2 : ((n:ℝ) * (n + 2 * (k + 1))) ^ k ≤ (jP n k : ℝ) * jP n k := by exact_mod_cast hsq
    have e : ((n:ℝ) * (n + 2 * (k + 1))) ^ k = ((n:ℝ) ^ k) ^ 2 * (1 + 2 * (k + 1) / n) ^ k := by
      rw [← pow_mul, mul_comm k 2, pow_mul, ← mul_pow]; congr 1; field_simp
    rw [e] at h2
    have h3 : (8e13 * (n:ℝ) ^ 2 * (n:ℝ) ^ k) ^ 2 ≤ (jP n k : ℝ) ^ 2 := by
      rw [sq (jP n k : ℝ)]
      refine le_trans ?_ h2
      rw [mul_pow, mul_comm]
      refine mul_le_mul_of_nonneg_left (le_trans (le_of_eq ?_) hg) (by positivity)
      norm_num; ring
    exact le_of_sq_le_sq h3 (by positivity)
  unfold jCond
  rw [jP]
  have h4 : ((n ^ k * (2 * (n + 2 * (k + 1)) + (3 * (n + k) ^ 2 + n) * n) * (5 * 10 ^ 12) : ℕ) : ℝ) ≤ ((jP n k * (n + 2 * (k + 1)) : ℕ) : ℝ) := by
    push_cast
    have hw : (0:ℝ) < n + 2 * (k + 1) := by positivity
    have kn' : (k:ℝ) ≤ n := by exact_mod_cast kn
    have n200 : (200:ℝ) ≤ n := by exact_mod_cast hn
    have h5 : (2 * ((n:ℝ) + 2 * (k + 1)) + (3 * (n + k) ^ 2 + n) * n) * (5 * 10 ^ 12) ≤ 8e13 * (n:ℝ) ^ 2 * (n + 2 * (k + 1)) := by
      have h6 : (n:ℝ) ≤ n + 2 * (k + 1) := by linarith [(Nat.cast_nonneg k : (0:ℝ) ≤ k)]
      have h7 : (3 * ((n:ℝ) + k) ^ 2 + n) * n ≤ (13 * (n:ℝ) ^ 2) * (n + 2 * (k + 1)) := by
        refine mul_le_mul ?_ h6 hn0.le (by positivity)
        have : ((n:ℝ) + k) ^ 2 ≤ (2 * n) ^ 2 := pow_le_pow_left₀ (by positivity) (by linarith) 2
        nlinarith
      have h8 : 2 * ((n:ℝ) + 2 * (k + 1)) ≤ (n:ℝ) ^ 2 * (n + 2 * (k + 1)) := mul_le_mul_of_nonneg_right (by nlinarith) hw.le
      norm_num
      linarith
    calc _ = (n:ℝ) ^ k * ((2 * (n + 2 * (k + 1)) + (3 * (n + k) ^ 2 + n) * n) * (5 * 10 ^ 12)) := by ring
      _ ≤ (n:ℝ) ^ k * (8e13 * (n:ℝ) ^ 2 * (n + 2 * (k + 1))) := mul_le_mul_of_nonneg_left h5 (by positivity)
      _ = 8e13 * (n:ℝ) ^ 2 * (n:ℝ) ^ k * (n + 2 * (k + 1)) := by ring
      _ ≤ _ := mul_le_mul_of_nonneg_right h1 hw.le
  exact_mod_cast h4

/-- the truncation error of the program's starting order -/
theorem jstart_ok {x : ℝ} {n M : ℕ} (hx : 0 < x) (hn : x ≤ n) (h2 : 2 ≤ n) (hn2 : n ≤ 2000000000) (hM : M = (n + Nat.sqrt (160 * n)) / 2) :
    2 * besselJR (2 * M) x + 3 * (2 * M : ℕ) ^ 2 * besselJR (2 * M + 1) x + n * besselJR (2 * M + 1) x / besselJR n x ≤ 2e-13 := by
  have hs : 1 ≤ Nat.sqrt (160 * n) := Nat.le_sqrt.2 (by omega)
  have hc : jCond n (2 * M - n) (2 * M) := by
    rw [hM]
    rcases Nat.lt_or_ge n 200 with h | h
    · exact jCond_small h2 h
    · exact jCond_big h hn2
  obtain ⟨k, hk⟩ : ∃ k, 2 * M = n + k := ⟨2 * M - n, by omega⟩
  rw [hk, show n + k - n = k by omega] at hc
  rw [hk]
  have hn0 : (0:ℝ) < n := by exact_mod_cast (by omega : 0 < n)
  have pn := J_pos hx hn
  have p1 : besselJR n x ≤ 1 := (le_abs_self _).trans (J_abs_le_one n x)
  have d0 := J_decay hx hn k
  have d1 := J_decay hx hn (k + 1)
  rw [← jP_eq] at d0 d1
  have q0 : (0:ℝ) < jP n k := by exact_mod_cast jP_pos n k
  have q1 : (0:ℝ) < jP n (k + 1) := by exact_mod_cast jP_pos n (k + 1)
  have e0 : besselJR (n + k) x ≤ (n:ℝ) ^ k / jP n k * besselJR n x := by rw [div_mul_eq_mul_div, le_div_iff₀ q0]; exact d0
  have e1 : besselJR (n + k + 1) x ≤ (n:ℝ) ^ (k + 1) / jP n (k + 1) * besselJR n x := by rw [div_mul_eq_mul_div, le_div_iff₀ q1]; exact d1
  have r0 : (0:ℝ) ≤ (n:ℝ) ^ k / jP n k := by positivity
  have r1 : (0:ℝ) ≤ (n:ℝ) ^ (k + 1) / jP n (k + 1) := by positivity
  have e0' : besselJR (n + k) x ≤ (n:ℝ) ^ k / jP n k := e0.trans (mul_le_of_le_one_right r0 p1)
  have e1' : besselJR (n + k + 1) x ≤ (n:ℝ) ^ (k + 1) / jP n (k + 1) := e1.trans (mul_le_of_le_one_right r1 p1)
  have e2 : n * besselJR (n + k + 1) x / besselJR n x ≤ n * ((n:ℝ) ^ (k + 1) / jP n (k + 1)) := by
    rw [div_le_iff₀ pn, mul_assoc]; exact mul_le_mul_of_nonneg_left e1 hn0.le
  have e3 : 3 * ((n + k : ℕ):ℝ) ^ 2 * besselJR (n + k + 1) x ≤ 3 * ((n + k : ℕ):ℝ) ^ 2 * ((n:ℝ) ^ (k + 1) / jP n (k + 1)) :=
    mul_le_mul_of_nonneg_left e1' (by positivity)
  have hc' : ((n ^ k * (2 * (n + 2 * (k + 1)) + (3 * (n + k) ^ 2 + n) * n) * (5 * 10 ^ 12) : ℕ) : ℝ) ≤ jP n (k + 1) := by exact_mod_cast hc
  have ej : ((jP n (k + 1) : ℕ):ℝ) = jP n k * (n + 2 * (k + 1)) := by rw [jP]; push_cast; ring
  have e4 : (n:ℝ) ^ k / jP n k = (n:ℝ) ^ k * (n + 2 * (k + 1)) / jP n (k + 1) := by
    rw [ej]
    have : ((n:ℝ) + 2 * (k + 1)) ≠ 0 := by positivity
    field_simp
  have e5 : 2 * ((n:ℝ) ^ k / jP n k) + 3 * ((n + k : ℕ):ℝ) ^ 2 * ((n:ℝ) ^ (k + 1) / jP n (k + 1)) + n * ((n:ℝ) ^ (k + 1) / jP n (k + 1)) ≤ 2e-13 := by
    rw [e4]
    have : 2 * ((n:ℝ) ^ k * (n + 2 * (k + 1)) / jP n (k + 1)) + 3 * ((n + k : ℕ):ℝ) ^ 2 * ((n:ℝ) ^ (k + 1) / jP n (k + 1)) + n * ((n:ℝ) ^ (k + 1) / jP n (k + 1)) =
      ((n:ℝ) ^ k * (2 * (n + 2 * (k + 1)) + (3 * (n + k) ^ 2 + n) * n)) / jP n (k + 1) := by push_cast; ring
    rw [this, div_le_iff₀ q1]
    push_cast at hc'
    norm_num at hc' ⊢
    linarith
  linarith

end Bes
end Verif
