import Verif.Proofs.Bessel
import Verif.Proofs.Faddeeva
import Verif.Proofs.Factorial
import Verif.Proofs.Gcf

/-! # Lemmas on src/bessel.rs: starting orders -/

namespace Verif
open F64

/-- `sqrt(k as f64)` truncated is the integer square root -/
theorem toU_sqrt {y : F64} {k : ℕ} (hk0 : 0 < k) (hk : k < 2^42) (hf : y.isFin = true) (hy : y.val = k) :
    F64.toUnsigned U32_MAX (F64.sqrt y) = Nat.sqrt k := by
  obtain ⟨s1, s2, s3⟩ := sqrt_spec hf (by rw [hy]; exact_mod_cast hk0)
  rw [hy] at s2
  set m := Nat.sqrt k with hm
  have hm1 : m * m ≤ k := Nat.sqrt_le k
  have hm2 : k + 1 ≤ (m+1) * (m+1) := Nat.lt_succ_sqrt k
  have hm21 : m < 2^21 := by
    by_contra h
    have : 2^21 * 2^21 ≤ m * m := Nat.mul_le_mul (not_lt.1 h) (not_lt.1 h)
    omega
  have lo : (m:ℝ) ≤ (F64.sqrt y).val := by
    rw [s2, ← RN_nat m (by omega)]
    apply RN_mono
    apply Real.le_sqrt_of_sq_le
    rw [sq]; exact_mod_cast hm1
  have hi : (F64.sqrt y).val < m + 1 := by
    have e : RN (((m:ℝ) + 1) - 1 / 2^23) = ((m:ℝ) + 1) - 1 / 2^23 := by
      have := RN_dyadic (((m:ℤ) + 1) * 2^23 - 1) (-23) (by
        rw [abs_of_nonneg (by nlinarith)]
        have : (m:ℤ) < 2^21 := by exact_mod_cast hm21
        nlinarith) (by norm_num) (by
        refine le_trans ?_ HUGE_ge
        have : (m:ℝ) < 2^21 := by exact_mod_cast hm21
        push_cast
        have h0 : (0:ℝ) ≤ m := by positivity
        rw [abs_of_nonneg (by
          apply mul_nonneg _ (by positivity)
          nlinarith)]
        have : ((2:ℝ)^(-23:ℤ)) = 1 / 2^23 := by norm_num
        rw [this]
        have : (((m:ℝ) + 1) * 2^23 - 1) * (1 / 2^23) ≤ (m:ℝ) + 1 := by
          have : (((m:ℝ) + 1) * 2^23 - 1) * (1 / 2^23) = (m:ℝ) + 1 - 1/2^23 := by ring
          rw [this]; norm_num
        have h10 : (2:ℝ)^21 + 1 ≤ 10^200 := by norm_num
        linarith)
      have e2 : ((((m:ℤ) + 1) * 2^23 - 1 : ℤ) : ℝ) * (2:ℝ)^(-23:ℤ) = ((m:ℝ) + 1) - 1 / 2^23 := by
        push_cast
        have : ((2:ℝ)^(-23:ℤ)) = 1 / 2^23 := by norm_num
        rw [this]; ring
      rw [e2] at this
      exact this
    have : (F64.sqrt y).val ≤ ((m:ℝ) + 1) - 1 / 2^23 := by
      rw [s2, ← e]
      apply RN_mono
      have hmr : (m:ℝ) + 1 ≤ 2^21 := by exact_mod_cast hm21
      have h0 : (0:ℝ) ≤ m := by positivity
      rw [Real.sqrt_le_left (by
        have : (1:ℝ) / 2^23 ≤ 1 := by norm_num
        linarith)]
      have hkr : (k:ℝ) + 1 ≤ ((m:ℝ)+1) * ((m:ℝ)+1) := by exact_mod_cast hm2
      nlinarith [sq_nonneg ((1:ℝ)/2^23)]
    have h2 : (0:ℝ) < 1 / 2^23 := by positivity
    linarith
  have hsf : (F64.sqrt y).isFin = true := by
    rw [isFin_iff_val, abs_of_nonneg (le_trans (by positivity) lo)]
    refine lt_of_lt_of_le hi (le_trans ?_ HUGE_ge)
    have : (m:ℝ) + 1 ≤ 2^21 := by exact_mod_cast hm21
    exact le_trans this (by norm_num)
  rw [toUnsigned_spec hsf (le_trans (by positivity) lo)]
  have hfl : ⌊(F64.sqrt y).val⌋₊ = m := (Nat.floor_eq_iff (le_trans (by positivity) lo)).2 ⟨lo, hi⟩
  rw [hfl]
  have : m ≤ U32_MAX := by have : (2:ℕ)^21 ≤ U32_MAX := by decide
                           omega
  exact Nat.min_eq_left this

theorem startArg {n : ℕ} (hn : n ≤ U32_MAX) {c : F64} {q : ℕ} (hq : q ≤ 200) (hc : c.isFin = true) (hcv : c.val = q) :
    (c * F64.ofNat n).isFin = true ∧ (c * F64.ofNat n).val = ((q * n : ℕ) : ℝ) := by
  have hn' : n < 2^32 := by have : U32_MAX = 2^32 - 1 := rfl
                            omega
  obtain ⟨f1, v1⟩ := ofNat_val (n := n) (by omega)
  have S := mul_spec hc f1
  have hle : q * n < 2^42 := by
    calc q * n ≤ 200 * n := Nat.mul_le_mul_right _ hq
      _ < 2^42 := by omega
  have hv : (c * F64.ofNat n).val = ((q * n : ℕ) : ℝ) := by
    rw [S.2.1, hcv, v1, ← Nat.cast_mul, RN_nat (q * n) (by omega)]
  refine ⟨?_, hv⟩
  rw [isFin_iff_val, hv, abs_of_nonneg (by positivity)]
  refine lt_of_lt_of_le ?_ HUGE_ge
  have : ((q * n : ℕ) : ℝ) < 2^42 := by exact_mod_cast hle
  exact lt_of_lt_of_le this (by norm_num)

theorem mul_u32_lt {n q : ℕ} (hn : n ≤ U32_MAX) (hq : q ≤ 200) : q * n < 2^42 := by
  have hn' : n < 2^32 := by have : U32_MAX = 2^32 - 1 := rfl
                            omega
  calc q * n ≤ 200 * n := Nat.mul_le_mul_right _ hq
    _ < 2^42 := by omega

theorem jnStart_eq [Cfg] {n : ℕ} (h0 : 0 < n) (hn : n ≤ U32_MAX) :
    jnStart F64 n = (wrapU U32_MAX (n + Nat.sqrt (160 * n))).bind fun s => .ok (2 * (s / 2)) := by
  unfold jnStart
  have h := startArg hn (c := 160.0) (q := 160) (by norm_num) (by decide +kernel) (val_of_int 160 (by decide +kernel))
  simp only [ar_ofNat, ar_sqrt, ar_toU]
  rw [toU_sqrt (by omega) (mul_u32_lt hn (by norm_num)) h.1 h.2]
  rfl

theorem inStart_eq [Cfg] {n : ℕ} (h0 : 0 < n) (hn : n ≤ U32_MAX) :
    inStart F64 n = (wrapU U32_MAX (n + Nat.sqrt (200 * n))).bind fun s => wrapU U32_MAX (2 * s) := by
  unfold inStart
  have h := startArg hn (c := 200.0) (q := 200) (by norm_num) (by decide +kernel) (val_of_int 200 (by decide +kernel))
  simp only [ar_ofNat, ar_sqrt, ar_toU]
  rw [toU_sqrt (by omega) (mul_u32_lt hn (by norm_num)) h.1 h.2]
  rfl

theorem wrapU_panic_iff [C : Cfg] (mx r : ℕ) : wrapU mx r = .error .panic ↔ Cfg.checks = true ∧ mx < r := by
  unfold wrapU
  by_cases h : r ≤ mx
  · rw [if_pos h]; constructor
    · intro e; exact absurd e (by rintro ⟨⟩)
    · rintro ⟨-, h'⟩; omega
  · rw [if_neg h]
    rcases hc : (Cfg.checks : Bool) with _ | _
    · simp [hc]
    · simp [hc]; omega

theorem wrapU_cases [C : Cfg] (mx r : ℕ) : wrapU mx r = .error .panic ∨ ∃ v, wrapU mx r = .ok v := by
  unfold wrapU
  split
  · exact Or.inr ⟨_, rfl⟩
  · split
    · exact Or.inl rfl
    · exact Or.inr ⟨_, rfl⟩

theorem wrapU_ok [C : Cfg] {mx r : ℕ} (h : r ≤ mx) : wrapU mx r = .ok r := by
  unfold wrapU; exact if_pos h

theorem jnStart_panic_iff [Cfg] {n : ℕ} (h0 : 0 < n) (hn : n ≤ U32_MAX) :
    jnStart F64 n = .error .panic ↔ Cfg.checks = true ∧ U32_MAX < n + Nat.sqrt (160 * n) := by
  rw [jnStart_eq h0 hn, ← wrapU_panic_iff]
  rcases wrapU_cases U32_MAX (n + Nat.sqrt (160 * n)) with h | ⟨v, h⟩
  · rw [h]; exact ⟨fun _ => rfl, fun _ => rfl⟩
  · rw [h]; exact ⟨fun e => (nomatch e), fun e => (nomatch e)⟩

theorem jnStart_cases [Cfg] {n : ℕ} (h0 : 0 < n) (hn : n ≤ U32_MAX) : jnStart F64 n = .error .panic ∨ ∃ v, jnStart F64 n = .ok v := by
  rw [jnStart_eq h0 hn]
  rcases wrapU_cases U32_MAX (n + Nat.sqrt (160 * n)) with h | ⟨v, h⟩
  · rw [h]; exact Or.inl rfl
  · rw [h]; exact Or.inr ⟨_, rfl⟩

theorem inStart_panic_iff [Cfg] {n : ℕ} (h0 : 0 < n) (hn : n ≤ U32_MAX) :
    inStart F64 n = .error .panic ↔ Cfg.checks = true ∧ U32_MAX < 2 * (n + Nat.sqrt (200 * n)) := by
  rw [inStart_eq h0 hn]
  by_cases h : n + Nat.sqrt (200 * n) ≤ U32_MAX
  · rw [wrapU_ok h]
    exact wrapU_panic_iff _ _
  · rcases wrapU_cases U32_MAX (n + Nat.sqrt (200 * n)) with h' | ⟨v, h'⟩
    · rw [h']
      refine ⟨fun _ => ⟨((wrapU_panic_iff _ _).1 h').1, by omega⟩, fun _ => rfl⟩
    · rw [h']
      have hc : ¬ Cfg.checks = true := fun hc => by
        rw [(wrapU_panic_iff _ _).2 ⟨hc, by omega⟩] at h'; cases h'
      constructor
      · intro e; exact absurd ((wrapU_panic_iff _ _).1 e).1 hc
      · intro e; exact absurd e.1 hc

theorem inStart_cases [Cfg] {n : ℕ} (h0 : 0 < n) (hn : n ≤ U32_MAX) : inStart F64 n = .error .panic ∨ ∃ v, inStart F64 n = .ok v := by
  rw [inStart_eq h0 hn]
  rcases wrapU_cases U32_MAX (n + Nat.sqrt (200 * n)) with h | ⟨v, h⟩
  · rw [h]; exact Or.inl rfl
  · rw [h]; exact wrapU_cases _ _

end Verif
