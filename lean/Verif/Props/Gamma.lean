import Verif.Proofs.Gamma2
import Verif.Proofs.GammaReal
import Verif.Props.Factorial

/-!
# Properties of `gamma` (src/gamma.rs): C08–C13

`gamma z : M F64` is the transcription of the Rust function.  All theorems hold for both settings of the `fma` target feature and
of overflow checks (`[Cfg]`).
-/

namespace Verif
open F64
variable [Cfg]

/-! ## C08 -/

/-- C08: `gamma(±0) = ±∞`. -/
theorem gamma_at_zero : Returns (gamma (0.0 : F64)) inf ∧ Returns (gamma (-0.0 : F64)) ninf := by
  have a : sinf (0.0 : F64).neg = inf := by decide +kernel
  have b : sinf (-0.0 : F64).neg = ninf := by decide +kernel
  have h1 := gamma_zero (z := 0.0) (by decide +kernel)
  have h2 := gamma_zero (z := -0.0) (by decide +kernel)
  rw [a] at h1; rw [b] at h2
  exact ⟨h1, h2⟩

/-- C08: NaN at NaN, at `-∞` and at every negative integer. -/
theorem gamma_poles (z : F64) (h : z.isNaN = true ∨ z = ninf ∨ (z.IsInt ∧ z.val < 0)) : Returns (gamma z) nan := by
  rcases h with h | h | h
  · exact gamma_nan h
  · rw [h]; exact gamma_ninf
  · exact gamma_negint h.1 h.2

/-- C08: `+∞` above `171.6243769563027` (also at `+∞`). -/
theorem gamma_overflow (z : F64) (h : F64.lt 171.6243769563027 z = true) : Returns (gamma z) inf :=
  gamma_big (lt_iff.1 h).2.1 (lt_iff.1 h).2.2

example : (-3.0 : F64).IsInt ∧ (-3.0 : F64).val < 0 := by
  have h : (-3.0 : F64).val = -3 := by rw [val_neg, lit3_val]
  exact ⟨⟨by decide +kernel, -3, by rw [h]; norm_num⟩, by rw [h]; norm_num⟩
example : F64.lt 171.6243769563027 172.0 = true ∧ F64.lt 171.6243769563027 inf = true := by decide +kernel

/-! ## C09, C11 -/

/-- C11: `gamma` always returns: its loops end within the model's budget of 250 iterations, and nothing panics. -/
theorem gamma_returns (z : F64) : ∃ v, Returns (gamma z) v ∧
    (v.isNaN = true ↔ z.isNaN = true ∨ z = ninf ∨ (z.IsInt ∧ z.val < 0)) := by
  by_cases hp : z.isNaN = true ∨ z = ninf ∨ (z.IsInt ∧ z.val < 0)
  · exact ⟨nan, gamma_poles z hp, by simp only [hp, iff_true]; decide⟩
  · suffices h : ∃ v, gamma z = .ok v ∧ v.isNaN = false by
      obtain ⟨v, h1, h2⟩ := h
      exact ⟨v, h1, by simp only [hp, h2, iff_false]; decide⟩
    push Not at hp
    obtain ⟨p1, p2, p3⟩ := hp
    have hnn : z.isNaN = false := by simpa using p1
    rcases lt_or_ge (GAMMA_MAX_INPUT : F64).val z.val with hbig | hle
    · exact ⟨inf, gamma_big hnn hbig, by decide⟩
    have hfin : z.isFin = true := by
      rcases fin_or_inf hnn with h | h
      · exact h
      · exfalso
        have e := isInf_cases h
        cases hs : z.neg
        · rw [hs] at e
          have : z.val = HUGE := by rw [e]; exact inf_val
          have := HUGE_ge; have := gmax_val_le
          have : (172:ℝ) ≤ 10^200 := by norm_num
          linarith
        · rw [hs] at e; exact p2 e
    by_cases hi : z.IsInt
    · obtain ⟨i, hi'⟩ := hi.2
      have h0 := p3 hi
      rcases eq_or_lt_of_le h0 with hz | hpos
      · refine ⟨_, gamma_zero (val_eq_zero.1 hz.symm), ?_⟩
        cases z.neg <;> decide
      · have hi0 : 0 < i := by rw [hi'] at hpos; exact_mod_cast hpos
        obtain ⟨k, rfl⟩ := Int.eq_ofNat_of_zero_le hi0.le
        have hk : k ≤ 171 := by
          have h1 := gmax_val_le
          have : (k:ℝ) < 172 := by rw [hi', Int.cast_natCast] at hle; linarith
          have : k < 172 := by exact_mod_cast this
          omega
        rw [gamma_posint k (by omega) hk (by rw [hi', Int.cast_natCast])]
        obtain ⟨v, v1, v2, _⟩ := factorial_f64_lower (k-1) (by have : (231:ℕ) ≤ USIZE_MAX := by decide
                                                               omega)
        exact ⟨v, v1, v2⟩
    · rcases lt_trichotomy z.val 0 with h0 | h0 | h0
      · obtain ⟨v, v1, v2, _⟩ := gamma_neg_nonint hfin hi h0; exact ⟨v, v1, v2⟩
      · exact absurd ⟨hfin, 0, by rw [h0]; simp⟩ hi
      · obtain ⟨v, v1, v2, _⟩ := gamma_pos_nonint hfin hi h0 hle; exact ⟨v, v1, v2⟩

/-- C09: `gamma(z)` is NaN if and only if `z` is NaN, `-∞` or a negative integer. -/
theorem gamma_nan_iff (z v : F64) (h : Returns (gamma z) v) :
    v.isNaN = true ↔ z.isNaN = true ∨ z = ninf ∨ (z.IsInt ∧ z.val < 0) := by
  obtain ⟨w, h1, h2⟩ := gamma_returns z
  unfold Returns at h h1
  rw [h] at h1
  cases h1
  exact h2

/-! ## C10 -/

/-- C10: at the integers `1 … 171`, `gamma` is the `factorial` of the same crate, bit for bit, … -/
theorem gamma_int (k : Nat) (h1 : 1 ≤ k) (h2 : k ≤ 171) (z : F64) (hz : z.val = k) :
    gamma z = factorial (α := F64) (k - 1) := gamma_posint k h1 h2 hz

/-- … hence within relative error `2^-50` of `(k-1)!`. -/
theorem gamma_int_accurate (k : Nat) (h1 : 1 ≤ k) (h2 : k ≤ 171) (z : F64) (hz : z.val = k) :
    ∃ v : F64, Returns (gamma z) v ∧ |v.val - Nat.factorial (k-1)| ≤ Nat.factorial (k-1) * 2^(-50 : ℤ) := by
  obtain ⟨v, v1, v2, v3⟩ := factorial_accurate (k-1) (by omega)
  exact ⟨v, by rw [gamma_int k h1 h2 z hz]; exact v1, v3⟩

example : (ofNat 171).val = (171 : ℕ) := by rw [(ofNat_spec 171).2.1, RN_nat 171 (by norm_num)]

/-! ## C12 -/

/-- C12: `gamma(z) > 0` for every `z > 0`. -/
theorem gamma_pos (z : F64) (hz : z.isNaN = false) (h0 : 0 < z.val) :
    ∃ v, Returns (gamma z) v ∧ v.isNaN = false ∧ 0 < v.val := by
  rcases lt_or_ge (GAMMA_MAX_INPUT : F64).val z.val with hbig | hle
  · exact ⟨inf, gamma_big hz hbig, by decide, by rw [inf_val]; exact HUGE_pos⟩
  have hfin : z.isFin = true := isFin_of_abs (b := 172) (by
    rw [abs_of_pos h0]; linarith [gmax_val_le]) (by norm_num)
  by_cases hi : z.IsInt
  · obtain ⟨i, hi'⟩ := hi.2
    have hi0 : 0 < i := by rw [hi'] at h0; exact_mod_cast h0
    obtain ⟨k, rfl⟩ := Int.eq_ofNat_of_zero_le hi0.le
    have hk : k ≤ 171 := by
      have h1 := gmax_val_le
      have : (k:ℝ) < 172 := by rw [hi', Int.cast_natCast] at hle; linarith
      have : k < 172 := by exact_mod_cast this
      omega
    obtain ⟨v, v1, v2, v3, _⟩ := factorial_f64_lower (k-1) (by have : (231:ℕ) ≤ USIZE_MAX := by decide
                                                               omega)
    exact ⟨v, by rw [gamma_int k (by omega) hk z (by rw [hi', Int.cast_natCast])]; exact v1, v2, by linarith⟩
  · exact gamma_pos_nonint hfin hi h0 hle

/-- C12: for a negative non-integer `z` the result is a zero or has the sign `(-1)^⌈|z|⌉` of the true function
(`neg` is the sign bit; infinite results included). -/
theorem gamma_neg_sign (z : F64) (hz : z.isFin = true) (hi : ¬ z.IsInt) (h0 : z.val < 0) :
    ∃ v, Returns (gamma z) v ∧ v.isNaN = false ∧ (v.isZero = true ∨ (v.neg = true ↔ Odd ⌈|z.val|⌉₊)) := by
  obtain ⟨v, v1, v2, v3⟩ := gamma_neg_nonint hz hi h0
  refine ⟨v, v1, v2, v3.imp_right fun h => ?_⟩
  rw [h, decide_eq_true_iff, Nat.odd_iff]

example : (-2.5 : F64).isFin = true ∧ ¬ (-2.5 : F64).IsInt ∧ (-2.5 : F64).val < 0 := by
  have h : (-2.5 : F64).val = -(5/2) := by rw [val_neg, lit25_val]
  refine ⟨by decide +kernel, ?_, by rw [h]; norm_num⟩
  rintro ⟨_, i, hi⟩
  rw [h] at hi
  have h2 : (-5 : ℝ) = 2 * i := by linarith
  have h3 : (-5 : ℤ) = 2 * i := by exact_mod_cast h2
  omega

/-! ## C13 -/

/-- C13: in exact arithmetic the program obeys `gamma(z+1) = z·gamma(z)`, except at its poles and at the three points where two
different approximants meet. -/
theorem gamma_functional_equation (z : ℝ) (h1 : -240 < z) (h2 : z ≤ 170) (hpole : ¬ ∃ n : ℕ, z = -n)
    (e1 : z ≠ 1.5) (e2 : z ≠ 2.5) (e3 : z ≠ 3.5) :
    ∃ g : ℝ, Returns (gamma z) g ∧ Returns (gamma (z + 1)) (z * g) :=
  gamma_feq z h1 h2 hpole e1 e2 e3

example : ¬ ∃ n : ℕ, (-0.5 : ℝ) = -n := by
  rintro ⟨n, h⟩
  have h2 : (1:ℝ) = 2 * n := by norm_num at h; linarith
  have h3 : (1:ℕ) = 2 * n := by exact_mod_cast h2
  omega

end Verif
