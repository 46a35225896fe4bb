import Verif.Proofs.Poly
import Verif.Proofs.Factorial
import Verif.Model.Gamma

/-! Lemmas about the model of `gamma` at `F64`. -/

namespace Verif
open F64

theorem lit35_val : (3.5 : F64).val = 7/2 := by
  rw [val_of_sv (x := (3.5 : F64)) 7 2 (by norm_num) (by decide +kernel)]; norm_num
theorem lit25_val : (2.5 : F64).val = 5/2 := by
  rw [val_of_sv (x := (2.5 : F64)) 5 2 (by norm_num) (by decide +kernel)]; norm_num
theorem lit3_val : (3.0 : F64).val = 3 := by
  rw [val_of_int (x := (3.0 : F64)) 3 (by decide +kernel)]; norm_num
theorem lit35_nn : (3.5 : F64).isNaN = false := by decide +kernel
theorem lit25_nn : (2.5 : F64).isNaN = false := by decide +kernel
theorem lit3_nn : (3.0 : F64).isNaN = false := by decide +kernel
theorem one_nn : (1.0 : F64).isNaN = false := by decide +kernel

theorem RN_half (i : ℤ) (h : |i| ≤ 2^53) : RN ((i:ℝ)/2) = (i:ℝ)/2 := by
  have e : (i:ℝ)/2 = (i:ℝ) * 2^(-1:ℤ) := by rw [zpow_neg_one, div_eq_mul_inv]
  rw [e]
  refine RN_dyadic _ _ h (by norm_num) ?_
  have := HUGE_ge
  have h1 : |(i:ℝ)| ≤ 2^53 := by exact_mod_cast h
  rw [abs_mul, zpow_neg_one, abs_of_pos (by norm_num : (0:ℝ) < 2⁻¹)]
  have h3 : (2:ℝ)^53 ≤ 10^200 := by norm_num
  nlinarith [abs_nonneg (i:ℝ)]

theorem isFin_of_abs {a : F64} {b : ℝ} (h : |a.val| ≤ b) (hb : b ≤ 10^200) : a.isFin = true := by
  rw [isFin_iff_val]
  have := HUGE_ge
  rcases lt_or_eq_of_le this with h1 | h1
  · linarith
  · exfalso
    have h2 := HUGE_eq
    rw [h2] at h1
    have h3 : ((10^200 : ℕ) : ℝ) = ((2^1024 : ℕ) : ℝ) := by
      rw [Nat.cast_pow, Nat.cast_pow, Nat.cast_ofNat, Nat.cast_ofNat]; exact h1
    have h4 := Nat.cast_injective h3
    exact absurd h4 (by decide +kernel)

/-! ## the core approximation -/

theorem gammaCore_range [Cfg] {z : F64} (h1 : (5:ℝ)/2 ≤ z.val) (h2 : z.val ≤ 7/2) :
    (gammaCore z).isFin = true ∧ 1 ≤ (gammaCore z).val ∧ (gammaCore z).val ≤ 4 := by
  have hfin : z.isFin = true := isFin_of_abs (b := 4) (by rw [abs_le]; constructor <;> linarith) (by norm_num)
  have hmem : (Iv.mk 1.0 4.0).Mem (gammaCore z) := by
    have d1 : (Iv.mk 2.5 3.5).Mem z := ⟨by rw [lit25_val]; exact h1, by rw [lit35_val]; exact h2⟩
    unfold gammaCore
    rw [ar_lt, ar_lt]
    split
    · rename_i h
      have h3 := (lt_iff.1 h).2.2
      rw [lit3_val] at h3
      refine mem_polynomial (ix := ⟨-0.25, 0.25⟩) _ (by decide +kernel) (by decide +kernel) ?_
      have d : (Iv.mk 3.0 3.5).Mem z := ⟨by rw [lit3_val]; exact h3.le, by rw [lit35_val]; exact h2⟩
      exact Iv.mem_sub' (by decide +kernel) (Iv.mem_sub (by decide +kernel) (by decide +kernel) d (Iv.mem_pt 3.25))
    · split
      · rename_i _ h
        have h3 := (lt_iff.1 h).2.2
        rw [lit3_val] at h3
        refine mem_polynomial (ix := ⟨-0.25, 0.25⟩) _ (by decide +kernel) (by decide +kernel) ?_
        have d : (Iv.mk 2.5 3.0).Mem z := ⟨by rw [lit25_val]; exact h1, by rw [lit3_val]; exact h3.le⟩
        exact Iv.mem_sub' (by decide +kernel) (Iv.mem_sub (by decide +kernel) (by decide +kernel) d (Iv.mem_pt 2.75))
      · exact Iv.mem_sub' (i := Iv.pt 2.0) (by decide +kernel) (Iv.mem_pt 2.0)
  refine ⟨hmem.fin (by decide +kernel), ?_, ?_⟩
  · have := hmem.1; rwa [one_val] at this
  · have := hmem.2
    have h4 : (4.0 : F64).val = 4 := by rw [val_of_int (x := (4.0 : F64)) 4 (by decide +kernel)]; norm_num
    rwa [h4] at this

/-! ## the descending loop -/

theorem sub_one_f64 {z : F64} (h1 : 1 ≤ z.val) (h2 : z.val < 2^53) :
    (z - 1.0).isFin = true ∧ (z - 1.0).val = z.val - 1 := by
  have hz : z.isFin = true := isFin_of_abs (b := 2^53) (by rw [abs_le]; constructor <;> linarith) (by norm_num)
  have h := sub_spec hz one_fin
  rw [one_val, RN_sub_one h1 h2] at h
  exact ⟨isFin_of_abs (b := 2^53) (by rw [h.2, abs_le]; constructor <;> linarith) (by norm_num), h.2⟩

theorem gammaDown_spec (n : Nat) : ∀ (fuel : Nat) (z f : F64), n + 1 ≤ fuel → (5:ℝ)/2 ≤ z.val → z.val < 7/2 + n → z.val < 2^53 →
    f.isNaN = false → 1 ≤ f.val →
    ∃ z' f', gammaDown fuel z f = .ok (z', f') ∧ (5:ℝ)/2 ≤ z'.val ∧ z'.val < 7/2 ∧ f'.isNaN = false ∧ 1 ≤ f'.val := by
  induction n with
  | zero =>
    intro fuel z f hf h1 h2 h2' h3 h4
    obtain ⟨m, rfl⟩ : ∃ m, fuel = m + 1 := ⟨fuel - 1, by omega⟩
    unfold gammaDown
    rw [ar_le]
    have hz : z.isFin = true := isFin_of_abs (b := 2^53) (by rw [abs_le]; constructor <;> linarith) (by norm_num)
    have hlt : z.val < 7/2 := by simpa using h2
    have : F64.le 3.5 z = false := by
      rw [le_false_iff lit35_nn (isFin_notNaN hz), lit35_val]; exact hlt
    rw [this]
    exact ⟨z, f, rfl, h1, hlt, h3, h4⟩
  | succ n ih =>
    intro fuel z f hf h1 h2 h2' h3 h4
    obtain ⟨m, rfl⟩ : ∃ m, fuel = m + 1 := ⟨fuel - 1, by omega⟩
    have hz : z.isFin = true := isFin_of_abs (b := 2^53) (by rw [abs_le]; constructor <;> linarith) (by norm_num)
    rcases lt_or_ge z.val (7/2) with hlt | hge
    · unfold gammaDown
      rw [ar_le]
      have : F64.le 3.5 z = false := by
        rw [le_false_iff lit35_nn (isFin_notNaN hz), lit35_val]; exact hlt
      rw [this]
      exact ⟨z, f, rfl, h1, hlt, h3, h4⟩
    · have : F64.le 3.5 z = true := by
        rw [le_iff, lit35_val]; exact ⟨lit35_nn, isFin_notNaN hz, hge⟩
      unfold gammaDown
      rw [ar_le, this]
      simp only [if_true]
      obtain ⟨s1, s2⟩ := sub_one_f64 (z := z) (by linarith) h2'
      obtain ⟨m1, m2, m3⟩ := mul_ge_one h3 (isFin_notNaN s1) h4 (by rw [s2]; linarith)
      refine ih m (z - 1.0) (f * (z - 1.0)) (by omega) (by rw [s2]; linarith) ?_ (by rw [s2]; linarith) m1 m3
      rw [s2]; push_cast at h2; linarith

/-! ## the ascending loop -/

theorem add_one_f64 {z : F64} (hz : z.isFin = true) : (z + 1.0).isNaN = false ∧ (z + 1.0).val = RN (z.val + 1) := by
  have h := add_spec hz one_fin
  rwa [one_val] at h

/-- stage A: from a positive `z`, at most three steps; the sign of `f` is kept -/
theorem gammaUp_pos (n : Nat) : ∀ (fuel : Nat) (z f : F64), n + 1 ≤ fuel → n ≤ 3 → 3 - (n:ℝ) ≤ z.val → 0 < z.val → z.val ≤ 7/2 →
    f.isFin = true →
    gammaUp fuel z f = .ok none ∨
    ∃ z' f', gammaUp fuel z f = .ok (some (z', f')) ∧ (5:ℝ)/2 ≤ z'.val ∧ z'.val ≤ 7/2 ∧ f'.isFin = true ∧ f'.neg = f.neg := by
  induction n with
  | zero =>
    intro fuel z f hf hn h1 h1' h2 h3
    obtain ⟨m, rfl⟩ : ∃ m, fuel = m + 1 := ⟨fuel - 1, by omega⟩
    have hz : z.isFin = true := isFin_of_abs (b := 4) (by rw [abs_le]; constructor <;> linarith) (by norm_num)
    unfold gammaUp
    have h1'' : (3:ℝ) ≤ z.val := by simpa using h1
    have : F64.le z 2.5 = false := by
      rw [le_false_iff (isFin_notNaN hz) lit25_nn, lit25_val]; linarith
    rw [ar_le, this]
    exact Or.inr ⟨z, f, rfl, by linarith, h2, h3, rfl⟩
  | succ n ih =>
    intro fuel z f hf hn h1 h1' h2 h3
    obtain ⟨m, rfl⟩ : ∃ m, fuel = m + 1 := ⟨fuel - 1, by omega⟩
    have hz : z.isFin = true := isFin_of_abs (b := 4) (by rw [abs_le]; constructor <;> linarith) (by norm_num)
    unfold gammaUp
    rcases lt_or_ge (5/2) z.val with hgt | hle
    · have : F64.le z 2.5 = false := by
        rw [le_false_iff (isFin_notNaN hz) lit25_nn, lit25_val]; exact hgt
      rw [ar_le, this]
      exact Or.inr ⟨z, f, rfl, by linarith, h2, h3, rfl⟩
    · have : F64.le z 2.5 = true := by
        rw [le_iff, lit25_val]; exact ⟨isFin_notNaN hz, lit25_nn, hle⟩
      rw [ar_le, this]
      simp only [if_true]
      rw [ar_isInf]
      obtain ⟨m1, m2, m3⟩ := mul_spec h3 hz
      have hzn := neg_of_val_pos h1'
      rcases fin_or_inf m1 with hfin | hinf
      · rw [isFin_notInf hfin]
        simp only [Bool.false_eq_true, if_false]
        obtain ⟨a1, a2⟩ := add_one_f64 hz
        have b1 : 3 - (n:ℝ) ≤ (z + 1.0).val := by
          rw [a2]
          have e : (3:ℝ) - n = ((3 - n : ℤ) : ℝ) := by push_cast; ring
          rw [e, ← RN_int (3 - (n:ℤ)) (by rw [abs_le]; constructor <;> omega)]
          apply RN_mono
          push_cast at h1 ⊢; linarith
        have b2 : 0 < (z + 1.0).val := by
          rw [a2]
          have := RN_mono (show ((1:ℤ):ℝ) ≤ z.val + 1 by push_cast; linarith)
          rw [RN_int 1 (by norm_num)] at this; push_cast at this; linarith
        have b3 : (z + 1.0).val ≤ 7/2 := by
          rw [a2]
          have := RN_mono (show z.val + 1 ≤ ((7:ℤ):ℝ)/2 by push_cast; linarith)
          rw [RN_half 7 (by norm_num)] at this; push_cast at this; linarith
        have hs : (f * z).neg = f.neg := by rw [m3, hzn]; cases f.neg <;> rfl
        have := ih m (z + 1.0) (f * z) (by omega) (by omega) b1 b2 b3 hfin
        rw [hs] at this
        exact this
      · rw [hinf]; left; rfl

/-- stage A for a positive argument: no overflow -/
theorem gammaUp_pos' (n : Nat) : ∀ (fuel : Nat) (z f : F64), n + 1 ≤ fuel → n ≤ 3 → 3 - (n:ℝ) ≤ z.val → 0 < z.val → z.val ≤ 7/2 →
    f.isNaN = false → f.neg = false → f.val ≤ 4^(3-n) →
    ∃ z' f', gammaUp fuel z f = .ok (some (z', f')) ∧ (5:ℝ)/2 ≤ z'.val ∧ z'.val ≤ 7/2 ∧ f'.isFin = true ∧ f'.neg = false ∧ f'.val ≤ 64 := by
  induction n with
  | zero =>
    intro fuel z f hf hn h1 h1' h2 h3 h4 h5
    obtain ⟨m, rfl⟩ : ∃ m, fuel = m + 1 := ⟨fuel - 1, by omega⟩
    have hz : z.isFin = true := isFin_of_abs (b := 4) (by rw [abs_le]; constructor <;> linarith) (by norm_num)
    have hf0 := val_nonneg_of_neg h4
    have h5' : f.val ≤ 64 := by norm_num at h5; exact h5
    have hff : f.isFin = true := isFin_of_abs (b := 64) (by rw [abs_le]; constructor <;> linarith) (by norm_num)
    unfold gammaUp
    have h1'' : (3:ℝ) ≤ z.val := by simpa using h1
    have : F64.le z 2.5 = false := by
      rw [le_false_iff (isFin_notNaN hz) lit25_nn, lit25_val]; linarith
    rw [ar_le, this]
    exact ⟨z, f, rfl, by linarith, h2, hff, h4, h5'⟩
  | succ n ih =>
    intro fuel z f hf hn h1 h1' h2 h3 h4 h5
    obtain ⟨m, rfl⟩ : ∃ m, fuel = m + 1 := ⟨fuel - 1, by omega⟩
    have hz : z.isFin = true := isFin_of_abs (b := 4) (by rw [abs_le]; constructor <;> linarith) (by norm_num)
    have hf0 := val_nonneg_of_neg h4
    have h64 : (4:ℝ)^(3-(n+1)) ≤ 64 := by
      have : (4:ℝ)^(3-(n+1)) ≤ 4^3 := pow_le_pow_right₀ (by norm_num) (by omega)
      linarith
    have hff : f.isFin = true := isFin_of_abs (b := 64) (by rw [abs_le]; constructor <;> linarith) (by norm_num)
    unfold gammaUp
    rcases lt_or_ge (5/2) z.val with hgt | hle
    · have : F64.le z 2.5 = false := by
        rw [le_false_iff (isFin_notNaN hz) lit25_nn, lit25_val]; exact hgt
      rw [ar_le, this]
      exact ⟨z, f, rfl, by linarith, h2, hff, h4, by linarith⟩
    · have : F64.le z 2.5 = true := by
        rw [le_iff, lit25_val]; exact ⟨isFin_notNaN hz, lit25_nn, hle⟩
      rw [ar_le, this]
      simp only [if_true]
      rw [ar_isInf]
      obtain ⟨m1, m2, m3⟩ := mul_spec hff hz
      have hzn := neg_of_val_pos h1'
      have hs : (f * z).neg = false := by rw [m3, hzn, h4]; rfl
      have hbd : (f * z).val ≤ 4^(3-n) := by
        rw [m2]
        have e : (4:ℝ)^(3-n) = ((4^(3-n) : ℤ) : ℝ) := by push_cast; ring
        have hle4 : (4:ℤ)^(3-n) ≤ 4^3 := pow_le_pow_right₀ (by norm_num) (by omega)
        have hp4 : (0:ℤ) < 4^(3-n) := by positivity
        rw [e, ← RN_int (4^(3-n)) (by rw [abs_of_pos hp4]; exact hle4.trans (by norm_num))]
        apply RN_mono
        have e2 : (4:ℝ)^(3-n) = 4^(3-(n+1)) * 4 := by rw [← pow_succ]; congr 1; omega
        push_cast
        rw [e2]
        nlinarith
      have hnn := val_nonneg_of_neg hs
      have h64' : (4:ℝ)^(3-n) ≤ 64 := by
        have : (4:ℝ)^(3-n) ≤ 4^3 := pow_le_pow_right₀ (by norm_num) (by omega)
        linarith
      have hfin : (f * z).isFin = true := isFin_of_abs (b := 64) (by rw [abs_le]; constructor <;> linarith) (by norm_num)
      rw [isFin_notInf hfin]
      simp only [Bool.false_eq_true, if_false]
      obtain ⟨a1, a2⟩ := add_one_f64 hz
      have b1 : 3 - (n:ℝ) ≤ (z + 1.0).val := by
        rw [a2]
        have e : (3:ℝ) - n = ((3 - n : ℤ) : ℝ) := by push_cast; ring
        rw [e, ← RN_int (3 - (n:ℤ)) (by rw [abs_le]; constructor <;> omega)]
        apply RN_mono
        push_cast at h1 ⊢; linarith
      have b2 : 0 < (z + 1.0).val := by
        rw [a2]
        have := RN_mono (show ((1:ℤ):ℝ) ≤ z.val + 1 by push_cast; linarith)
        rw [RN_int 1 (by norm_num)] at this; push_cast at this; linarith
      have b3 : (z + 1.0).val ≤ 7/2 := by
        rw [a2]
        have := RN_mono (show z.val + 1 ≤ ((7:ℤ):ℝ)/2 by push_cast; linarith)
        rw [RN_half 7 (by norm_num)] at this; push_cast at this; linarith
      exact ih m (z + 1.0) (f * z) (by omega) (by omega) b1 b2 b3 (isFin_notNaN hfin) hs hbd

/-- stage B: from `-n < z < -(n-1)`, the sign of `f` flips `n` times -/
theorem gammaUp_neg (n : Nat) : ∀ (fuel : Nat) (z f : F64), n + 5 ≤ fuel → n < 2^52 → -((n:ℝ)+1) < z.val → z.val < -(n:ℝ) →
    f.isFin = true →
    gammaUp fuel z f = .ok none ∨
    ∃ z' f', gammaUp fuel z f = .ok (some (z', f')) ∧ (5:ℝ)/2 ≤ z'.val ∧ z'.val ≤ 7/2 ∧ f'.isFin = true ∧
      f'.neg = (f.neg != decide ((n+1) % 2 = 1)) := by
  induction n with
  | zero =>
    intro fuel z f hf hn h1 h2 h3
    obtain ⟨m, rfl⟩ : ∃ m, fuel = m + 1 := ⟨fuel - 1, by omega⟩
    simp only [Nat.cast_zero, zero_add, neg_zero] at h1 h2
    have hz : z.isFin = true := isFin_of_abs (b := 4) (by rw [abs_le]; constructor <;> linarith) (by norm_num)
    unfold gammaUp
    have : F64.le z 2.5 = true := by
      rw [le_iff, lit25_val]; exact ⟨isFin_notNaN hz, lit25_nn, by linarith⟩
    rw [ar_le, this]
    simp only [if_true]
    rw [ar_isInf]
    obtain ⟨m1, m2, m3⟩ := mul_spec h3 hz
    rcases fin_or_inf m1 with hfin | hinf
    · rw [isFin_notInf hfin]
      simp only [Bool.false_eq_true, if_false]
      obtain ⟨a1, a2⟩ := add_one_f64 hz
      have b2 : 0 < (z + 1.0).val := by
        rw [a2]
        have := RN_add_pos (a := z) (b := 1.0) (by rw [one_val]; linarith)
        rwa [one_val] at this
      have b3 : (z + 1.0).val ≤ 7/2 := by
        rw [a2]
        have := RN_mono (show z.val + 1 ≤ ((1:ℤ):ℝ) by push_cast; linarith)
        rw [RN_int 1 (by norm_num)] at this; push_cast at this; linarith
      have := gammaUp_pos 3 m (z + 1.0) (f * z) (by omega) (by omega) (by push_cast; linarith) b2 b3 hfin
      rw [m3, neg_of_val_neg h2] at this
      exact this
    · rw [hinf]; left; rfl
  | succ n ih =>
    intro fuel z f hf hn h1 h2 h3
    obtain ⟨m, rfl⟩ : ∃ m, fuel = m + 1 := ⟨fuel - 1, by omega⟩
    have hn' : ((n+1:ℕ):ℝ) ≤ 2^52 := by exact_mod_cast hn.le
    push_cast at h1 h2 hn'
    have hn0 : (0:ℝ) ≤ n := Nat.cast_nonneg n
    have hz : z.isFin = true := isFin_of_abs (b := 2^53) (by rw [abs_le]; constructor <;> norm_num <;> linarith) (by norm_num)
    unfold gammaUp
    have : F64.le z 2.5 = true := by
      rw [le_iff, lit25_val]; exact ⟨isFin_notNaN hz, lit25_nn, by linarith⟩
    rw [ar_le, this]
    simp only [if_true]
    rw [ar_isInf]
    obtain ⟨m1, m2, m3⟩ := mul_spec h3 hz
    rcases fin_or_inf m1 with hfin | hinf
    · rw [isFin_notInf hfin]
      simp only [Bool.false_eq_true, if_false]
      obtain ⟨a1, a2⟩ := add_one_f64 hz
      rw [RN_add_one (by linarith) (by norm_num; linarith)] at a2
      have := ih m (z + 1.0) (f * z) (by omega) (by omega) (by rw [a2]; linarith) (by rw [a2]; linarith) hfin
      rcases this with h | ⟨z', f', h4, h5, h6, h7, h8⟩
      · left; exact h
      · right
        refine ⟨z', f', h4, h5, h6, h7, ?_⟩
        rw [h8, m3, neg_of_val_neg (by linarith : z.val < 0)]
        have : (n+1+1) % 2 = (1 + (n+1) % 2) % 2 := by omega
        rcases Nat.mod_two_eq_zero_or_one (n+1) with h | h <;> rw [this, h] <;> cases f.neg <;> rfl
    · rw [hinf]; left; rfl

theorem HUGE_pow : HUGE ≤ (2:ℝ)^(6*171) := by
  rw [HUGE_eq]; exact pow_le_pow_right₀ (by norm_num) (by norm_num)

theorem RN_pow2 {p : ℕ} (h : p ≤ 1020) : RN ((2:ℝ)^p) = 2^p := by
  have e : (2:ℝ)^p = ((1:ℤ):ℝ) * 2^(p:ℤ) := by rw [zpow_natCast]; push_cast; ring
  rw [e]
  refine RN_dyadic _ _ (by norm_num) (by omega) ?_
  rw [← e, abs_of_pos (by positivity), HUGE_eq]
  exact pow_le_pow_right₀ (by norm_num) (by omega)

theorem RN_HUGE {x : ℝ} (h : HUGE ≤ x) : RN x = HUGE := by
  refine le_antisymm (RN_le_inf _) ?_
  have := RN_mono h
  rwa [← inf_val, RN_val (a := inf) (by decide), inf_val] at this

/-- stage C: far from the origin the product overflows -/
theorem gammaUp_far (k : Nat) : ∀ (fuel : Nat) (z f : F64), k + 1 ≤ fuel → k ≤ 170 → z.isFin = true → z.val ≤ -(64 + k : ℝ) →
    f.isFin = true → (2:ℝ)^(6*(170-k)) ≤ |f.val| → gammaUp fuel z f = .ok none := by
  induction k with
  | zero =>
    intro fuel z f hf hk hz h1 h2 h3
    obtain ⟨m, rfl⟩ : ∃ m, fuel = m + 1 := ⟨fuel - 1, by omega⟩
    simp only [Nat.cast_zero, add_zero] at h1
    unfold gammaUp
    have : F64.le z 2.5 = true := by
      rw [le_iff, lit25_val]; exact ⟨isFin_notNaN hz, lit25_nn, by linarith⟩
    rw [ar_le, this]
    simp only [if_true]
    rw [ar_isInf]
    obtain ⟨m1, m2, m3⟩ := mul_spec h2 hz
    have hinf : (f * z).isInf = true := by
      rw [isInf_iff_val, m2, RN_abs]
      apply RN_HUGE
      refine HUGE_pow.trans ?_
      have hz64 : (2:ℝ)^6 ≤ |z.val| := by rw [abs_of_nonpos (by linarith)]; norm_num; linarith
      rw [abs_mul, show 6*171 = 6*170 + 6 by norm_num, pow_add]
      exact mul_le_mul h3 hz64 (by positivity) (abs_nonneg _)
    rw [hinf]; rfl
  | succ k ih =>
    intro fuel z f hf hk hz h1 h2 h3
    obtain ⟨m, rfl⟩ : ∃ m, fuel = m + 1 := ⟨fuel - 1, by omega⟩
    push_cast at h1
    have hk0 : (0:ℝ) ≤ k := Nat.cast_nonneg k
    unfold gammaUp
    have : F64.le z 2.5 = true := by
      rw [le_iff, lit25_val]; exact ⟨isFin_notNaN hz, lit25_nn, by linarith⟩
    rw [ar_le, this]
    simp only [if_true]
    rw [ar_isInf]
    obtain ⟨m1, m2, m3⟩ := mul_spec h2 hz
    rcases fin_or_inf m1 with hfin | hinf
    · rw [isFin_notInf hfin]
      simp only [Bool.false_eq_true, if_false]
      obtain ⟨a1, a2⟩ := add_one_f64 hz
      have hup : (z + 1.0).val ≤ -(64 + k : ℝ) := by
        rw [a2]
        have e : -(64 + k : ℝ) = ((-(64 + k) : ℤ) : ℝ) := by push_cast; ring
        rw [e, ← RN_int (-(64 + (k:ℤ))) (by rw [abs_le]; constructor <;> omega)]
        apply RN_mono
        push_cast; linarith
      have hzf : (z + 1.0).isFin = true := by
        rw [isFin_iff_val, abs_of_nonpos (by linarith)]
        have h4 := fin_gt hz
        have h5 : z.val ≤ (z + 1.0).val := by
          rw [a2, ← RN_val (isFin_notNaN hz)]
          apply RN_mono; rw [RN_val (isFin_notNaN hz)]; linarith
        linarith
      refine ih m (z + 1.0) (f * z) (by omega) (by omega) hzf hup hfin ?_
      rw [m2, RN_abs, ← RN_pow2 (p := 6*(170-k)) (by omega)]
      apply RN_mono
      have hz64 : (2:ℝ)^6 ≤ |z.val| := by rw [abs_of_nonpos (by linarith)]; norm_num; linarith
      rw [abs_mul, show 6*(170-k) = 6*(170-(k+1)) + 6 by omega, pow_add]
      exact mul_le_mul h3 hz64 (by positivity) (abs_nonneg _)
    · rw [hinf]; rfl

end Verif
