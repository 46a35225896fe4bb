import Verif.Props.Factorial
import Verif.Model.Gamma

/-! The model of `gamma` in exact real arithmetic. -/

namespace Verif

theorem rlt (a b : ℝ) : Arith.lt a b = decide (a < b) := rfl
theorem rle (a b : ℝ) : Arith.le a b = decide (a ≤ b) := rfl
theorem req (a b : ℝ) : Arith.eq a b = decide (a = b) := rfl

theorem gammaDown_fuel (n : Nat) : ∀ (z f : ℝ) (r : ℝ × ℝ), gammaDown n z f = .ok r → gammaDown (n+1) z f = .ok r := by
  induction n with
  | zero => intro z f r h; unfold gammaDown at h; cases h
  | succ n ih =>
    intro z f r h
    unfold gammaDown at h ⊢
    split at h
    · rename_i hc; rw [if_pos hc]; exact ih _ _ _ h
    · rename_i hc; rw [if_neg hc]; exact h

theorem gammaUp_fuel (n : Nat) : ∀ (z f : ℝ) (r : Option (ℝ × ℝ)), gammaUp n z f = .ok r → gammaUp (n+1) z f = .ok r := by
  induction n with
  | zero => intro z f r h; unfold gammaUp at h; cases h
  | succ n ih =>
    intro z f r h
    unfold gammaUp at h ⊢
    split at h
    · rename_i hc; rw [if_pos hc]
      have e : Arith.isInf (f * z) = false := rfl
      simp only [e, Bool.false_eq_true, if_false] at h ⊢
      exact ih _ _ _ h
    · rename_i hc; rw [if_neg hc]; exact h

/-- the descending loop ends, and scales with `f` -/
theorem gammaDown_real (n : Nat) : ∀ (fuel : Nat) (z : ℝ), n + 1 ≤ fuel → z < 7/2 + n →
    ∃ z' g, ∀ f, gammaDown fuel z f = .ok (z', f * g) := by
  induction n with
  | zero =>
    intro fuel z hf h
    obtain ⟨m, rfl⟩ : ∃ m, fuel = m + 1 := ⟨fuel - 1, by omega⟩
    refine ⟨z, 1, fun f => ?_⟩
    unfold gammaDown
    rw [rle, decide_eq_false (by norm_num at h ⊢; linarith), mul_one]; rfl
  | succ n ih =>
    intro fuel z hf h
    obtain ⟨m, rfl⟩ : ∃ m, fuel = m + 1 := ⟨fuel - 1, by omega⟩
    by_cases hc : (3.5:ℝ) ≤ z
    · push_cast at h
      obtain ⟨z', g, hg⟩ := ih m (z - 1.0) (by omega) (by norm_num; linarith)
      refine ⟨z', (z - 1.0) * g, fun f => ?_⟩
      unfold gammaDown
      rw [rle, decide_eq_true hc, if_pos rfl]
      simp only
      rw [hg, mul_assoc]
    · refine ⟨z, 1, fun f => ?_⟩
      unfold gammaDown
      rw [rle, decide_eq_false hc, mul_one]; rfl

/-- the ascending loop ends, and scales with `f` -/
theorem gammaUp_real (n : Nat) : ∀ (fuel : Nat) (z : ℝ), n + 1 ≤ fuel → 5/2 - n < z →
    ∃ z' g, ∀ f, gammaUp fuel z f = .ok (some (z', f * g)) := by
  induction n with
  | zero =>
    intro fuel z hf h
    obtain ⟨m, rfl⟩ : ∃ m, fuel = m + 1 := ⟨fuel - 1, by omega⟩
    refine ⟨z, 1, fun f => ?_⟩
    unfold gammaUp
    rw [rle, decide_eq_false (by norm_num at h ⊢; linarith), mul_one]; rfl
  | succ n ih =>
    intro fuel z hf h
    obtain ⟨m, rfl⟩ : ∃ m, fuel = m + 1 := ⟨fuel - 1, by omega⟩
    by_cases hc : z ≤ (2.5:ℝ)
    · push_cast at h
      obtain ⟨z', g, hg⟩ := ih m (z + 1.0) (by omega) (by norm_num; linarith)
      refine ⟨z', z * g, fun f => ?_⟩
      unfold gammaUp
      rw [rle, decide_eq_true hc, if_pos rfl]
      have e : Arith.isInf (f * z) = false := rfl
      simp only [e, Bool.false_eq_true, if_false]
      rw [hg, mul_assoc]
    · refine ⟨z, 1, fun f => ?_⟩
      unfold gammaUp
      rw [rle, decide_eq_false hc, mul_one]; rfl

variable [Cfg]

theorem real_fract_eq_zero (z : ℝ) : Arith.fract z = (0:ℝ) ↔ ∃ i : ℤ, z = i := by
  show (if 0 ≤ z then Int.fract z else -Int.fract (-z)) = 0 ↔ _
  split
  · rw [Int.fract_eq_zero_iff]
    constructor
    · rintro ⟨i, hi⟩; exact ⟨i, hi.symm⟩
    · rintro ⟨i, hi⟩; exact ⟨i, hi.symm⟩
  · rw [neg_eq_zero, Int.fract_eq_zero_iff]
    constructor
    · rintro ⟨i, hi⟩; exact ⟨-i, by push_cast; linarith⟩
    · rintro ⟨i, hi⟩; exact ⟨-i, by push_cast; linarith⟩

/-- positive integers -/
theorem gamma_real_int (k : ℕ) (h1 : 1 ≤ k) (h2 : k ≤ 171) : gamma (k:ℝ) = .ok (Nat.factorial (k-1) : ℝ) := by
  have hk1 : (1:ℝ) ≤ k := by exact_mod_cast h1
  have hk2 : (k:ℝ) ≤ 171 := by exact_mod_cast h2
  unfold gamma
  rw [rlt, req, req, rlt]
  rw [decide_eq_false (by unfold GAMMA_MAX_INPUT; norm_num; linarith), decide_eq_false (by norm_num; omega)]
  have h0 : (0.0:ℝ) = 0 := by norm_num
  rw [h0, decide_eq_true ((real_fract_eq_zero _).2 ⟨k, by simp⟩), decide_eq_false (by linarith)]
  simp only [Bool.false_eq_true, if_false, if_true]
  have hu : (Arith.toU USIZE_MAX (k:ℝ)) = k := by
    show Nat.min ⌊(k:ℝ)⌋₊ USIZE_MAX = k
    rw [Nat.floor_natCast]
    exact Nat.min_eq_left (by have : (171:ℕ) ≤ USIZE_MAX := by decide
                              omega)
  rw [hu, if_neg (by omega)]
  exact factorial_exact (k-1) (by have : (231:ℕ) ≤ USIZE_MAX := by decide
                                  omega)

theorem gamma_real_main {z : ℝ} (hi : ¬ ∃ i : ℤ, z = i) (hle : z ≤ 171) :
    gamma z = (if (7/2:ℝ) < z then (do
        let (z, f) ← gammaDown gammaFuel z 1
        pure (gammaCore z * f))
      else if z < 5/2 then (do
        match ← gammaUp gammaFuel z 1 with
        | none => pure 0
        | some (z, f) => pure (gammaCore z * (1 / f)))
      else pure (gammaCore z)) := by
  conv_lhs => unfold gamma
  have h0 : (0.0:ℝ) = 0 := by norm_num
  have h1 : (1.0:ℝ) = 1 := by norm_num
  have e1 : (3.5:ℝ) = 7/2 := by norm_num
  have e2 : (2.5:ℝ) = 5/2 := by norm_num
  have hz0 : z ≠ 0 := fun h => hi ⟨0, by rw [h]; simp⟩
  have hinf : (-(Arith.inf : ℝ)) = 0 := by show -(0:ℝ) = 0; simp
  simp only [rlt, req, h0, h1, e1, e2, hinf]
  rw [decide_eq_false (by unfold GAMMA_MAX_INPUT; norm_num; linarith), decide_eq_false hz0,
    decide_eq_false (by rw [real_fract_eq_zero]; exact hi)]
  have hn : Arith.isNaN z = false := rfl
  simp only [hn, Bool.false_eq_true, if_false, decide_eq_true_eq, mul_one]
  rcases gammaUp gammaFuel z 1 with e | (_ | ⟨a, b⟩) <;> rfl

theorem gammaDown_step {n : Nat} {z f : ℝ} (h : 7/2 ≤ z) : gammaDown (n+1) z f = gammaDown n (z-1) (f * (z-1)) := by
  have h1 : (1.0:ℝ) = 1 := by norm_num
  conv_lhs => unfold gammaDown
  rw [rle, decide_eq_true (by norm_num; linarith), if_pos rfl, h1]

theorem gammaDown_stop {n : Nat} {z f : ℝ} (h : z < 7/2) : gammaDown (n+1) z f = .ok (z, f) := by
  unfold gammaDown
  rw [rle, decide_eq_false (by norm_num; linarith)]; rfl

theorem gammaUp_step {n : Nat} {z f : ℝ} (h : z ≤ 5/2) : gammaUp (n+1) z f = gammaUp n (z+1) (f * z) := by
  have h1 : (1.0:ℝ) = 1 := by norm_num
  conv_lhs => unfold gammaUp
  rw [rle, decide_eq_true (by norm_num; linarith), if_pos rfl, h1]
  have e : Arith.isInf (f * z) = false := rfl
  simp only [e, Bool.false_eq_true, if_false]

theorem gammaUp_stop {n : Nat} {z f : ℝ} (h : 5/2 < z) : gammaUp (n+1) z f = .ok (some (z, f)) := by
  unfold gammaUp
  rw [rle, decide_eq_false (by norm_num; linarith)]; rfl

theorem gamma_feq (z : ℝ) (h1 : -240 < z) (h2 : z ≤ 170) (hpole : ¬ ∃ n : ℕ, z = -n)
    (e1 : z ≠ 1.5) (e2 : z ≠ 2.5) (e3 : z ≠ 3.5) :
    ∃ g : ℝ, gamma z = .ok g ∧ gamma (z + 1) = .ok (z * g) := by
  have l1 : (1.5:ℝ) = 3/2 := by norm_num
  have l2 : (2.5:ℝ) = 5/2 := by norm_num
  have l3 : (3.5:ℝ) = 7/2 := by norm_num
  rw [l1] at e1; rw [l2] at e2; rw [l3] at e3
  by_cases hint : ∃ i : ℤ, z = i
  · obtain ⟨i, rfl⟩ := hint
    have hi0 : 0 < i := by
      by_contra hc
      refine hpole ⟨(-i).toNat, ?_⟩
      have : (((-i).toNat : ℤ) : ℝ) = ((-i : ℤ) : ℝ) := by rw [Int.toNat_of_nonneg (by omega)]
      rw [Int.cast_natCast] at this
      rw [this]; push_cast; ring
    obtain ⟨k, rfl⟩ := Int.eq_ofNat_of_zero_le hi0.le
    have hk : k ≤ 170 := by exact_mod_cast h2
    have hk1 : 1 ≤ k := by omega
    refine ⟨Nat.factorial (k-1), by rw [Int.cast_natCast]; exact gamma_real_int k hk1 (by omega), ?_⟩
    have h3 := gamma_real_int (k+1) (by omega) (by omega)
    rw [Int.cast_natCast]
    push_cast at h3
    rw [h3]
    congr 1
    rw [← Nat.cast_mul, Nat.mul_factorial_pred (by omega)]
  · have hint1 : ¬ ∃ i : ℤ, z + 1 = i := by
      rintro ⟨i, hi⟩; exact hint ⟨i - 1, by push_cast; linarith⟩
    have hz0 : z ≠ 0 := fun h => hint ⟨0, by rw [h]; simp⟩
    rw [gamma_real_main hint (by linarith), gamma_real_main hint1 (by linarith)]
    rcases lt_or_ge (5/2) z with hz | hz
    · -- descending
      have c1 : 7/2 < z + 1 := by linarith
      rw [if_pos c1, gammaDown_step c1.le, add_sub_cancel_right]
      rcases lt_or_ge (7/2) z with hz2 | hz2
      · rw [if_pos hz2]
        obtain ⟨z', g, hg⟩ := gammaDown_real 170 249 z (by norm_num) (by push_cast; linarith)
        have hg' := gammaDown_fuel 249 z 1 _ (hg 1)
        rw [hg, hg']
        refine ⟨gammaCore z' * (1 * g), rfl, ?_⟩
        show Except.ok _ = _
        congr 1; ring
      · have hz3 : z < 7/2 := lt_of_le_of_ne hz2 e3
        rw [if_neg (not_lt.2 hz2), if_neg (by linarith), gammaDown_stop hz3]
        refine ⟨gammaCore z, rfl, ?_⟩
        show Except.ok _ = _
        congr 1; ring
    · have hz' : z < 5/2 := lt_of_le_of_ne hz e2
      rw [if_neg (by linarith : ¬ 7/2 < z), if_pos hz', gammaUp_step hz]
      rw [if_neg (by linarith : ¬ 7/2 < z + 1)]
      rcases lt_or_ge (3/2) z with hz2 | hz2
      · rw [if_neg (by linarith : ¬ z + 1 < 5/2), gammaUp_stop (by linarith)]
        refine ⟨gammaCore (z+1) * (1 / (1 * z)), rfl, ?_⟩
        show Except.ok _ = _
        congr 1; field_simp
      · have hz3 : z < 3/2 := lt_of_le_of_ne hz2 e1
        rw [if_pos (by linarith : z + 1 < 5/2)]
        obtain ⟨z', g, hg⟩ := gammaUp_real 242 249 (z+1) (by norm_num) (by push_cast; linarith)
        have hg' := gammaUp_fuel 249 (z+1) 1 _ (hg 1)
        rw [hg, hg']
        refine ⟨gammaCore z' * (1 / (1 * z * g)), rfl, ?_⟩
        show Except.ok _ = _
        congr 1
        rcases eq_or_ne g 0 with h | h
        · rw [h]; simp
        · field_simp

end Verif
