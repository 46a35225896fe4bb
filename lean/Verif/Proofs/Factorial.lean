import Mathlib.Algebra.BigOperators.Fin
import Mathlib.Algebra.Order.BigOperators.Ring.Finset
import Mathlib.Data.Nat.Factorial.BigOperators
import Verif.Proofs.Inst
import Verif.Proofs.Interval
import Verif.Proofs.FactTable

/-! Helper lemmas for the factorial properties. -/

namespace Verif
open F64

section generic
variable {α : Type} [Add α] [Mul α] [OfScientific α] [Arith α]

/-- Loop rule for the blocked product: an invariant on (number of factors done, product so far). -/
theorem rfLoop_inv [Cfg] (z : α) (n m : Nat) (P : Nat → α → Prop)
    (hm : 1 ≤ m) (hover : ∀ k, m ∣ k → k < n → k + m ≤ USIZE_MAX)
    (hstep : ∀ k r, k < n → P k r → P (Nat.min n (k + m)) (r * rfBlock z k (Nat.min m (n - k))))
    (fuel k : Nat) (r : α) (hk : m ∣ k) (hf0 : 0 < fuel) (hfuel : n < k + fuel) (hP : P (Nat.min n k) r) :
    ∃ v, rfLoop z n m fuel k r = .ok v ∧ P n v := by
  induction fuel generalizing k r with
  | zero =>
    omega
  | succ fuel ih =>
    unfold rfLoop
    by_cases hkn : k < n
    · rw [if_pos hkn]
      have hw : wrapU USIZE_MAX (k + m) = .ok (k + m) := by
        unfold wrapU; rw [if_pos (hover k hk hkn)]
      rw [hw]
      have hmin : Nat.min n k = k := Nat.min_eq_right hkn.le
      rw [hmin] at hP
      exact ih (k + m) _ ((Nat.dvd_add_right hk).2 (dvd_refl m)) (by omega) (by omega) (hstep k r hkn hP)
    · rw [if_neg hkn]
      have : Nat.min n k = n := Nat.min_eq_left (not_lt.1 hkn)
      rw [this] at hP
      exact ⟨r, rfl, hP⟩

/-- If the last block's `k += m` overflows, the call panics when overflow checks are on. -/
theorem rfLoop_over [Cfg] (hc : Cfg.checks = true) (z : α) (n m : Nat) (hm : 1 ≤ m)
    (hover : ∃ k, m ∣ k ∧ k < n ∧ USIZE_MAX < k + m)
    (fuel k : Nat) (r : α) (hk : m ∣ k) (hkn : k < n) (hfuel : n < k + fuel) :
    rfLoop z n m fuel k r = .error .panic := by
  induction fuel generalizing k r with
  | zero => omega
  | succ fuel ih =>
    unfold rfLoop
    rw [if_pos hkn]
    by_cases hle : k + m ≤ USIZE_MAX
    · have hw : wrapU USIZE_MAX (k + m) = .ok (k + m) := by
        unfold wrapU; rw [if_pos hle]
      rw [hw]
      refine ih (k + m) _ ((Nat.dvd_add_right hk).2 (dvd_refl m)) ?_ (by omega)
      obtain ⟨k', h1, h2, h3⟩ := hover
      obtain ⟨a, rfl⟩ := hk
      obtain ⟨b, rfl⟩ := h1
      have hab : a < b := by
        by_contra hab
        have : m * b ≤ m * a := Nat.mul_le_mul_left m (not_lt.1 hab)
        omega
      have : m * (a + 1) ≤ m * b := Nat.mul_le_mul_left m hab
      rw [Nat.mul_add, Nat.mul_one] at this
      show m * a + m < n
      omega
    · have hw : wrapU USIZE_MAX (k + m) = .error .panic := by
        unfold wrapU; rw [if_neg hle, hc]; rfl
      rw [hw]; rfl

theorem rfBlock_zero (z : α) (k : Nat) : rfBlock z k 0 = 1.0 := rfl

theorem rfBlock_succ (z : α) (k l : Nat) : rfBlock z k (l+1) = rfBlock z k l * (z + Arith.ofNat (k + l)) := by
  unfold rfBlock; rw [List.range_succ, List.foldl_append]; rfl

/-- without overflow the build configuration does not matter -/
theorem rfLoop_cfg (c1 c2 : Cfg) (z : α) (n m : Nat) (hn : n + m ≤ USIZE_MAX) (fuel k : Nat) (r : α) :
    @rfLoop α _ _ _ _ c1 z n m fuel k r = @rfLoop α _ _ _ _ c2 z n m fuel k r := by
  induction fuel generalizing k r with
  | zero => rfl
  | succ fuel ih =>
    unfold rfLoop
    by_cases hkn : k < n
    · rw [if_pos hkn, if_pos hkn]
      have hw : ∀ c : Cfg, @wrapU c USIZE_MAX (k + m) = .ok (k + m) := by
        intro c; unfold wrapU; rw [if_pos (by omega)]
      rw [hw, hw]
      exact ih _ _
    · rw [if_neg hkn, if_neg hkn]

end generic

/-! ## exact arithmetic -/

theorem one_lit_real : (1.0 : ℝ) = 1 := by norm_num

theorem rfM_real (n : Nat) : rfM ℝ n = min (min (Nat.sqrt n) 60) USIZE_MAX := by
  unfold rfM
  have h1 : (Arith.floor (Arith.sqrt (Arith.ofNat n : ℝ)) : ℝ) = ((Nat.sqrt n : ℕ) : ℝ) := by
    show ((⌊Real.sqrt (n:ℝ)⌋ : ℤ) : ℝ) = _
    have : ⌊Real.sqrt (n:ℝ)⌋ = ((Nat.sqrt n : ℕ) : ℤ) := by
      rw [Int.floor_eq_iff]
      have h := Nat.sqrt_le' n
      have h2 := Nat.lt_succ_sqrt' n
      constructor
      · refine Real.le_sqrt_of_sq_le ?_
        exact_mod_cast h
      · rw [Real.sqrt_lt' (by positivity)]
        have : n < (Nat.sqrt n + 1)^2 := h2
        exact_mod_cast this
    rw [this]; simp
  rw [h1]
  have h2 : (Arith.min ((Nat.sqrt n : ℕ) : ℝ) 60.0 : ℝ) = ((min (Nat.sqrt n) 60 : ℕ) : ℝ) := by
    show Min.min _ _ = _
    rw [Nat.cast_min]; norm_num
  rw [h2]
  show Nat.min ⌊((min (Nat.sqrt n) 60 : ℕ) : ℝ)⌋₊ USIZE_MAX = _
  rw [Nat.floor_natCast]

theorem rfM_real_bounds {n : Nat} (hn : 1 ≤ n) : 1 ≤ rfM ℝ n ∧ rfM ℝ n ≤ 60 := by
  rw [rfM_real]
  have : 1 ≤ Nat.sqrt n := Nat.le_sqrt'.2 (by simpa using hn)
  have h60 : (60:Nat) ≤ USIZE_MAX := by decide
  omega

theorem rfBlock_real (z : ℝ) (k l : Nat) : rfBlock z k l = ∏ i ∈ Finset.range l, (z + ((k + i : ℕ) : ℝ)) := by
  induction l with
  | zero => rw [rfBlock_zero, Finset.prod_range_zero]; norm_num
  | succ l ih => rw [rfBlock_succ, Finset.prod_range_succ, ih]; rfl

theorem rf_real [Cfg] (z : ℝ) (n : Nat) (h : ∀ k, rfM ℝ n ∣ k → k < n → k + rfM ℝ n ≤ USIZE_MAX) :
    risingFactorial z n = .ok (∏ i ∈ Finset.range n, (z + (i : ℝ))) := by
  unfold risingFactorial
  rcases Nat.eq_zero_or_pos n with h0 | hpos
  · subst h0
    unfold rfLoop
    rw [if_neg (lt_irrefl 0)]; norm_num
  · have hstep : ∀ (k : ℕ) (r : ℝ), k < n → r = ∏ i ∈ Finset.range k, (z + (i : ℝ)) →
        r * rfBlock z k (Nat.min (rfM ℝ n) (n - k)) = ∏ i ∈ Finset.range (Nat.min n (k + rfM ℝ n)), (z + (i : ℝ)) := by
      intro k r hk hr
      have hm := (rfM_real_bounds hpos).1
      rw [hr, rfBlock_real]
      have e : Nat.min n (k + rfM ℝ n) = k + Nat.min (rfM ℝ n) (n - k) := by
        simp only [Nat.min_def]; split <;> split <;> omega
      rw [e, Finset.prod_range_add]
    obtain ⟨v, h1, h2⟩ := rfLoop_inv z n (rfM ℝ n) (fun k r => r = ∏ i ∈ Finset.range k, (z + (i : ℝ)))
      (rfM_real_bounds hpos).1 h hstep (n+1) 0 1.0 (dvd_zero _) (by omega) (by omega)
      (by rw [show Nat.min n 0 = 0 from Nat.min_zero n, Finset.prod_range_zero]; norm_num)
    rw [h1, h2]

/-! ## floating point -/

theorem sixty_val : (60.0 : F64).val = 60 := by
  have := val_of_int (x := (60.0:F64)) 60 (by decide +kernel)
  simpa using this


theorem HUGE_big : (2:ℝ)^64 < HUGE := by
  rw [HUGE_eq]; exact pow_lt_pow_right₀ (by norm_num) (by norm_num)

theorem RN_usize {n : Nat} (hn : n ≤ USIZE_MAX) : RN (n:ℝ) ≤ 2^64 := by
  have h1 : (n:ℝ) ≤ 2^64 := by
    have : n ≤ 2^64 := by have : USIZE_MAX = 2^64 - 1 := rfl; omega
    exact_mod_cast this
  have h2 : RN ((2:ℝ)^64) = 2^64 := by
    have := RN_dyadic 1 64 (by norm_num) (by norm_num) (by
      rw [Int.cast_one, one_mul, abs_of_pos (by positivity)]
      have := HUGE_big; exact_mod_cast this.le)
    rw [Int.cast_one, one_mul] at this
    exact_mod_cast this
  rw [← h2]; exact RN_mono h1

theorem ofNat_fin {n : Nat} (hn : n ≤ USIZE_MAX) : (F64.ofNat n).isFin = true := by
  rw [isFin_iff_val, (ofNat_spec n).2.1, abs_of_nonneg (RN_nonneg (by positivity))]
  exact lt_of_le_of_lt (RN_usize hn) HUGE_big

theorem rfM_f64_bounds {n : Nat} (hn : 1 ≤ n) (hmax : n ≤ USIZE_MAX) : 1 ≤ rfM F64 n ∧ rfM F64 n ≤ 60 := by
  have hM : rfM F64 n = toUnsigned USIZE_MAX (F64.min (F64.floor (F64.sqrt (F64.ofNat n))) 60.0) := by
    rw [rfM, ar_toU, ar_min, ar_floor, ar_sqrt, ar_ofNat]
  rw [hM]
  have hv : 1 ≤ (F64.ofNat n).val := by
    rw [(ofNat_spec n).2.1, ← RN_one]; exact RN_mono (by exact_mod_cast hn)
  have hf := ofNat_fin hmax
  obtain ⟨s1, s2, s3⟩ := sqrt_spec hf (by linarith)
  have hs1 : 1 ≤ (F64.sqrt (F64.ofNat n)).val := by
    rw [s2, ← RN_one]; exact RN_mono (Real.one_le_sqrt.2 hv)
  have hsf : (F64.sqrt (F64.ofNat n)).isFin = true := by
    rw [isFin_iff_val, abs_of_nonneg (by linarith), s2]
    refine lt_of_le_of_lt (RN_mono (y := (F64.ofNat n).val) ?_) ?_
    · rw [Real.sqrt_le_left (by linarith)]; nlinarith
    · rw [RN_val (isFin_notNaN hf)]; exact fin_lt hf
  obtain ⟨f1, f2⟩ := floor_spec hsf
  have hfl : 1 ≤ (F64.floor (F64.sqrt (F64.ofNat n))).val := by
    rw [f2]; exact_mod_cast Int.le_floor.2 (by exact_mod_cast hs1)
  have n60 : (60.0 : F64).isNaN = false := by decide +kernel
  obtain ⟨m1, m2⟩ := min_val f1 n60
  rw [sixty_val] at m2
  have hml : 1 ≤ (F64.min (F64.floor (F64.sqrt (F64.ofNat n))) 60.0).val := by
    rw [m2]; exact le_min hfl (by norm_num)
  have hmu : (F64.min (F64.floor (F64.sqrt (F64.ofNat n))) 60.0).val ≤ 60 := by
    rw [m2]; exact min_le_right _ _
  have hmf : (F64.min (F64.floor (F64.sqrt (F64.ofNat n))) 60.0).isFin = true := by
    rw [isFin_iff_val, abs_of_nonneg (by linarith)]
    refine lt_of_le_of_lt hmu (lt_trans ?_ HUGE_big); norm_num
  have h3 : ∀ y : F64, y.isFin = true → 1 ≤ y.val → y.val ≤ 60 → 1 ≤ toUnsigned USIZE_MAX y ∧ toUnsigned USIZE_MAX y ≤ 60 := by
    intro y hy h1 h2
    rw [toUnsigned_spec hy (by linarith)]
    have a1 : 1 ≤ ⌊y.val⌋₊ := Nat.le_floor (by exact_mod_cast h1)
    have a2 : ⌊y.val⌋₊ ≤ 60 := Nat.floor_le_of_le (by exact_mod_cast h2)
    have : (60:Nat) ≤ USIZE_MAX := by decide
    simp only [Nat.min_def]; split <;> omega
  exact h3 _ hmf hml hmu

/-- product of two numbers that are at least one (possibly infinite) -/
theorem mul_ge_one {a b : F64} (ha : a.isNaN = false) (hb : b.isNaN = false) (h1 : 1 ≤ a.val) (h2 : 1 ≤ b.val) :
    (a * b).isNaN = false ∧ (a * b).val = RN (a.val * b.val) ∧ 1 ≤ (a * b).val := by
  have main : (a * b).isNaN = false ∧ (a * b).val = RN (a.val * b.val) := by
    by_cases hinf : a.isInf = true ∨ b.isInf = true
    · have hza : a.isZero = false := val_ne_zero.1 (by linarith)
      have hzb : b.isZero = false := val_ne_zero.1 (by linarith)
      rw [mul_inf ha hb hinf hza hzb, neg_of_val_pos (by linarith : 0 < a.val), neg_of_val_pos (by linarith : 0 < b.val)]
      refine ⟨by decide, ?_⟩
      show inf.val = _
      rw [inf_val]
      apply le_antisymm _ (RN_le_inf _)
      have hH : HUGE ≤ a.val * b.val := by
        rcases hinf with h | h
        · rw [isInf_iff_val, abs_of_nonneg (by linarith)] at h; nlinarith
        · rw [isInf_iff_val, abs_of_nonneg (by linarith)] at h; nlinarith
      have := RN_mono hH
      rwa [← inf_val, RN_val (by decide), inf_val] at this
    · simp only [not_or, Bool.not_eq_true] at hinf
      have fa : a.isFin = true := by rcases fin_or_inf ha with h | h; exact h; rw [h] at hinf; simp at hinf
      have fb : b.isFin = true := by rcases fin_or_inf hb with h | h; exact h; rw [h] at hinf; simp at hinf
      exact ⟨(mul_spec fa fb).1, (mul_spec fa fb).2.1⟩
  refine ⟨main.1, main.2, ?_⟩
  rw [main.2, ← RN_one]; exact RN_mono (by nlinarith)

/-- lower bound on a rounded product -/
theorem RN_ge {x Y : ℝ} (h : 1 ≤ x) (hY : x < HUGE → Y ≤ x * (1 - 1/2^53)) : min HUGE Y ≤ RN x := by
  rcases lt_or_ge x HUGE with hx | hx
  · refine le_trans (min_le_right _ _) (le_trans (hY hx) ?_)
    have := RN_err (x := x) (by rwa [abs_of_nonneg (by linarith)])
    rw [abs_of_nonneg (by linarith : (0:ℝ) ≤ x)] at this
    have h2 : Max.max (x / 2^53) (1/2^1075) = x / 2^53 := by
      apply max_eq_left
      refine le_trans ?_ (div_le_div_of_nonneg_right h (by positivity))
      exact one_div_le_one_div_of_le (by positivity) (pow_le_pow_right₀ (by norm_num) (by norm_num))
    rw [h2, abs_le] at this
    clear h2
    have e : x * (1 - 1/2^53) = x - x/2^53 := by ring
    rw [e]; linarith [this.1]
  · refine le_trans (min_le_left _ _) ?_
    have := RN_mono hx
    rwa [← inf_val, RN_val (by decide), inf_val] at this

/-- the weight of the factor with index `i` in the lower bound -/
noncomputable def fw (i : Nat) : ℝ := if i < 171 then ((i:ℝ)+1) * (1 - 1/2^53) else 1
noncomputable def fw2 (i : Nat) : ℝ := if i < 171 then ((i:ℝ)+1) * (1 - 1/2^53)^2 else 1

theorem fw_pos (i : Nat) : 0 < fw i := by
  unfold fw; split
  · have : (0:ℝ) < 1 - 1/2^53 := by norm_num
    positivity
  · norm_num
theorem fw2_pos (i : Nat) : 0 < fw2 i := by
  unfold fw2; split
  · have : (0:ℝ) < 1 - 1/2^53 := by norm_num
    positivity
  · norm_num

theorem one_add_val {i : Nat} (hi : i ≤ USIZE_MAX) : ((1.0 : F64) + F64.ofNat i).isNaN = false ∧
    1 ≤ ((1.0 : F64) + F64.ofNat i).val ∧ (i < 171 → ((1.0 : F64) + F64.ofNat i).val = (i:ℝ) + 1) := by
  have h1 : (1.0:F64).isFin = true := by decide +kernel
  obtain ⟨s1, s2⟩ := add_spec h1 (ofNat_fin hi)
  rw [one_val, (ofNat_spec i).2.1] at s2
  refine ⟨s1, ?_, ?_⟩
  · rw [s2]
    have := RN_mono (show (1:ℝ) ≤ 1 + RN (i:ℝ) by have := RN_nonneg (x := (i:ℝ)) (by positivity); linarith)
    rwa [RN_one] at this
  · intro h
    rw [s2, RN_nat i (by omega)]
    have := RN_nat (1 + i) (by omega)
    push_cast at this; rw [this]; ring

theorem rfBlock_f64 (k l : Nat) (h : k + l ≤ USIZE_MAX + 1) :
    (rfBlock (1.0 : F64) k l).isNaN = false ∧ 1 ≤ (rfBlock (1.0 : F64) k l).val ∧
    min HUGE (∏ i ∈ Finset.range l, fw (k + i)) ≤ (rfBlock (1.0 : F64) k l).val := by
  induction l with
  | zero =>
    rw [rfBlock_zero, one_val, Finset.prod_range_zero]
    exact ⟨by decide +kernel, le_refl _, min_le_right _ _⟩
  | succ l ih =>
    obtain ⟨i1, i2, i3⟩ := ih (by omega)
    obtain ⟨o1, o2, o3⟩ := one_add_val (i := k + l) (by omega)
    rw [rfBlock_succ]
    obtain ⟨m1, m2, m3⟩ := mul_ge_one i1 o1 i2 o2
    refine ⟨m1, m3, ?_⟩
    show _ ≤ (rfBlock (1.0:F64) k l * (1.0 + F64.ofNat (k + l))).val
    rw [m2, Finset.prod_range_succ]
    by_cases hlt : k + l < 171
    · rw [o3 hlt]
      have hc : (0:ℝ) < 1 - 1/2^53 := by norm_num
      have h1 : (1:ℝ) ≤ ((k+l:ℕ):ℝ)+1 := by linarith [Nat.cast_nonneg (α := ℝ) (k+l)]
      refine RN_ge (by nlinarith) fun hlt' => ?_
      have e : fw (k + l) = (((k+l:ℕ):ℝ)+1) * (1 - 1/2^53) := by unfold fw; rw [if_pos hlt]
      rw [mul_assoc, ← e]
      apply mul_le_mul_of_nonneg_right _ (fw_pos _).le
      rcases min_le_iff.1 i3 with h | h
      · exfalso; nlinarith [HUGE_pos]
      · exact h
    · have e : fw (k + l) = 1 := by unfold fw; rw [if_neg hlt]
      rw [e, mul_one]
      refine le_trans i3 ?_
      have := RN_mono (show (rfBlock (1.0:F64) k l).val ≤ (rfBlock (1.0:F64) k l).val * ((1.0 : F64) + F64.ofNat (k+l)).val by nlinarith)
      rwa [RN_val i1] at this

theorem prod_fw2_le (k l : Nat) (hl : 1 ≤ l) (hk : k < 171) :
    ∏ i ∈ Finset.range l, fw2 (k + i) ≤ (∏ i ∈ Finset.range l, fw (k + i)) * (1 - 1/2^53) := by
  obtain ⟨l, rfl⟩ : ∃ j, l = j + 1 := ⟨l - 1, by omega⟩
  rw [Finset.prod_range_succ', Finset.prod_range_succ']
  have hle : ∀ i, fw2 i ≤ fw i := by
    intro i; unfold fw2 fw
    split
    · apply mul_le_mul_of_nonneg_left _ (by positivity); norm_num
    · exact le_refl _
  have h0 : fw2 (k + 0) = fw (k + 0) * (1 - 1/2^53) := by
    unfold fw2 fw; rw [if_pos (by omega), if_pos (by omega)]; ring
  rw [h0, mul_assoc]
  apply mul_le_mul_of_nonneg_right
  · exact Finset.prod_le_prod (fun i _ => (fw2_pos _).le) (fun i _ => hle _)
  · have := fw_pos (k + 0)
    have hc : (0:ℝ) < 1 - 1/2^53 := by norm_num
    positivity

theorem prod_fw2_one (k l : Nat) (hk : 171 ≤ k) : ∏ i ∈ Finset.range l, fw2 (k + i) = 1 := by
  apply Finset.prod_eq_one; intro i _; unfold fw2; rw [if_neg (by omega)]

/-- everything about `factorial` that holds for every `n`: at least one, not NaN, and the lower bound -/
theorem factorial_f64_lower [Cfg] (n : Nat) (hn : n + 60 ≤ USIZE_MAX) :
    ∃ v : F64, factorial n = .ok v ∧ v.isNaN = false ∧ 1 ≤ v.val ∧ min HUGE (∏ i ∈ Finset.range n, fw2 i) ≤ v.val := by
  unfold factorial risingFactorial
  rcases Nat.eq_zero_or_pos n with h0 | hpos
  · subst h0
    unfold rfLoop
    rw [if_neg (lt_irrefl 0)]
    exact ⟨1.0, rfl, by decide +kernel, by rw [one_val], by rw [one_val, Finset.prod_range_zero]; exact min_le_right _ _⟩
  · obtain ⟨hm1, hm2⟩ := rfM_f64_bounds hpos (by omega)
    refine rfLoop_inv (1.0 : F64) n (rfM F64 n)
      (fun k v => v.isNaN = false ∧ 1 ≤ v.val ∧ min HUGE (∏ i ∈ Finset.range k, fw2 i) ≤ v.val) hm1
      (fun k _ hk => by omega) ?_ (n+1) 0 1.0 (dvd_zero _) (by omega) (by omega) ?_
    · rintro k r hk ⟨r1, r2, r3⟩
      have e : Nat.min n (k + rfM F64 n) = k + Nat.min (rfM F64 n) (n - k) := by
        simp only [Nat.min_def]; split <;> split <;> omega
      have hl1 : 1 ≤ Nat.min (rfM F64 n) (n - k) := by simp only [Nat.min_def]; split <;> omega
      have hl2 : k + Nat.min (rfM F64 n) (n - k) ≤ n := by simp only [Nat.min_def]; split <;> omega
      generalize Nat.min (rfM F64 n) (n - k) = l at *
      rw [e, Finset.prod_range_add]
      obtain ⟨b1, b2, b3⟩ := rfBlock_f64 k l (by omega)
      obtain ⟨m1, m2, m3⟩ := mul_ge_one r1 b1 r2 b2
      refine ⟨m1, m3, ?_⟩
      rw [m2]
      have hA : 0 < ∏ i ∈ Finset.range k, fw2 i := Finset.prod_pos fun i _ => fw2_pos i
      have hc : (0:ℝ) < 1 - 1/2^53 := by norm_num
      have hrv := RN_val r1
      generalize (rfBlock (1.0 : F64) k l).val = t at *
      generalize r.val = rv at *
      by_cases hk171 : k < 171
      · refine RN_ge (by nlinarith) fun hlt => ?_
        have hp := prod_fw2_le k l hl1 hk171
        have hB : 0 < ∏ i ∈ Finset.range l, fw (k+i) := Finset.prod_pos fun i _ => fw_pos _
        generalize (∏ i ∈ Finset.range k, fw2 i) = A at *
        generalize (∏ i ∈ Finset.range l, fw (k+i)) = B at *
        generalize (∏ i ∈ Finset.range l, fw2 (k+i)) = B2 at *
        have hA' : A ≤ rv := by
          rcases min_le_iff.1 r3 with h | h
          · exfalso; nlinarith [HUGE_pos]
          · exact h
        have hB' : B ≤ t := by
          rcases min_le_iff.1 b3 with h | h
          · exfalso; nlinarith [HUGE_pos]
          · exact h
        calc A * B2 ≤ A * (B * (1 - 1/2^53)) := mul_le_mul_of_nonneg_left hp hA.le
          _ = (A * B) * (1 - 1/2^53) := by ring
          _ ≤ (rv * t) * (1 - 1/2^53) := by
            apply mul_le_mul_of_nonneg_right _ hc.le
            exact mul_le_mul hA' hB' hB.le (by linarith)
      · rw [prod_fw2_one k l (by omega), mul_one]
        refine le_trans r3 ?_
        have := RN_mono (show rv ≤ rv * t by nlinarith)
        rwa [hrv] at this
    · rw [one_val, show Nat.min n 0 = 0 from Nat.min_zero n, Finset.prod_range_zero]
      exact ⟨by decide +kernel, le_refl _, min_le_right _ _⟩

/-! ## the table of finite values -/

theorem factorial_cfg (c1 c2 : Cfg) (n : Nat) (hn : n + 60 ≤ USIZE_MAX) :
    @factorial F64 _ _ _ _ c1 n = @factorial F64 _ _ _ _ c2 n := by
  unfold factorial risingFactorial
  rcases Nat.eq_zero_or_pos n with h0 | hpos
  · subst h0; rfl
  · have := rfM_f64_bounds hpos (by omega)
    exact rfLoop_cfg c1 c2 _ _ _ (by omega) _ _ _

theorem factTable_correct [c : Cfg] {n : Nat} (hn : n < 171) :
    ∃ v : F64, factorial n = .ok v ∧ v.neg = false ∧ v.mag = factTable.getD n 0 := by
  have h := List.all_eq_true.1 factTable_chk n (List.mem_range.2 hn)
  rw [factorial_cfg c cfg0 n (by have : (231:Nat) ≤ USIZE_MAX := by decide
                                 omega)]
  unfold chkFact at h
  split at h
  · rename_i v hv
    refine ⟨v, hv, ?_⟩
    simpa using h
  · exact absurd h (by decide)

theorem factTable_err : (List.range 171).all (fun n =>
    decide ((((iv (factTable.getD n 0) : Int) - (n.factorial : Int) * 2^1074).natAbs) * 2^50 ≤ n.factorial * 2^1074)
    && decide (factTable.getD n 0 < INFMAG)) = true := by decide +kernel

theorem factTable_exact : (List.range 23).all (fun n => decide (iv (factTable.getD n 0) = n.factorial * 2^1074)) = true := by
  decide +kernel

theorem factTable_mono : (List.range 170).all (fun n => decide (factTable.getD n 0 ≤ factTable.getD (n+1) 0)) = true := by
  decide +kernel

/-- the lower bound exceeds the largest number for `n = 171` -/
theorem huge_half (F c : ℝ) (hF : HUGE * 2 ≤ F) (hc : 1/2 ≤ c) : HUGE ≤ F * c := by
  have := HUGE_pos
  nlinarith

theorem prod171_aux (F : ℕ) (hF : F = Nat.factorial 171) (h2 : 2^1024 * 2 ≤ F) : HUGE ≤ ∏ i ∈ Finset.range 171, fw2 i := by
  have e : ∏ i ∈ Finset.range 171, fw2 i = (F : ℝ) * ((1 - 1/2^53)^2)^171 := by
    rw [hF, ← Finset.prod_range_add_one_eq_factorial, Nat.cast_prod]
    have : ((1 - 1/2^53 : ℝ)^2)^171 = ∏ i ∈ Finset.range 171, (1 - 1/2^53 : ℝ)^2 := by
      rw [Finset.prod_const, Finset.card_range]
    rw [this, ← Finset.prod_mul_distrib]
    refine Finset.prod_congr rfl fun i hi => ?_
    unfold fw2
    rw [if_pos (Finset.mem_range.1 hi)]
    push_cast; ring
  rw [e]
  have h1 : (1:ℝ) / 2 ≤ ((1 - 1/2^53 : ℝ)^2)^171 := by
    rw [← pow_mul]
    have := one_add_mul_le_pow (a := -(1/2^53 : ℝ)) (by norm_num) (2 * 171)
    rw [← sub_eq_add_neg] at this
    refine le_trans ?_ this
    norm_num
  have h3 : (HUGE * 2 : ℝ) ≤ (F : ℝ) := by
    rw [HUGE_eq]
    have := (Nat.cast_le (α := ℝ)).2 h2
    rwa [Nat.cast_mul, Nat.cast_pow, Nat.cast_ofNat] at this
  exact huge_half _ _ h3 h1

theorem prod171 : HUGE ≤ ∏ i ∈ Finset.range 171, fw2 i := prod171_aux _ rfl (by decide +kernel)

theorem prod_ge {n : Nat} (hn : 171 ≤ n) : HUGE ≤ ∏ i ∈ Finset.range n, fw2 i := by
  obtain ⟨j, rfl⟩ := Nat.exists_eq_add_of_le hn
  rw [Finset.prod_range_add, prod_fw2_one 171 j (le_refl _), mul_one]
  exact prod171

end Verif
