import Verif.Model.Gamma
import Verif.Proofs.Sign
import Verif.Proofs.Gamma

namespace Verif
open F64

/-- valid arguments of the incomplete gamma functions -/
theorem valid_iff {a x : F64} : (F64.le 0.0 x && F64.lt 0.0 a) = true ↔
    (x.isNaN = false ∧ 0 ≤ x.val) ∧ (a.isNaN = false ∧ 0 < a.val) := by
  rw [Bool.and_eq_true, le_iff, lt_iff, zero_val]
  have := isFin_notNaN zero_fin
  tauto

theorem one_sub_clamp {p : F64} (h : p.isNaN = false) : IsCompl p (clamp01 (1.0 - p)) := by
  right
  rcases fin_or_inf h with hf | hi
  · have h1 := sub_spec one_fin hf
    obtain ⟨h2, h3⟩ := clamp01_num h1.1
    exact ⟨h, h2, by rw [h3, h1.2, one_val]⟩
  · have e : (1.0 : F64) - p = -p := by
      rw [sub_eq]; exact add_inf_right one_fin (by rw [isInf_iff] at hi ⊢; exact hi)
    rw [e]
    obtain ⟨h2, h3⟩ := clamp01_num (val_of_neg h)
    refine ⟨h, h2, ?_⟩
    rw [h3, val_neg]
    have h5 := HUGE_ge
    have h6 : (2:ℝ) ≤ 10^200 := by norm_num
    rcases lt_or_ge p.val 0 with h4 | h4
    · have h7 : |p.val| = HUGE := isInf_iff_val.1 hi
      rw [abs_of_neg h4] at h7
      have h8 : 1 ≤ RN (1 - p.val) := by
        rw [← one_val]; exact le_RN_of_le (isFin_notNaN one_fin) (by rw [one_val]; linarith)
      rw [min_eq_left h8, min_eq_left (by linarith)]
    · have h7 : |p.val| = HUGE := isInf_iff_val.1 hi
      rw [abs_of_nonneg h4] at h7
      have h8 : RN (1 - p.val) ≤ 0 := RN_nonpos (by linarith)
      rw [max_eq_left ((min_le_right _ _).trans h8), max_eq_left ((min_le_right _ _).trans (by linarith))]

theorem isCompl_sub (p : F64) : IsCompl p (clamp01 (1.0 - p)) := by
  rcases h : p.isNaN with _ | _
  · exact one_sub_clamp h
  · left
    refine ⟨h, ?_⟩
    rw [sub_nan_right h, clamp01_nan (by decide)]; decide

/-- clamping first does not change the clamped complement -/
theorem isCompl_clamp (y : F64) : IsCompl (clamp01 y) (clamp01 (1.0 - y)) := by
  rcases h : y.isNaN with _ | _
  · obtain ⟨a1, a2⟩ := clamp01_num h
    rcases one_sub_clamp h with ⟨h', _⟩ | ⟨_, b1, b2⟩
    · rw [h] at h'; cases h'
    right
    refine ⟨a1, b1, ?_⟩
    rw [b2, a2]
    have r1 : RN 1 = 1 := by have := RN_int 1 (by norm_num); push_cast at this; exact this
    have r0 : RN 0 = 0 := by have := RN_int 0 (by norm_num); push_cast at this; exact this
    rcases le_total y.val 0 with h0 | h0
    · rw [min_eq_right (by linarith : y.val ≤ 1), max_eq_left h0, sub_zero, r1, min_self]
      have : 1 ≤ RN (1 - y.val) := by rw [← r1]; exact RN_mono (by linarith)
      rw [min_eq_left this]
    · rcases le_total y.val 1 with h1 | h1
      · rw [min_eq_right h1, max_eq_right h0]
      · rw [min_eq_left h1, max_eq_right zero_le_one, sub_self, r0]
        have : RN (1 - y.val) ≤ 0 := RN_nonpos (by linarith)
        rw [min_eq_right (by linarith : RN (1 - y.val) ≤ 1), max_eq_left this, min_eq_right zero_le_one, max_self]
  · left
    rw [clamp01_nan h]
    refine ⟨h, ?_⟩
    rw [sub_nan_right h, clamp01_nan (by decide)]; decide

theorem isCompl_zero_one : IsCompl (0.0 : F64) 1.0 := by
  right
  refine ⟨by decide +kernel, by decide +kernel, ?_⟩
  have r1 : RN 1 = 1 := by have := RN_int 1 (by norm_num); push_cast at this; exact this
  rw [zero_val, one_val, sub_zero, r1, min_self, max_eq_right zero_le_one]

theorem isCompl_one_zero : IsCompl (1.0 : F64) 0.0 := by
  right
  refine ⟨by decide +kernel, by decide +kernel, ?_⟩
  have r0 : RN 0 = 0 := by have := RN_int 0 (by norm_num); push_cast at this; exact this
  rw [zero_val, one_val, sub_self, r0, min_eq_right zero_le_one, max_self]

/-- complementary numbers in the unit interval add up to one, up to half a unit in the last place of one -/
theorem isCompl_sum {p q : F64} (h : IsCompl p q) (hp : p.Mem 0 1) : |p.val + q.val - 1| ≤ 2^(-53:ℤ) := by
  rcases h with ⟨h, _⟩ | ⟨_, _, h⟩
  · rw [hp.1] at h; cases h
  · obtain ⟨_, h1, h2⟩ := hp
    have a1 : RN (1 - p.val) ≤ 1 := by rw [← one_val]; exact RN_le_of_le (isFin_notNaN one_fin) (by rw [one_val]; linarith)
    have a2 : 0 ≤ RN (1 - p.val) := RN_nonneg (by linarith)
    rw [min_eq_right a1, max_eq_right a2] at h
    have b := RN_err (x := 1 - p.val) (by
      rw [abs_of_nonneg (by linarith)]
      have := HUGE_ge
      have h6 : (2:ℝ) ≤ 10^200 := by norm_num
      linarith)
    have e : p.val + q.val - 1 = RN (1 - p.val) - (1 - p.val) := by rw [h]; ring
    rw [e]
    refine b.trans (max_le ?_ ?_)
    · rw [abs_of_nonneg (by linarith), zpow_neg, div_eq_mul_inv]
      have : (0:ℝ) < (2^(53:ℤ))⁻¹ := by positivity
      have e2 : ((2:ℝ)^53)⁻¹ = (2^(53:ℤ))⁻¹ := by norm_num
      rw [e2]; nlinarith
    · rw [zpow_neg, one_div]
      apply inv_anti₀ (by positivity)
      rw [zpow_ofNat]; exact pow_le_pow_right₀ (by norm_num) (by norm_num)

section
variable [Libm F64]

theorem gammp_eq {a x : F64} (h : (F64.le 0.0 x && F64.lt 0.0 a) = true) : gammp a x =
    if F64.eq x 0.0 then .ok 0.0
    else if F64.lt x (a * EPS) then .ok 0.0
    else if F64.lt (a + 20.0 * (F64.sqrt a + 1.0)) x then .ok 1.0
    else if 100 ≤ F64.toUnsigned USIZE_MAX a then
      if F64.lt x (0.2 * a) then .ok (gser a x) else .ok (gammpapproxP a x)
    else if F64.lt x (a + 1.0) then .ok (gser a x)
    else .ok (clamp01 (1.0 - gcf a x)) := by
  have : gammp a x = if (F64.le 0.0 x && F64.lt 0.0 a) = true then _ else _ := rfl
  rw [this, if_pos h]
  simp only [ar_lt, ar_eq, ar_sqrt, ar_toU]

theorem gammq_eq {a x : F64} (h : (F64.le 0.0 x && F64.lt 0.0 a) = true) : gammq a x =
    if F64.eq x 0.0 then .ok 1.0
    else if F64.lt x (a * EPS) then .ok 1.0
    else if F64.lt (a + 20.0 * (F64.sqrt a + 1.0)) x then .ok 0.0
    else if 100 ≤ F64.toUnsigned USIZE_MAX a then
      if F64.lt x (0.2 * a) then .ok (clamp01 (1.0 - gser a x)) else .ok (gammpapproxQ a x)
    else if F64.lt x (a + 1.0) then .ok (clamp01 (1.0 - gser a x))
    else .ok (gcf a x) := by
  have : gammq a x = if (F64.le 0.0 x && F64.lt 0.0 a) = true then _ else _ := rfl
  rw [this, if_pos h]
  simp only [ar_lt, ar_eq, ar_sqrt, ar_toU]

theorem gammp_panic {a x : F64} (h : (F64.le 0.0 x && F64.lt 0.0 a) = false) : gammp a x = .error .panic := by
  have : gammp a x = if (F64.le 0.0 x && F64.lt 0.0 a) = true then _ else _ := rfl
  rw [this, if_neg (by rw [h]; exact Bool.false_ne_true)]

theorem gammq_panic {a x : F64} (h : (F64.le 0.0 x && F64.lt 0.0 a) = false) : gammq a x = .error .panic := by
  have : gammq a x = if (F64.le 0.0 x && F64.lt 0.0 a) = true then _ else _ := rfl
  rw [this, if_neg (by rw [h]; exact Bool.false_ne_true)]

/-- both functions return, and one value is the clamped complement of the other -/
theorem gammpq {a x : F64} (h : (F64.le 0.0 x && F64.lt 0.0 a) = true) :
    ∃ p q, gammp a x = .ok p ∧ gammq a x = .ok q ∧ (IsCompl p q ∨ IsCompl q p) := by
  rw [gammp_eq h, gammq_eq h]
  split
  · exact ⟨_, _, rfl, rfl, Or.inl isCompl_zero_one⟩
  · split
    · exact ⟨_, _, rfl, rfl, Or.inl isCompl_zero_one⟩
    · split
      · exact ⟨_, _, rfl, rfl, Or.inl isCompl_one_zero⟩
      · split
        · split
          · exact ⟨_, _, rfl, rfl, Or.inl (isCompl_sub _)⟩
          · exact ⟨_, _, rfl, rfl, Or.inr (isCompl_clamp _)⟩
        · split
          · exact ⟨_, _, rfl, rfl, Or.inl (isCompl_sub _)⟩
          · exact ⟨_, _, rfl, rfl, Or.inr (isCompl_sub _)⟩

end

/-! ## end points -/

theorem HUGE_X : HUGE = 2^106 * 2^918 := by rw [HUGE_eq, ← pow_add]
theorem MAXF_X : MAXF = 2^106 * 2^918 - 2^53 * 2^918 := by unfold MAXF; rw [HUGE_X, ← pow_add (2:ℝ) 53 918]
theorem X_ge : (1:ℝ) ≤ 2^918 := one_le_pow₀ (by norm_num)
theorem X_half : (2:ℝ) * 2^900 ≤ 2^918 := by rw [← pow_succ']; exact pow_le_pow_right₀ (by norm_num) (by norm_num)

theorem fin_le_MAXF {a : F64} (h : a.isFin = true) : |a.val| ≤ MAXF := by
  rw [abs_val]
  have h1 : a.mag ≤ INFMAG - 1 := by have := isFin_iff.1 h; omega
  have h2 : iv (INFMAG - 1) = (2^53 - 1) * 2^2045 := by decide +kernel
  have h3 := ivU_mono.2 h1
  rw [h2] at h3
  refine h3.trans (le_of_eq ?_)
  rw [div_eq_iff U_pos.ne']
  unfold MAXF
  rw [HUGE_eq, sub_mul, ← pow_add, ← pow_add, Nat.cast_mul, Nat.cast_pow, Nat.cast_ofNat,
    Nat.cast_sub (Nat.one_le_two_pow), Nat.cast_pow, Nat.cast_ofNat, Nat.cast_one, sub_mul, ← pow_add, one_mul]

/-- a finite number plus something far below its rounding unit does not overflow -/
theorem RN_no_overflow {v t : ℝ} (hv : v ≤ MAXF) (ht0 : 0 ≤ t) (ht : t ≤ 2^900) : RN (v + t) < HUGE := by
  refine lt_of_le_of_lt (RN_mono (by linarith : v + t ≤ MAXF + t)) ?_
  have hX := X_ge
  have hX2 := X_half
  have hH := HUGE_X
  have hM := MAXF_X
  have hlt : MAXF + t < HUGE := by
    rw [hH, hM]; generalize (2:ℝ)^918 = X at *; generalize (2:ℝ)^900 = Y at *
    clear hH hM hv; norm_num; nlinarith
  have hM0 : 0 ≤ MAXF := by
    rw [hM]; generalize (2:ℝ)^918 = X at *; clear hH hM hv hlt hX2 ht; norm_num; nlinarith
  have hMt : 0 ≤ MAXF + t := add_nonneg hM0 ht0
  have b := RN_err (x := MAXF + t) (by rw [abs_of_nonneg hMt]; exact hlt)
  by_contra hc
  have hc' : RN (MAXF + t) = HUGE := le_antisymm (RN_le_inf _) (not_lt.1 hc)
  rw [hc', abs_of_nonneg (sub_nonneg.2 hlt.le), abs_of_nonneg hMt] at b
  rw [hH, hM] at b
  have h5 : (1:ℝ) / 2^1075 ≤ 1 := by
    rw [div_le_one (by positivity)]; exact one_le_pow₀ (by norm_num)
  clear hc hc' hlt hv hM0 hH hM hMt
  rcases le_max_iff.1 b with b | b
  · clear h5
    generalize (2:ℝ)^918 = X at *; generalize (2:ℝ)^900 = Y at *
    rw [le_div_iff₀ (by positivity)] at b
    norm_num at b; nlinarith
  · have b := b.trans h5
    clear h5
    generalize (2:ℝ)^918 = X at *; generalize (2:ℝ)^900 = Y at *
    norm_num at b; nlinarith

theorem lit20_val : (20.0 : F64).val = 20 := by
  have := val_of_int (x := (20.0 : F64)) 20 (by decide +kernel); rw [this]; norm_num
theorem lit20_fin : (20.0 : F64).isFin = true := by decide +kernel

theorem HUGE_512 : HUGE = 2^512 * 2^512 := by rw [HUGE_eq, ← pow_add]

/-- the far threshold `a + 20(sqrt a + 1)` is finite for finite `a` -/
theorem far_fin {a : F64} (hf : a.isFin = true) (h0 : 0 < a.val) :
    (a + 20.0 * (F64.sqrt a + 1.0)).isFin = true := by
  obtain ⟨s1, s2, s3⟩ := sqrt_spec hf h0
  have hs : (F64.sqrt a).val ≤ 2^512 := by
    rw [s2, ← RN_pow2 (p := 512) (by norm_num)]
    apply RN_mono
    rw [Real.sqrt_le_left (by positivity), pow_two, ← HUGE_512]
    exact (fin_lt hf).le
  have hs0 : 0 ≤ (F64.sqrt a).val := val_nonneg_of_neg s3
  have p514 : (2:ℝ)^512 + 1 ≤ 2^514 := by
    have e : (2:ℝ)^514 = 4 * 2^512 := by rw [show (514:ℕ) = 2 + 512 from rfl, pow_add]; norm_num
    have : (1:ℝ) ≤ 2^512 := one_le_pow₀ (by norm_num)
    rw [e]; generalize (2:ℝ)^512 = Y at *; linarith only [this]
  have fin_of : ∀ y : F64, y.isNaN = false → 0 ≤ y.val → y.val ≤ 2^900 → y.isFin = true := by
    intro y _ h1 h2
    rw [isFin_iff_val, abs_of_nonneg h1]
    refine lt_of_le_of_lt h2 ?_
    rw [HUGE_eq]; exact pow_lt_pow_right₀ (by norm_num) (by norm_num)
  have le900 : ∀ k : ℕ, k ≤ 900 → (2:ℝ)^k ≤ 2^900 := fun k hk => pow_le_pow_right₀ (by norm_num) hk
  have fs := fin_of _ s1 hs0 (hs.trans (le900 _ (by norm_num)))
  obtain ⟨t1, t2⟩ := add_spec fs one_fin
  rw [one_val] at t2
  have t3 : (F64.sqrt a + 1.0).val ≤ 2^514 := by
    rw [t2, ← RN_pow2 (p := 514) (by norm_num)]; apply RN_mono
    exact (add_le_add_left hs 1).trans p514
  have t4 : 0 ≤ (F64.sqrt a + 1.0).val := by rw [t2]; exact RN_nonneg (by linarith)
  have ft := fin_of _ t1 t4 (t3.trans (le900 _ (by norm_num)))
  obtain ⟨u1, u2⟩ := Iv.mul_spec' lit20_fin ft
  rw [lit20_val] at u2
  have u3 : (20.0 * (F64.sqrt a + 1.0)).val ≤ 2^519 := by
    rw [u2, ← RN_pow2 (p := 519) (by norm_num)]; apply RN_mono
    have e : (2:ℝ)^519 = 32 * 2^514 := by rw [show (519:ℕ) = 5 + 514 from rfl, pow_add]; norm_num
    rw [e]
    have : (0:ℝ) ≤ 2^514 := by positivity
    exact mul_le_mul (by norm_num) t3 t4 (by norm_num)
  have u4 : 0 ≤ (20.0 * (F64.sqrt a + 1.0)).val := by rw [u2]; exact RN_nonneg (by linarith)
  have fu := fin_of _ u1 u4 (u3.trans (le900 _ (by norm_num)))
  obtain ⟨w1, w2⟩ := add_spec hf fu
  rw [isFin_iff_val, w2, abs_of_nonneg (RN_nonneg (by linarith))]
  have := fin_le_MAXF hf
  rw [abs_of_pos h0] at this
  exact RN_no_overflow this u4 (u3.trans (le900 _ (by norm_num)))

end Verif
