import Mathlib.Algebra.Order.Floor.Semifield
import Mathlib.Data.Rat.Floor
import Verif.F64.Val

/-!
# More about the operations: square root, fma, casts, rounding error, exactness, special values
-/

namespace Verif

/-! ## representable numbers -/

theorem exists_iv (k m : Nat) (hm : m ≤ 2^53) : ∃ n, iv n = m * 2^k := by
  induction k generalizing m with
  | zero => exact ⟨0*2^52+m, iv_eq (Or.inl rfl) hm⟩
  | succ k ih =>
    rcases Nat.lt_or_ge m (2^52) with h | h
    · obtain ⟨n, hn⟩ := ih (2*m) (by omega)
      exact ⟨n, by rw [hn, pow_succ]; ring⟩
    · exact ⟨(k+1)*2^52+m, iv_eq (Or.inr h) hm⟩

/-- The rounding function fixes `m·2^k` units for every 53-bit `m`. -/
theorem RN_rep (m k : Nat) (hm : m ≤ 2^53) (h : m * 2^k ≤ 2^2098) :
    RN (((m * 2^k : ℕ) : ℝ) / 2^1074) = ((m * 2^k : ℕ) : ℝ) / 2^1074 := by
  obtain ⟨n, hn⟩ := exists_iv k m hm
  have hn2 : n ≤ INFMAG := by
    rw [← hn, ← iv_inf, iv_strictMono.le_iff_le] at h; exact h
  rw [← hn]
  unfold RN; rw [if_pos (div_nonneg (Nat.cast_nonneg _) U_pos.le), rnd0_ivU hn2]

theorem RN_dyadic (m : ℤ) (e : ℤ) (hm : |m| ≤ 2^53) (he : -1074 ≤ e) (h : |(m:ℝ) * 2^e| ≤ HUGE) :
    RN ((m:ℝ) * 2^e) = (m:ℝ) * 2^e := by
  have key : ∀ m : ℕ, m ≤ 2^53 → (m:ℝ) * 2^e ≤ HUGE → RN ((m:ℝ) * 2^e) = (m:ℝ) * 2^e := by
    intro m hm h
    obtain ⟨k, hk⟩ : ∃ k : ℕ, e = (k:ℤ) - 1074 := ⟨(e+1074).toNat, by omega⟩
    have e1 : (m:ℝ) * 2^e = ((m * 2^k : ℕ) : ℝ) / 2^1074 := by
      rw [hk, zpow_sub₀ (by norm_num)]
      push_cast
      rw [mul_div_assoc]; rfl
    rw [e1]
    apply RN_rep m k hm
    rw [e1, div_le_iff₀ U_pos, HUGE_eq, ← pow_add] at h
    have h2 : ((m * 2^k : ℕ) : ℝ) ≤ ((2^2098 : ℕ) : ℝ) := by
      rw [Nat.cast_pow (2:ℕ) 2098, Nat.cast_ofNat]; exact h
    exact Nat.cast_le.1 h2
  have hp : (0:ℝ) < 2^e := by positivity
  rcases le_total 0 m with h0 | h0
  · obtain ⟨n, rfl⟩ := Int.eq_ofNat_of_zero_le h0
    have := key n (by rw [abs_of_nonneg h0] at hm; exact_mod_cast hm)
      (by rw [abs_of_nonneg (by positivity)] at h; exact_mod_cast h)
    exact_mod_cast this
  · obtain ⟨n, hn⟩ := Int.eq_ofNat_of_zero_le (by omega : 0 ≤ -m)
    have hm' : m = -(n:ℤ) := by omega
    subst hm'
    have := key n (by rw [abs_neg, abs_of_nonneg (by positivity)] at hm; exact_mod_cast hm)
      (by
        push_cast at h
        rw [neg_mul, abs_neg, abs_of_nonneg (by positivity)] at h; exact h)
    push_cast
    rw [neg_mul, RN_neg, this]

theorem RN_int (i : ℤ) (h : |i| ≤ 2^53) : RN (i:ℝ) = i := by
  have := RN_dyadic i 0 h (by norm_num) (by
    rw [zpow_zero, mul_one]
    have : |(i:ℝ)| ≤ 2^53 := by exact_mod_cast h
    refine this.trans (le_trans ?_ HUGE_ge)
    norm_num)
  simpa using this

theorem RN_nat (n : ℕ) (h : n ≤ 2^53) : RN (n:ℝ) = n := by
  have := RN_int n (by rw [abs_of_nonneg (by positivity)]; exact_mod_cast h)
  simpa using this

@[simp] theorem RN_one : RN 1 = 1 := by
  have := RN_nat 1 (by norm_num); simpa using this

/-- Every nonnegative real below infinity lies between two adjacent indices. -/
theorem exists_bracket {x : ℝ} (h0 : 0 ≤ x) (h1 : x < iv INFMAG) :
    ∃ n, n < INFMAG ∧ (iv n : ℝ) ≤ x ∧ x < iv (n+1) := by
  classical
  have hex : ∃ n, x < (iv (n+1) : ℝ) := ⟨INFMAG, lt_trans h1 (Nat.cast_lt.2 (iv_lt_succ _))⟩
  refine ⟨Nat.find hex, ?_, ?_, Nat.find_spec hex⟩
  · have hle : Nat.find hex ≤ INFMAG - 1 := Nat.find_min' hex (by
      have : INFMAG - 1 + 1 = INFMAG := by decide
      rw [this]; exact h1)
    have : 0 < INFMAG := by decide
    omega
  · by_contra hc
    push Not at hc
    rcases Nat.eq_zero_or_pos (Nat.find hex) with h | h
    · rw [h, iv_zero] at hc; push_cast at hc; linarith
    · have := Nat.find_min' hex (m := Nat.find hex - 1) (by
        have e : Nat.find hex - 1 + 1 = Nat.find hex := by omega
        rw [e]; exact hc)
      omega

theorem rndMag_err {x : ℝ} (h0 : 0 ≤ x) (h1 : x < iv INFMAG) :
    |(iv (rndMag x) : ℝ) - x| ≤ max (x / 2^53) (1/2) := by
  obtain ⟨n, hn, hl, hu⟩ := exists_bracket h0 h1
  have hb := rndMag_bracket hl hu hn
  obtain ⟨k, m, rfl, hk, hm⟩ := idx_decomp n
  have e1 : (iv (k*2^52+m) : ℝ) = m * 2^k := by rw [iv_eq hk (by omega)]; push_cast; ring
  have e2 : (iv (k*2^52+m+1) : ℝ) = (m+1) * 2^k := by rw [iv_succ hk hm]; push_cast; ring
  have hgap : (2:ℝ)^k / 2 ≤ max (x / 2^53) (1/2) := by
    rcases hk with rfl | hk
    · apply le_max_of_le_right; norm_num
    · apply le_max_of_le_left
      have h3 : ((2^52 : ℕ):ℝ) ≤ m := Nat.cast_le.2 hk
      rw [Nat.cast_pow, Nat.cast_ofNat] at h3
      have h4 : (2:ℝ)^52 * 2^k ≤ x := by
        rw [e1] at hl
        refine le_trans ?_ hl
        exact mul_le_mul_of_nonneg_right h3 (by positivity)
      rw [le_div_iff₀ (by positivity)]
      calc (2:ℝ)^k/2 * 2^53 = 2^52 * 2^k := by ring
        _ ≤ x := h4
  by_cases ha : Above (k*2^52+m) x
  · rw [hb.1 ha, e2]
    have : (m:ℝ) * 2^k + (m+1)*2^k ≤ 2 * x := by
      unfold Above at ha
      rw [e1, e2] at ha
      rcases ha with ha | ha
      · exact ha.le
      · exact ha.1.le
    rw [e2] at hu
    rw [abs_of_nonneg (by linarith)]
    have : (m + 1 : ℝ) * 2^k - x ≤ 2^k/2 := by nlinarith
    linarith
  · rw [hb.2 ha, e1]
    have : 2 * x ≤ (m:ℝ) * 2^k + (m+1)*2^k := by
      unfold Above at ha
      rw [e1, e2] at ha
      push Not at ha
      exact ha.1
    rw [e1] at hl
    rw [abs_of_nonpos (by linarith)]
    have : x - m * 2^k ≤ 2^k/2 := by nlinarith
    linarith

/-- Rounding error: half an ulp relatively, half the smallest subnormal absolutely. -/
theorem RN_err {x : ℝ} (h : |x| < HUGE) : |RN x - x| ≤ max (|x| / 2^53) (1 / 2^1075) := by
  have key : ∀ x : ℝ, 0 ≤ x → x < HUGE → |RN x - x| ≤ max (x / 2^53) (1 / 2^1075) := by
    intro x h0 h1
    have h2 : x * 2^1074 < iv INFMAG := by
      rw [iv_inf, Nat.cast_pow, Nat.cast_ofNat]
      calc x * 2^1074 < HUGE * 2^1074 := by
            exact mul_lt_mul_of_pos_right h1 U_pos
        _ = 2^2098 := by rw [HUGE_eq, ← pow_add]
    have h3 := rndMag_err (mul_nonneg h0 U_pos.le) h2
    unfold RN; rw [if_pos h0]; unfold rnd0
    have e : (iv (rndMag (x * 2^1074)) : ℝ) / 2^1074 - x
        = ((iv (rndMag (x * 2^1074)) : ℝ) - x * 2^1074) / 2^1074 := by
      rw [sub_div, mul_div_assoc, div_self U_pos.ne', mul_one]
    rw [e, abs_div, abs_of_pos U_pos]
    refine (div_le_div_of_nonneg_right h3 U_pos.le).trans ?_
    rw [div_le_iff₀ U_pos]
    apply max_le
    · refine le_trans (le_of_eq ?_) (mul_le_mul_of_nonneg_right (le_max_left _ _) U_pos.le)
      rw [mul_div_right_comm]
    · refine le_trans (le_of_eq ?_) (mul_le_mul_of_nonneg_right (le_max_right _ _) U_pos.le)
      rw [pow_succ, one_div_mul_eq_div, mul_comm, ← div_div, div_right_comm, div_self U_pos.ne']
  rcases le_total 0 x with h0 | h0
  · rw [abs_of_nonneg h0] at h ⊢; exact key x h0 h
  · rw [abs_of_nonpos h0] at h ⊢
    have := key (-x) (by linarith) h
    rw [RN_neg] at this
    rwa [show - RN x - -x = -(RN x - x) by ring, abs_neg] at this

theorem RN_err' {x : ℝ} (h : |x| < HUGE) : |RN x - x| ≤ |x| / 2^53 + 1 / 2^1075 :=
  (RN_err h).trans (max_le_add_of_nonneg (by positivity) (by positivity))

theorem RN_err_rel {x : ℝ} (h : |x| < HUGE) (h2 : 1 / 2^1022 ≤ |x|) : |RN x - x| ≤ |x| / 2^53 := by
  refine (RN_err h).trans (max_le (le_refl _) ?_)
  rw [le_div_iff₀ (by positivity)]
  refine le_trans (le_of_eq ?_) h2
  rw [div_mul_eq_mul_div, one_mul, div_eq_div_iff (by positivity) (by positivity), one_mul,
    ← pow_add]

theorem RN_le_of_le {x : ℝ} {b : F64} (hb : b.isNaN = false) (h : x ≤ b.val) : RN x ≤ b.val := by
  rw [← RN_val hb]; exact RN_mono h

theorem le_RN_of_le {x : ℝ} {b : F64} (hb : b.isNaN = false) (h : b.val ≤ x) : b.val ≤ RN x := by
  rw [← RN_val hb]; exact RN_mono h

/-- every value of `RN` is the value of a number -/
theorem RN_exists (x : ℝ) : ∃ a : F64, a.isNaN = false ∧ a.val = RN x := by
  rcases le_total 0 x with h | h
  · refine ⟨⟨false, rndMag (x*2^1074), lt_of_le_of_lt (rndMag_le _) (by decide)⟩, ?_, ?_⟩
    · rw [F64.notNaN_iff]; exact rndMag_le _
    · rw [F64.val_pos_form rfl]; unfold RN; rw [if_pos h]; rfl
  · refine ⟨⟨true, rndMag (-x*2^1074), lt_of_le_of_lt (rndMag_le _) (by decide)⟩, ?_, ?_⟩
    · rw [F64.notNaN_iff]; exact rndMag_le _
    · rw [F64.val_neg_form rfl, ← neg_neg x, RN_neg, neg_neg]
      unfold RN; rw [if_pos (by linarith)]; rfl

theorem RN_idem (x : ℝ) : RN (RN x) = RN x := by
  obtain ⟨a, h1, h2⟩ := RN_exists x
  rw [← h2, RN_val h1]

/-- the largest finite value -/
@[irreducible] noncomputable def MAXF : ℝ := HUGE - 2^971
theorem MAXF_lt : MAXF < HUGE := by
  unfold MAXF; exact sub_lt_self _ (by positivity)
theorem MAXF_ge : HUGE ≤ 2 * MAXF := by
  unfold MAXF; rw [HUGE_eq, mul_sub, ← pow_succ', ← pow_succ']
  have h : (2:ℝ)^972 ≤ 2^1024 := pow_le_pow_right₀ (by norm_num) (by norm_num)
  have e : (2:ℝ)^(1024+1) = 2^1024 + 2^1024 := by rw [pow_succ]; ring
  have e' : (2:ℝ)^(971+1) = 2^972 := rfl
  rw [e, e', ← sub_nonneg] at *
  generalize (2:ℝ)^1024 = X at *
  generalize (2:ℝ)^972 = Y at *
  linarith only [h]

theorem RN_MAXF : RN MAXF = MAXF := by
  have e : ((2^53-1 : ℤ) : ℝ) * 2^(971:ℤ) = MAXF := by
    unfold MAXF
    rw [HUGE_eq]
    have h1 : (2:ℝ)^(971:ℤ) = 2^971 := rfl
    have h2 : ((2^53-1 : ℤ) : ℝ) = 2^53 - 1 := by push_cast; norm_num
    rw [h1, h2, sub_mul, ← pow_add, one_mul]
  rw [← e]
  apply RN_dyadic
  · norm_num
  · norm_num
  · rw [e, abs_of_nonneg]
    · exact MAXF_lt.le
    · linarith [MAXF_ge, HUGE_pos]

theorem RN_fin {x : ℝ} (h : |x| ≤ MAXF) : |RN x| < HUGE := by
  rw [RN_abs]
  have := RN_mono h
  rw [RN_MAXF] at this
  linarith [MAXF_lt]

/-! ## Square root -/

theorem isqrt_spec (n : Nat) : isqrt n * isqrt n ≤ n ∧ n < (isqrt n + 1) * (isqrt n + 1) := by
  have slow : ∀ f n, n ≤ f → isqrtSlow f n * isqrtSlow f n ≤ n ∧ n < (isqrtSlow f n + 1) * (isqrtSlow f n + 1) := by
    intro f
    induction f with
    | zero => intro n hn; have : n = 0 := by omega
              subst this; simp [isqrtSlow]
    | succ f ih =>
      intro n hn
      rcases Nat.eq_zero_or_pos n with h0 | h0
      · subst h0
        have := ih 0 (by omega)
        have hz : isqrtSlow f 0 = 0 := by nlinarith [this.1]
        simp [isqrtSlow, hz]
      · have := ih (n/4) (by omega)
        simp only [isqrtSlow]
        generalize isqrtSlow f (n/4) = t at *
        split
        · rename_i h
          refine ⟨h, ?_⟩
          have h4 : n < 4 * (n/4) + 4 := by omega
          nlinarith [this.2]
        · rename_i h
          refine ⟨?_, by omega⟩
          have h4 : 4 * (n/4) ≤ n := by omega
          nlinarith [this.1]
  unfold isqrt; rw [force_eq]
  split
  · assumption
  · exact slow n n (le_refl _)

theorem rndMag_congr_int {x y : ℝ} (hx : (2:ℝ)^53 ≤ x) (hy : (2:ℝ)^53 ≤ y)
    (h : ∀ c : ℕ, ((c:ℝ) < x ↔ (c:ℝ) < y) ∧ ((c:ℝ) = x ↔ (c:ℝ) = y)) : rndMag x = rndMag y := by
  have key : ∀ n, Above n x ↔ Above n y := by
    intro n
    obtain ⟨k, m, rfl, hk, hm⟩ := idx_decomp n
    have e1 : (iv (k*2^52+m) : ℝ) = m * 2^k := by rw [iv_eq hk (by omega)]; push_cast; ring
    have e2 : (iv (k*2^52+m+1) : ℝ) = (m+1) * 2^k := by rw [iv_succ hk hm]; push_cast; ring
    unfold Above; rw [e1, e2]
    rcases Nat.eq_zero_or_pos k with h0 | h0
    · have hm' : (m:ℝ) + 1 ≤ 2^53 := by exact_mod_cast hm
      subst h0
      constructor <;> intro _ <;> left <;> norm_num at * <;> linarith
    · obtain ⟨j, rfl⟩ : ∃ j, k = j+1 := ⟨k-1, by omega⟩
      have hc := h ((2*m+1) * 2^j)
      push_cast at hc
      have e : (m:ℝ) * 2^(j+1) + (m+1) * 2^(j+1) = 2 * ((2*m+1) * 2^j) := by rw [pow_succ]; ring
      rw [e, mul_lt_mul_iff_right₀ (by norm_num : (0:ℝ) < 2), mul_lt_mul_iff_right₀ (by norm_num : (0:ℝ) < 2),
        mul_right_inj' (by norm_num : (2:ℝ) ≠ 0), mul_right_inj' (by norm_num : (2:ℝ) ≠ 0), hc.1, hc.2]
  apply le_antisymm
  · by_contra hc
    have := (lt_rndMag (n := rndMag y) (x := x)).1 (by omega)
    have := (lt_rndMag (n := rndMag y) (x := y)).2 ⟨this.1, (key _).1 this.2⟩
    omega
  · by_contra hc
    have := (lt_rndMag (n := rndMag x) (x := y)).1 (by omega)
    have := (lt_rndMag (n := rndMag x) (x := x)).2 ⟨this.1, (key _).2 this.2⟩
    omega

theorem sqrt_core (n : ℕ) (hn : 2^106 ≤ n) :
    rndMag (((2 * isqrt n + (if isqrt n * isqrt n = n then 0 else 1) : ℕ) : ℝ) / ((2:ℕ):ℝ)) = rndMag (Real.sqrt n) := by
  obtain ⟨h1, h2⟩ := isqrt_spec n
  generalize isqrt n = q at *
  have h1' : (q:ℝ) * q ≤ n := by exact_mod_cast h1
  have h2' : (n:ℝ) < (q+1) * (q+1) := by exact_mod_cast h2
  have hs1 : (q:ℝ) ≤ Real.sqrt n := by
    apply Real.le_sqrt_of_sq_le; rw [sq]; exact h1'
  have hs2 : Real.sqrt n < q + 1 := by
    rw [Real.sqrt_lt' (by positivity), sq]; exact h2'
  have hq : (2:ℝ)^53 ≤ q := by
    have : 2^53 < q + 1 := by
      by_contra hc
      push Not at hc
      have h3 : n < 2^53 * 2^53 := lt_of_lt_of_le h2 (Nat.mul_le_mul hc hc)
      omega
    have : 2^53 ≤ q := by omega
    exact_mod_cast this
  by_cases he : q * q = n
  · rw [if_pos he]
    have : Real.sqrt n = q := by
      rw [← he]; push_cast; exact Real.sqrt_mul_self (by positivity)
    rw [this]; congr 1; push_cast; ring
  · rw [if_neg he]
    have hne : (q:ℝ) < Real.sqrt n := by
      apply Real.lt_sqrt_of_sq_lt
      rw [sq]
      exact_mod_cast lt_of_le_of_ne h1 he
    apply rndMag_congr_int
    · push_cast; linarith
    · linarith
    · intro c
      push_cast
      rcases Nat.lt_or_ge q c with h | h
      · have : (q:ℝ) + 1 ≤ c := by exact_mod_cast h
        exact ⟨⟨fun _ => by linarith, fun _ => by linarith⟩, ⟨fun _ => by linarith, fun _ => by linarith⟩⟩
      · have : (c:ℝ) ≤ q := by exact_mod_cast h
        exact ⟨⟨fun _ => by linarith, fun _ => by linarith⟩, ⟨fun _ => by linarith, fun _ => by linarith⟩⟩

namespace F64

theorem sqrt_spec {a : F64} (ha : a.isFin = true) (h0 : 0 < a.val) :
    (sqrt a).isNaN = false ∧ (sqrt a).val = RN (Real.sqrt a.val) ∧ (sqrt a).neg = false := by
  have hn := neg_of_val_pos h0
  have hz : a.isZero = false := val_ne_zero.1 h0.ne'
  unfold sqrt
  rw [isFin_notNaN ha, hz, hn, isFin_notInf ha]
  simp only [Bool.false_eq_true, if_false]
  refine ⟨mk'_notNaN _ _ _, ?_, mk'_neg _ _ _⟩
  have ev : a.val = (a.um : ℝ) / 2^1074 := by rw [val_pos_form hn]; rfl
  have hum : 1 ≤ a.um := by
    rcases Nat.eq_zero_or_pos a.um with h | h
    · rw [h] at ev; simp at ev; linarith
    · exact h
  have es : Real.sqrt a.val * 2^1074 = Real.sqrt ((a.um * 2^1074 : ℕ) : ℝ) := by
    rw [ev]; rw [Nat.cast_mul, Nat.cast_pow, Nat.cast_ofNat]
    rw [show ((a.um : ℝ) * 2^1074) = (a.um : ℝ) / 2^1074 * (2^1074)^2 by
      rw [sq, ← mul_assoc, div_mul_cancel₀ _ U_pos.ne']]
    rw [Real.sqrt_mul (by positivity), Real.sqrt_sq U_pos.le]
  have hb : 2^106 ≤ a.um * 2^1074 :=
    le_trans (Nat.pow_le_pow_right (by norm_num) (by norm_num)) (Nat.le_mul_of_pos_left _ hum)
  generalize a.um * 2^1074 = n at *
  rw [mk'_eq, val_eq]
  simp only [Bool.false_eq_true, if_false]
  rw [roundMag_eq _ _ (by norm_num), sqrt_core n hb]
  unfold RN; rw [if_pos (Real.sqrt_nonneg _)]; unfold rnd0
  rw [es]

theorem fma_spec {a b c : F64} (ha : a.isFin = true) (hb : b.isFin = true) (hc : c.isFin = true) :
    (fma a b c).isNaN = false ∧ (fma a b c).val = RN (a.val * b.val + c.val) := by
  unfold fma
  rw [isFin_notNaN ha, isFin_notNaN hb, isFin_notNaN hc, isFin_notInf ha, isFin_notInf hb, isFin_notInf hc]
  simp only [Bool.or_self, Bool.false_eq_true, if_false]
  have hs : a.val * b.val + c.val = ((a.sv * b.sv + c.sv * 2^1074 : Int) : ℝ) / 2^1074 / 2^1074 := by
    unfold val; push_cast
    rw [add_div, add_div, mul_div_assoc (c.sv : ℝ), div_self U_pos.ne', mul_one]
    congr 1; rw [div_mul_div_comm, div_div]
  split
  · rename_i h
    refine ⟨rfl, ?_⟩
    rw [szero_val, hs, h]; simp
  · refine ⟨mk'_notNaN _ _ _, ?_⟩
    rw [mk'_val _ _ _ (by positivity), hs]
    congr 1
    generalize a.sv * b.sv + c.sv * 2^1074 = s at *
    rw [← mul_div_assoc, int_sgn]
    push_cast; rfl

/-! ## special values -/

theorem add_nan_left {a b : F64} (h : a.isNaN = true) : a + b = nan := by
  rw [add_def]; unfold add; rw [h]; rfl
theorem add_nan_right {a b : F64} (h : b.isNaN = true) : a + b = nan := by
  rw [add_def]; unfold add; rw [h]; simp
theorem sub_nan_left {a b : F64} (h : a.isNaN = true) : a - b = nan := add_nan_left h
theorem sub_nan_right {a b : F64} (h : b.isNaN = true) : a - b = nan := by
  rw [sub_eq]; exact add_nan_right (by simpa using h)
theorem mul_nan_left {a b : F64} (h : a.isNaN = true) : a * b = nan := by
  rw [mul_def]; unfold mul; rw [h]; rfl
theorem mul_nan_right {a b : F64} (h : b.isNaN = true) : a * b = nan := by
  rw [mul_def]; unfold mul; rw [h]; simp
theorem div_nan_left {a b : F64} (h : a.isNaN = true) : a / b = nan := by
  rw [div_def]; unfold div; rw [h]; rfl
theorem div_nan_right {a b : F64} (h : b.isNaN = true) : a / b = nan := by
  rw [div_def]; unfold div; rw [h]; simp
theorem sqrt_nan {a : F64} (h : a.isNaN = true) : sqrt a = nan := by
  unfold sqrt; rw [h]; rfl

@[simp] theorem nan_isNaN : nan.isNaN = true := by decide
@[simp] theorem inf_isNaN : inf.isNaN = false := by decide
@[simp] theorem inf_isInf : inf.isInf = true := by decide
@[simp] theorem ninf_isInf : ninf.isInf = true := by decide
@[simp] theorem ninf_isNaN : ninf.isNaN = false := by decide
@[simp] theorem zero_isNaN : zero.isNaN = false := by decide
@[simp] theorem zero_isFin : zero.isFin = true := by decide
@[simp] theorem nan_isFin : nan.isFin = false := by decide
@[simp] theorem inf_isFin : inf.isFin = false := by decide
@[simp] theorem inf_neg : inf.neg = false := rfl
@[simp] theorem ninf_neg : ninf.neg = true := rfl
@[simp] theorem sinf_isInf (s) : (sinf s).isInf = true := by cases s <;> decide
@[simp] theorem sinf_isNaN (s) : (sinf s).isNaN = false := by cases s <;> decide
@[simp] theorem sinf_neg (s) : (sinf s).neg = s := rfl
@[simp] theorem szero_isZero (s) : (szero s).isZero = true := rfl
@[simp] theorem szero_isFin (s) : (szero s).isFin = true := by cases s <;> decide
@[simp] theorem szero_isNaN (s) : (szero s).isNaN = false := by cases s <;> decide

theorem isInf_cases {a : F64} (h : a.isInf = true) : a = sinf a.neg :=
  ext' rfl (isInf_iff.1 h)
theorem isZero_cases {a : F64} (h : a.isZero = true) : a = szero a.neg :=
  ext' rfl (isZero_iff.1 h)

theorem inf_val : inf.val = HUGE := by rw [val_pos_form rfl]; exact ivInf
theorem ninf_val : ninf.val = -HUGE := by rw [val_neg_form rfl]; congr 1; exact ivInf

theorem notZero_of_inf {a : F64} (h : a.isInf = true) : a.isZero = false := by
  rw [isInf_iff] at h; unfold isZero; rw [h]; decide

theorem add_inf_left {a b : F64} (ha : a.isInf = true) (hb : b.isNaN = false)
    (h : b.isInf = true → a.neg = b.neg) : a + b = a := by
  rw [add_def]; unfold add
  rw [isInf_notNaN ha, hb, ha]
  simp only [Bool.or_self, Bool.false_eq_true, if_false, if_true]
  rcases hbi : b.isInf with _ | _
  · simp
  · rw [h hbi]; simp

theorem add_inf_right {a b : F64} (ha : a.isFin = true) (hb : b.isInf = true) : a + b = b := by
  rw [add_def]; unfold add
  rw [isFin_notNaN ha, isInf_notNaN hb, isFin_notInf ha, hb]
  simp

theorem add_inf_nan {a b : F64} (ha : a.isInf = true) (hb : b.isInf = true) (h : a.neg ≠ b.neg) :
    a + b = nan := by
  rw [add_def]; unfold add
  rw [isInf_notNaN ha, isInf_notNaN hb, ha, hb]
  simp [h]

theorem mul_inf {a b : F64} (ha : a.isNaN = false) (hb : b.isNaN = false)
    (h : a.isInf = true ∨ b.isInf = true) (hza : a.isZero = false) (hzb : b.isZero = false) :
    a * b = sinf (a.neg != b.neg) := by
  rw [mul_def]; unfold mul
  rw [ha, hb, hza, hzb]
  have : (a.isInf || b.isInf) = true := by simpa using h
  rw [this]; simp

theorem mul_inf_zero {a b : F64} (h : (a.isInf = true ∧ b.isZero = true) ∨ (a.isZero = true ∧ b.isInf = true)) :
    a * b = nan := by
  rw [mul_def]; unfold mul
  rcases h with ⟨h1, h2⟩ | ⟨h1, h2⟩ <;> simp [h1, h2]

theorem div_inf_left {a b : F64} (ha : a.isInf = true) (hb : b.isFin = true) :
    a / b = sinf (a.neg != b.neg) := by
  rw [div_def]; unfold div
  rw [isInf_notNaN ha, isFin_notNaN hb, ha, isFin_notInf hb]; simp

theorem div_inf_right {a b : F64} (ha : a.isFin = true) (hb : b.isInf = true) :
    a / b = szero (a.neg != b.neg) := by
  rw [div_def]; unfold div
  rw [isFin_notNaN ha, isInf_notNaN hb, isFin_notInf ha, hb]; simp

theorem div_inf_inf {a b : F64} (ha : a.isInf = true) (hb : b.isInf = true) : a / b = nan := by
  rw [div_def]; unfold div
  rw [isInf_notNaN ha, isInf_notNaN hb, ha, hb]; simp

theorem div_zero_pos {a b : F64} (ha : a.isFin = true) (hza : a.isZero = false) (hb : b.isZero = true) :
    a / b = sinf (a.neg != b.neg) := by
  rw [div_def]; unfold div
  have := isZero_fin hb
  rw [isFin_notNaN ha, isFin_notNaN this, isFin_notInf ha, isFin_notInf this, hb, hza]; simp

theorem div_zero_zero {a b : F64} (ha : a.isZero = true) (hb : b.isZero = true) : a / b = nan := by
  rw [div_def]; unfold div
  have h1 := isZero_fin hb
  have h2 := isZero_fin ha
  rw [isFin_notNaN h1, isFin_notNaN h2, isFin_notInf h1, isFin_notInf h2, hb, ha]; simp

/-! ## sign symmetry (up to NaN) -/

/-- equal, or both NaN (the sign and payload of a NaN result are unspecified in Rust) -/
def Same (a b : F64) : Prop := a = b ∨ (a.isNaN = true ∧ b.isNaN = true)

theorem Same.refl (a : F64) : Same a a := Or.inl rfl

theorem val_of_neg {a : F64} (h : a.isNaN = false) : (-a).isNaN = false := by simpa using h

theorem mul_neg_left {a b : F64} (h : (a * b).isNaN = false) : -a * b = -(a * b) := by
  rcases cases3 a with ha | ha | ha
  · rw [mul_nan_left ha] at h; simp at h
  · rcases cases3 b with hb | hb | hb
    · rw [mul_nan_right hb] at h; simp at h
    · rw [mul_inf (isInf_notNaN ha) (isInf_notNaN hb) (Or.inl ha) (notZero_of_inf ha) (notZero_of_inf hb),
        mul_inf (a := -a) (by simpa using isInf_notNaN ha) (isInf_notNaN hb) (Or.inr hb)
          (by simpa using notZero_of_inf ha) (notZero_of_inf hb)]
      apply ext' <;> simp [sinf]
    · rcases hz : b.isZero with _ | _
      · rw [mul_inf (isInf_notNaN ha) (isFin_notNaN hb) (Or.inl ha) (notZero_of_inf ha) hz,
          mul_inf (a := -a) (by simpa using isInf_notNaN ha) (isFin_notNaN hb) (Or.inl (by simpa using ha))
          (by simpa using notZero_of_inf ha) hz]
        apply ext' <;> simp [sinf]
      · rw [mul_inf_zero (Or.inl ⟨ha, hz⟩)] at h; simp at h
  · rcases cases3 b with hb | hb | hb
    · rw [mul_nan_right hb] at h; simp at h
    · rcases hz : a.isZero with _ | _
      · rw [mul_inf (isFin_notNaN ha) (isInf_notNaN hb) (Or.inr hb) hz (notZero_of_inf hb),
          mul_inf (a := -a) (by simpa using isFin_notNaN ha) (isInf_notNaN hb) (Or.inr hb)
          (by simpa using hz) (notZero_of_inf hb)]
        apply ext' <;> simp [sinf]
      · rw [mul_inf_zero (Or.inr ⟨hz, hb⟩)] at h; simp at h
    · obtain ⟨_, h2, h3⟩ := mul_spec ha hb
      obtain ⟨_, h5, h6⟩ := mul_spec (a := -a) (by simpa using ha) hb
      apply eq_of_val
      · rw [h5, val_neg, val_neg, h2, neg_mul, RN_neg]
      · rw [h6]; simp only [neg_neg_bit]; rw [h3]
        cases a.neg <;> cases b.neg <;> rfl

theorem mul_comm' (a b : F64) : a * b = b * a := by
  rw [mul_def, mul_def]; unfold mul
  rw [Bool.or_comm, Bool.or_comm b.isInf, Bool.or_comm b.isZero, Nat.mul_comm]
  have : (a.neg != b.neg) = (b.neg != a.neg) := by cases a.neg <;> cases b.neg <;> rfl
  rw [this]

theorem add_comm' {a b : F64} : a + b = b + a := by
  rcases cases3 a with ha | ha | ha
  · rw [add_nan_left ha, add_nan_right ha]
  · rcases cases3 b with hb | hb | hb
    · rw [add_nan_left hb, add_nan_right hb]
    · by_cases h : a.neg = b.neg
      · have : a = b := by rw [isInf_cases ha, isInf_cases hb, h]
        rw [this]
      · rw [add_inf_nan ha hb h, add_inf_nan hb ha (Ne.symm h)]
    · rw [add_inf_left ha (isFin_notNaN hb) (by rw [isFin_notInf hb]; simp), add_inf_right hb ha]
  · rcases cases3 b with hb | hb | hb
    · rw [add_nan_left hb, add_nan_right hb]
    · rw [add_inf_left hb (isFin_notNaN ha) (by rw [isFin_notInf ha]; simp), add_inf_right ha hb]
    · rw [add_def, add_def]; unfold add
      rw [Bool.or_comm, Int.add_comm, Bool.and_comm b.neg, isFin_notInf ha, isFin_notInf hb]
      simp

theorem mul_neg_right {a b : F64} (h : (a * b).isNaN = false) : a * -b = -(a * b) := by
  rw [mul_comm', mul_neg_left (by rwa [mul_comm']), mul_comm']

theorem mul_neg_neg (a b : F64) : -a * -b = a * b := by
  rw [mul_def, mul_def]; unfold mul
  simp only [isNaN_neg, isInf_neg, isZero_neg, neg_neg_bit, um_neg]
  have : ((!a.neg) != !b.neg) = (a.neg != b.neg) := by cases a.neg <;> cases b.neg <;> rfl
  rw [this]
  rfl

theorem mul_isNaN_neg_left (a b : F64) : (-a * b).isNaN = (a * b).isNaN := by
  rcases h : (a*b).isNaN with _ | _
  · rw [mul_neg_left h]; simpa using h
  · by_contra hc
    have h2 : (-a * b).isNaN = false := by simpa using hc
    have := mul_neg_left h2
    rw [neg_neg'] at this
    rw [this] at h; simp [h2] at h

theorem mul_neg_left_same (a b : F64) : Same (-a * b) (-(a * b)) := by
  rcases h : (a*b).isNaN with _ | _
  · exact Or.inl (mul_neg_left h)
  · exact Or.inr ⟨by rw [mul_isNaN_neg_left]; exact h, by simpa using h⟩

/-! ## casts and integer parts -/

theorem imag_eq (a : F64) : a.imag = ⌊|a.val|⌋₊ := by
  unfold imag; rw [← um_val]
  have h := Nat.floor_div_eq_div (K := ℝ) a.um (2^1074)
  rw [← h]; congr 2
  rw [Nat.cast_pow]; rfl

/-- A finite number of magnitude at least 2^53 is an integer; so integer parts are representable. -/
theorem floor_rep {a : F64} (ha : a.isFin = true) : RN (⌊|a.val|⌋₊ : ℝ) = ⌊|a.val|⌋₊ := by
  rcases le_or_gt (2^53 : ℝ) |a.val| with h | h
  · -- integer
    have : (⌊|a.val|⌋₊ : ℝ) = |a.val| := by
      obtain ⟨k, m, hk, h1, h2⟩ := idx_decomp a.mag
      have e : |a.val| = ((m * 2^k : ℕ) : ℝ) / 2^1074 := by
        rw [abs_val, hk, iv_eq h1 (by omega)]
      have hk2 : 1074 ≤ k := by
        by_contra hc
        have h3 : ((m * 2^k : ℕ) : ℝ) / 2^1074 < 2^53 := by
          rw [div_lt_iff₀ U_pos]
          push_cast
          have h4 : (m:ℝ) < 2^53 := by exact_mod_cast h2
          have h5 : (2:ℝ)^k ≤ 2^1074 := pow_le_pow_right₀ (by norm_num) (by omega)
          calc (m:ℝ) * 2^k ≤ m * 2^1074 := by
                exact mul_le_mul_of_nonneg_left h5 (by positivity)
            _ < 2^53 * 2^1074 := mul_lt_mul_of_pos_right h4 U_pos
        rw [← e] at h3; linarith
      obtain ⟨j, rfl⟩ := Nat.exists_eq_add_of_le hk2
      have e2 : |a.val| = ((m * 2^j : ℕ) : ℝ) := by
        rw [e, pow_add]; push_cast
        rw [mul_left_comm, mul_comm, mul_div_assoc, div_self U_pos.ne', mul_one]
      rw [e2, Nat.floor_natCast]
    rw [this]
    have := RN_val (a := a.abs) (by simpa using isFin_notNaN ha)
    rwa [val_abs] at this
  · apply RN_nat
    have : ⌊|a.val|⌋₊ < 2^53 := by
      rw [Nat.floor_lt (abs_nonneg _)]; exact_mod_cast h
    omega

theorem trunc_spec {a : F64} (ha : a.isFin = true) :
    (trunc a).isFin = true ∧ (trunc a).neg = a.neg ∧
    (trunc a).val = (if a.neg then -1 else 1) * (⌊|a.val|⌋₊ : ℝ) := by
  unfold trunc; rw [if_pos ha]
  have hv : (mk' a.neg (a.imag * 2^1074) 1).val = (if a.neg then -1 else 1) * (⌊|a.val|⌋₊ : ℝ) := by
    rw [mk'_val _ _ _ (by norm_num), imag_eq]
    push_cast
    rw [div_one, ← mul_assoc, mul_div_assoc, div_self U_pos.ne', mul_one]
    have := floor_rep ha
    cases a.neg
    · simpa using this
    · simp only [if_true, neg_one_mul]; rw [RN_neg, this]
  refine ⟨?_, mk'_neg _ _ _, hv⟩
  rw [isFin_iff_val, hv]
  have h1 := isFin_iff_val.1 ha
  have h2 : (⌊|a.val|⌋₊ : ℝ) ≤ |a.val| := Nat.floor_le (abs_nonneg _)
  have h3 : (0:ℝ) ≤ (⌊|a.val|⌋₊ : ℝ) := by positivity
  cases a.neg
  · simp only [Bool.false_eq_true, if_false, one_mul, abs_of_nonneg h3]; linarith
  · simp only [if_true, neg_one_mul, abs_neg, abs_of_nonneg h3]; linarith

/-- `as u64`-style cast: truncation, saturating -/
theorem toUnsigned_spec {mx : Nat} {a : F64} (ha : a.isFin = true) (h0 : 0 ≤ a.val) :
    toUnsigned mx a = Nat.min ⌊a.val⌋₊ mx := by
  unfold toUnsigned
  rw [isFin_notNaN ha, isFin_notInf ha, imag_eq, abs_of_nonneg h0]
  rcases hn : a.neg with _ | _
  · simp
  · have : a.val = 0 := le_antisymm (val_nonpos_of_neg hn) h0
    simp [this]

theorem floor_spec {a : F64} (ha : a.isFin = true) :
    (floor a).isNaN = false ∧ (floor a).val = (⌊a.val⌋ : ℝ) := by
  unfold floor; rw [if_pos ha]
  have hdvd : a.um % 2^1074 = 0 ↔ |a.val| = ⌊|a.val|⌋₊ := by
    rw [← imag_eq]; unfold imag
    rw [← um_val, div_eq_iff U_pos.ne']
    constructor
    · intro h
      have : a.um = a.um / 2^1074 * 2^1074 := by
        have := Nat.div_add_mod a.um (2^1074); rw [h, Nat.add_zero, Nat.mul_comm] at this; exact this.symm
      conv_lhs => rw [this]
      rw [Nat.cast_mul, Nat.cast_pow]; rfl
    · intro h
      have h2 : a.um = a.um / 2^1074 * 2^1074 := by
        apply Nat.cast_injective (R := ℝ)
        rw [Nat.cast_mul, Nat.cast_pow]; exact h
      have h3 : a.um % 2^1074 = (a.um / 2^1074 * 2^1074) % 2^1074 := congrArg (· % 2^1074) h2
      rw [h3, Nat.mul_mod_left]
  have hf := floor_rep ha
  rcases hn : a.neg with _ | _
  · simp only [Bool.false_and, Bool.false_eq_true, if_false]
    refine ⟨mk'_notNaN _ _ _, ?_⟩
    have h0 := val_nonneg_of_neg hn
    rw [mk'_val _ _ _ (by norm_num), imag_eq]
    simp only [Bool.false_eq_true, if_false, one_mul]
    push_cast
    rw [div_one, mul_div_assoc, div_self U_pos.ne', mul_one, hf, abs_of_nonneg h0]
    exact natCast_floor_eq_intCast_floor h0
  · have h0 := val_nonpos_of_neg hn
    by_cases hz : a.um % 2^1074 = 0
    · have e : (true && (a.um % 2^1074 != 0)) = false := by rw [hz]; rfl
      rw [e]; simp only [Bool.false_eq_true, if_false]
      refine ⟨mk'_notNaN _ _ _, ?_⟩
      rw [mk'_val _ _ _ (by norm_num), imag_eq]
      push_cast
      simp only [if_true]
      rw [div_one, ← mul_assoc, mul_div_assoc, div_self U_pos.ne', mul_one, neg_one_mul, RN_neg, hf]
      have h1 := hdvd.1 hz
      rw [abs_of_nonpos h0] at h1 ⊢
      have : a.val = ((-(⌊-a.val⌋₊ : ℤ) : ℤ) : ℝ) := by push_cast; linarith
      conv_rhs => rw [this, Int.floor_intCast]
      push_cast; rfl
    · have e : (true && (a.um % 2^1074 != 0)) = true := by
        rw [Bool.true_and, bne_iff_ne]; exact hz
      rw [e]; simp only [if_true]
      refine ⟨mk'_notNaN _ _ _, ?_⟩
      rw [mk'_val _ _ _ (by norm_num), imag_eq]
      push_cast
      simp only [if_true]
      rw [div_one, ← mul_assoc, mul_div_assoc, div_self U_pos.ne', mul_one, neg_one_mul, RN_neg]
      have h1 : |a.val| ≠ ⌊|a.val|⌋₊ := fun h => hz (hdvd.2 h)
      have hsmall : |a.val| < 2^53 := by
        by_contra hc
        push Not at hc
        -- integers beyond 2^53
        apply h1
        obtain ⟨k, m, hk, h1, h2⟩ := idx_decomp a.mag
        have e : |a.val| = ((m * 2^k : ℕ) : ℝ) / 2^1074 := by
          rw [abs_val, hk, iv_eq h1 (by omega)]
        have hk2 : 1074 ≤ k := by
          by_contra hc2
          have h3 : ((m * 2^k : ℕ) : ℝ) / 2^1074 < 2^53 := by
            rw [div_lt_iff₀ U_pos]
            push_cast
            have h4 : (m:ℝ) < 2^53 := by exact_mod_cast h2
            have h5 : (2:ℝ)^k ≤ 2^1074 := pow_le_pow_right₀ (by norm_num) (by omega)
            calc (m:ℝ) * 2^k ≤ m * 2^1074 := by
                  exact mul_le_mul_of_nonneg_left h5 (by positivity)
              _ < 2^53 * 2^1074 := mul_lt_mul_of_pos_right h4 U_pos
          rw [← e] at h3; linarith
        obtain ⟨j, rfl⟩ := Nat.exists_eq_add_of_le hk2
        have e2 : |a.val| = ((m * 2^j : ℕ) : ℝ) := by
          rw [e, pow_add]; push_cast
          rw [mul_left_comm, mul_comm, mul_div_assoc, div_self U_pos.ne', mul_one]
        rw [e2, Nat.floor_natCast]
      have hle : ⌊|a.val|⌋₊ + 1 ≤ 2^53 := by
        have : ⌊|a.val|⌋₊ < 2^53 := by
          rw [Nat.floor_lt (abs_nonneg _)]; exact_mod_cast hsmall
        omega
      have := RN_nat _ hle
      push_cast at this
      rw [this]
      rw [abs_of_nonpos h0] at h1 ⊢
      have h3 : ⌊a.val⌋ = -((⌊-a.val⌋₊ : ℤ) + 1) := by
        rw [Int.floor_eq_iff]
        push_cast
        have l1 := Nat.floor_le (a := -a.val) (by linarith)
        have l2 := Nat.lt_floor_add_one (-a.val)
        have l3 := lt_of_le_of_ne l1 (Ne.symm h1)
        constructor <;> linarith
      rw [h3]; push_cast; rfl

end F64
end Verif
