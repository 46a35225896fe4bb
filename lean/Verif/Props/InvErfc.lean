import Verif.Proofs.InvErfcF2

/-!
# C70: `inverfc` and `inverf` invert the complementary error function and the error function (src/error.rs)

`erfR`, `erfcR` (`Verif.SpecFun`) are the real functions, defined by the integral of `exp(-t²)`.
-/

namespace Verif
open F64 InvErfc
variable [Libm F64]

/-! ## The real inverse exists and is unique -/

omit [Libm F64] in
/-- the real function is strictly decreasing from 2 to 0: every value strictly between them has exactly one preimage -/
theorem erfc_bijective {p : ℝ} (h0 : 0 < p) (h2 : p < 2) : ∃! x, erfcR x = p := by
  have main : ∀ {p : ℝ}, 0 < p → p ≤ 1 → ∃ x, erfcR x = p := by
    intro p h0 h1
    obtain ⟨X, hX⟩ : ∃ X : ℝ, 1 ≤ X ∧ erfcR X ≤ p := by
      refine ⟨max 1 (1 / p), le_max_left _ _, ?_⟩
      have h1 : 1 ≤ max 1 (1 / p) := le_max_left _ _
      have h2 : 1 / p ≤ max 1 (1 / p) := le_max_right _ _
      generalize max 1 (1 / p) = X at *
      have hl := erfcR_le (x := X) (by linarith)
      have he : Real.exp (-X^2) ≤ 1 := Real.exp_le_one_iff.2 (by nlinarith)
      have hk := kap_bounds.2
      have hkp := kap_pos
      refine hl.trans ?_
      have hd : kap / (2 * X) ≤ p := by
        rw [div_le_iff₀ (by linarith)]
        have : 1 ≤ X * p := by rwa [div_le_iff₀ h0] at h2
        norm_num at hk
        linarith
      have := Real.exp_pos (-X^2)
      have h0' : 0 < kap / (2 * X) := by positivity
      nlinarith
    have hc : Continuous erfcR := continuous_iff_continuousAt.2 fun x => (erfcR_deriv x).continuousAt
    obtain ⟨x, -, hx⟩ := intermediate_value_Icc' (show (0:ℝ) ≤ X by linarith [hX.1]) hc.continuousOn ⟨hX.2, by rw [erfcR_zero]; exact h1⟩
    exact ⟨x, hx⟩
  have ex : ∃ x, erfcR x = p := by
    rcases le_or_gt p 1 with h | h
    · exact main h0 h
    · obtain ⟨x, hx⟩ := main (p := 2 - p) (by linarith) (by linarith)
      exact ⟨-x, by rw [erfcR_neg, hx]; ring⟩
  obtain ⟨x, hx⟩ := ex
  exact ⟨x, hx, fun y hy => erfcR_anti.injective (by rw [hx]; exact hy)⟩

/-! ## Accuracy -/

/-- C70: for every double `p` with `10^-280 ≤ p < 2`, `inverfc(p)` returns a number within `2·10^-11` of the point at which
the complementary error function takes the value `p`. -/
theorem inverfc_accurate (L : LibmUlp) {p : F64} (h0 : 1 / 10^280 ≤ p.val) (h2 : p.val < 2) {x : ℝ} (hx : erfcR x = p.val) :
    ∃ v, Returns (inverfc p) v ∧ v.isFin = true ∧ |v.val - x| ≤ 2 / 10^11 := by
  have hp : 0 < p.val := lt_of_lt_of_le (by positivity) h0
  have hH : (2:ℝ) < HUGE := lt_of_lt_of_le (by norm_num) HUGE_ge
  have fp : p.isFin = true := by rw [isFin_iff_val, abs_of_pos hp]; linarith
  have np := isFin_notNaN fp
  have c1 : F64.le 2.0 p = false := (le_false_iff (by decide +kernel) np).2 (by rw [two_val]; exact h2)
  have c2 : F64.le p 0.0 = false := (le_false_iff np nn_zero).2 (by rw [Verif.zero_val]; exact hp)
  unfold Returns inverfc
  rw [if_neg (show ¬ (2.0 ≤ᶠ p) = true from ne_true_of_eq_false c1), if_neg (show ¬ (p ≤ᶠ 0.0) = true from ne_true_of_eq_false c2)]
  rcases lt_or_ge p.val 1 with h1 | h1
  · have c3 : (p <ᶠ 1.0) = true := lt_iff.2 ⟨np, by decide +kernel, by rw [one_val]; exact h1⟩
    rw [c3]
    obtain ⟨v, e, f, k⟩ := core_F L fp h0 h1.le hx
    exact ⟨v, by show (inverfcCore p >>= _) = _; rw [e]; rfl, f, k⟩
  · have c3 : (p <ᶠ 1.0) = false := (lt_false_iff np (by decide +kernel)).2 (by rw [one_val]; exact h1)
    rw [c3]
    have hv : (2.0 - p).val = 2 - p.val := by
      rw [(sub_spec (a := 2.0) (by decide +kernel) fp).2, two_val, (two_sub_exact h1 h2).1]
    obtain ⟨v, e, f, k⟩ := core_F L (p := 2.0 - p) (xs := -x) (by rw [isFin_iff_val, hv, abs_of_pos (by linarith)]; linarith) (by
        rw [hv]
        have hg : 1 / 2^52 ≤ 2 - p.val := (two_sub_exact h1 h2).2
        refine le_trans ?_ hg
        refine one_div_le_one_div_of_le (by positivity) ?_
        refine le_trans (b := (10:ℝ)^16) (by norm_num) (pow_le_pow_right₀ (by norm_num) (by norm_num))) (by rw [hv]; linarith) (by rw [erfcR_neg, hx, hv])
    refine ⟨-v, by show (inverfcCore (2.0 - p) >>= _) = _; rw [e]; rfl, by rw [isFin_neg]; exact f, ?_⟩
    rw [val_neg, show -v.val - x = -(v.val - -x) by ring, abs_neg]
    exact k

/-- C70: the result of `inverf(p)` is within `2·10^-11` of the exact inverse of the error function at a number within `2^-52` of `p`.
This is the best one can say near `p = -1`, where the code's own subtraction `1 - p` is not exact. -/
theorem inverf_backward (L : LibmUlp) {p : F64} (h0 : -1 + 1 / 2^52 ≤ p.val) (h1 : p.val < 1) :
    ∃ v, Returns (inverf p) v ∧ v.isFin = true ∧ ∃ q y : ℝ, |q - p.val| ≤ 1 / 2^52 ∧ erfR y = q ∧ |v.val - y| ≤ 2 / 10^11 := by
  have hH : (2:ℝ) < HUGE := lt_of_lt_of_le (by norm_num) HUGE_ge
  have fp : p.isFin = true := by
    rw [isFin_iff_val]
    have : |p.val| ≤ 1 := by rw [abs_le]; constructor <;> norm_num at * <;> linarith
    linarith
  obtain ⟨b1, b2, b3⟩ := one_sub_round h0 h1
  have hs := (sub_spec (a := 1.0) (by decide +kernel) fp).2
  rw [one_val] at hs
  rw [← hs] at b1 b2 b3
  have lo : (1:ℝ) / 10^280 ≤ (1.0 - p).val := by
    refine le_trans ?_ b1
    refine one_div_le_one_div_of_le (by positivity) ?_
    refine le_trans (b := (10:ℝ)^16) (by norm_num) (pow_le_pow_right₀ (by norm_num) (by norm_num))
  obtain ⟨y, hy, -⟩ := erfc_bijective (p := (1.0 - p).val) (lt_of_lt_of_le (by positivity) b1) b2
  obtain ⟨v, e, f, k⟩ := inverfc_accurate L lo b2 hy
  refine ⟨v, e, f, 1 - (1.0 - p).val, y, ?_, ?_, k⟩
  · rw [show 1 - (1.0 - p).val - p.val = -((1.0 - p).val - (1 - p.val)) by ring, abs_neg]; exact b3
  · rw [← hy]; unfold erfcR; ring

/-- C70: for every double `0 ≤ p < 1`, `inverf(p)` is within `2.1·10^-11` of the point at which the error function takes the value `p`. -/
theorem inverf_accurate (L : LibmUlp) {p : F64} (h0 : 0 ≤ p.val) (h1 : p.val < 1) {x : ℝ} (hx : erfR x = p.val) :
    ∃ v, Returns (inverf p) v ∧ v.isFin = true ∧ |v.val - x| ≤ 2.1 / 10^11 := by
  have hH : (2:ℝ) < HUGE := lt_of_lt_of_le (by norm_num) HUGE_ge
  have fp : p.isFin = true := by rw [isFin_iff_val, abs_of_nonneg h0]; linarith
  obtain ⟨b1, b2, b3⟩ := one_sub_round (by norm_num; linarith) h1
  have hs := (sub_spec (a := 1.0) (by decide +kernel) fp).2
  rw [one_val] at hs
  have hc : erfcR x = 1 - p.val := by unfold erfcR; rw [hx]
  have x0 : 0 ≤ x := by
    by_contra hn
    have := erfcR_anti (not_le.1 hn)
    rw [erfcR_zero, hc] at this
    linarith
  rw [← hs] at b1 b2 b3
  have lo : (1:ℝ) / 10^280 ≤ (1.0 - p).val := by
    refine le_trans ?_ b1
    refine one_div_le_one_div_of_le (by positivity) ?_
    refine le_trans (b := (10:ℝ)^16) (by norm_num) (pow_le_pow_right₀ (by norm_num) (by norm_num))
  obtain ⟨y, hy, -⟩ := erfc_bijective (p := (1.0 - p).val) (lt_of_lt_of_le (by positivity) b1) b2
  obtain ⟨v, e, f, k⟩ := inverfc_accurate L lo b2 hy
  refine ⟨v, e, f, ?_⟩
  have close : |y - x| ≤ 1 / 10^14 := by
    rcases le_or_gt (1/2) p.val with h | h
    · have : (1.0 - p).val = 1 - p.val := by rw [hs]; exact (one_sub_exact h h1).1
      rw [this, ← hc] at hy
      rw [erfcR_anti.injective hy]
      norm_num
    · refine inv_central x0 ?_ (by rw [hc]; linarith)
      rw [hy, hc]
      exact b3
  have a := abs_le.1 k
  have b := abs_le.1 close
  rw [abs_le]
  norm_num at *
  constructor <;> linarith [a.1, a.2, b.1, b.2]

/-- C70: `erfc(inverfc(p))` gives `p` back, up to `3·10^-11`. -/
theorem erfc_inverfc (L : LibmUlp) {p : F64} (h0 : 1 / 10^280 ≤ p.val) (h2 : p.val < 2) :
    ∃ v w, Returns (inverfc p) v ∧ Returns (erfc v) w ∧ |w.val - p.val| ≤ 3 / 10^11 := by
  obtain ⟨x, hx, -⟩ := erfc_bijective (p := p.val) (lt_of_lt_of_le (by positivity) h0) h2
  obtain ⟨v, e, f, k⟩ := inverfc_accurate L h0 h2 hx
  obtain ⟨w, e2, -, k2⟩ := erfc_accurate L f
  refine ⟨v, w, e, e2, ?_⟩
  have k3 := slope_up v.val x
  have hk := kap_bounds.2
  have k4 : kap * |v.val - x| ≤ 1.13 * (2 / 10^11) := mul_le_mul (by norm_num at hk ⊢; linarith) k (abs_nonneg _) (by norm_num)
  have := abs_add_le (w.val - erfcR v.val) (erfcR v.val - erfcR x)
  rw [sub_add_sub_cancel, hx] at this
  rw [hx] at k3
  norm_num at *
  linarith

/-- C70: `inverfc(erfc(x))` gives `x` back, up to `2.5·10^-11`, for every double `0 ≤ x ≤ 25`. -/
theorem inverfc_erfc (L : LibmUlp) {x : F64} (h0 : 0 ≤ x.val) (h1 : x.val ≤ 25) :
    ∃ v w, Returns (erfc x) v ∧ Returns (inverfc v) w ∧ |w.val - x.val| ≤ 2.5 / 10^11 := by
  have fx : x.isFin = true := by
    rw [isFin_iff_val, abs_of_nonneg h0]
    refine lt_of_lt_of_le ?_ HUGE_ge
    refine lt_of_le_of_lt h1 (by norm_num)
  obtain ⟨v, e, fv, k⟩ := erfc_near L fx (by rw [abs_of_nonneg h0]; norm_num; linarith) (by norm_num; linarith)
  obtain ⟨c1, c2, c3⟩ := back_close h0 h1 k
  obtain ⟨y, hy, -⟩ := erfc_bijective (p := v.val) (lt_of_lt_of_le (by positivity) c1) c2
  obtain ⟨w, e2, -, k2⟩ := inverfc_accurate L c1 c2 hy
  refine ⟨v, w, e, e2, ?_⟩
  have a := abs_le.1 k2
  have b := abs_le.1 (c3 y hy)
  rw [abs_le]
  norm_num at *
  constructor <;> linarith [a.1, a.2, b.1, b.2]

omit [Libm F64] in
/-- C70: the bound `-1 + 2^-52 ≤ p` of `inverf_backward` cannot be dropped: at the double next above `-1`, the code's `1 - p` rounds to 2
and `inverf` returns `-100`, although the error function takes the value `p` at a point between `-6` and `0`. (At `-p` the result is accurate.) -/
theorem inverf_left_edge [Libm F64] : ∃ p : F64, p.val = -1 + 1 / 2^53 ∧ Returns (inverf p) (-100.0) ∧ ∃ y : ℝ, -6 < y ∧ y < 0 ∧ erfR y = p.val := by
  have e : (⟨true, 0x3fefffffffffffff, by decide⟩ : F64).val = -1 + 1 / 2^53 := by
    have h : (⟨true, 0x3fefffffffffffff, by decide⟩ : F64).val = ((-9007199254740991 : ℤ) : ℝ) / ((9007199254740992 : ℕ) : ℝ) :=
      val_of_sv _ _ (by norm_num) (by decide +kernel)
    rw [h]; norm_num
  refine ⟨⟨true, 0x3fefffffffffffff, by decide⟩, ?_, ?_, ?_⟩
  · exact e
  · have h : (1.0 - (⟨true, 0x3fefffffffffffff, by decide⟩ : F64)) = 2.0 := by decide +kernel
    unfold inverf
    rw [h]
    exact (inverf_saturates 2.0 (by decide +kernel)).1 (by rw [two_val])
  · rw [e]
    obtain ⟨y, hy, -⟩ := erfc_bijective (p := 2 - 1 / 2^53) (by norm_num) (by norm_num)
    refine ⟨y, ?_, ?_, ?_⟩
    · by_contra hc
      have h1 := erfcR_anti.antitone (not_lt.1 hc)
      rw [hy, erfcR_neg] at h1
      have h2 := erfcR_le (x := 6) (by norm_num)
      have h3 : Real.exp (-6^2) ≤ 1 / 2^50 := by
        rw [Real.exp_neg, one_div]
        refine inv_anti₀ (by positivity) ?_
        calc (2:ℝ)^50 ≤ 2.7^36 := by norm_num
          _ ≤ (Real.exp 1)^36 := pow_le_pow_left₀ (by norm_num) (by have := Real.exp_one_gt_d9; norm_num at this ⊢; linarith) _
          _ = Real.exp (6^2) := by rw [← Real.exp_nat_mul]; norm_num
      have hk := kap_bounds.2
      have hp := erfcR_pos 6
      have h4 : kap / (2 * 6) ≤ 0.1 := by rw [div_le_iff₀ (by norm_num)]; norm_num at hk ⊢; linarith
      have h5 := mul_le_mul h4 h3 (Real.exp_pos _).le (by norm_num)
      have h6 := h2.trans h5
      norm_num at h1 h6
      linarith
    · by_contra hc
      have := erfcR_anti.antitone (not_lt.1 hc)
      rw [erfcR_zero, hy] at this
      norm_num at this
    · unfold erfcR at hy; linarith

/-! ## The same in exact arithmetic: the error of the method alone -/

omit [Libm F64] in
/-- C70: evaluated in exact arithmetic, `inverfc(p)` is within `2·10^-11` of the exact inverse for every real
`10^-300 ≤ p ≤ 2 - 10^-300`. -/
theorem inverfc_exact_accurate {p x : ℝ} (h0 : 1 / 10^300 ≤ p) (h2 : p ≤ 2 - 1 / 10^300) (hx : erfcR x = p) :
    ∃ v, Returns (inverfc p) v ∧ |v - x| ≤ 2 / 10^11 := by
  have t : (0:ℝ) < 1 / 10^300 := by positivity
  have c1 : ¬ ((2.0:ℝ) ≤ᶠ p) = true := by
    rw [show ((2.0:ℝ) ≤ᶠ p) = decide ((2.0:ℝ) ≤ p) from rfl, decide_eq_true_eq]
    generalize (1:ℝ) / 10^300 = w at *
    norm_num; linarith
  have c2 : ¬ (p ≤ᶠ (0.0:ℝ)) = true := by
    rw [show (p ≤ᶠ (0.0:ℝ)) = decide (p ≤ (0.0:ℝ)) from rfl, decide_eq_true_eq]
    generalize (1:ℝ) / 10^300 = w at *
    norm_num; linarith
  unfold Returns inverfc
  rw [if_neg c1, if_neg c2]
  rcases lt_or_ge p 1 with h1 | h1
  · have c3 : (p <ᶠ (1.0:ℝ)) = true := by
      rw [show (p <ᶠ (1.0:ℝ)) = decide (p < (1.0:ℝ)) from rfl, decide_eq_true_eq]; norm_num; exact h1
    rw [c3]
    obtain ⟨v, e, k⟩ := core_real h0 h1.le hx
    exact ⟨v, by show (inverfcCore p >>= _) = _; rw [e]; rfl, k⟩
  · have c3 : (p <ᶠ (1.0:ℝ)) = false := by
      rw [show (p <ᶠ (1.0:ℝ)) = decide (p < (1.0:ℝ)) from rfl, decide_eq_false_iff_not]; norm_num; exact h1
    rw [c3]
    have e2 : (2.0:ℝ) - p = 2 - p := by norm_num
    obtain ⟨v, e, k⟩ := core_real (p := 2 - p) (xs := -x) (by linarith) (by linarith) (by rw [erfcR_neg, hx])
    refine ⟨-v, by show (inverfcCore (2.0 - p) >>= _) = _; rw [e2, e]; rfl, ?_⟩
    rw [show -v - x = -(v - -x) by ring, abs_neg]
    exact k

omit [Libm F64] in
/-- C70: the same for `inverf` on `-1 + 10^-300 ≤ p ≤ 1 - 10^-300` -/
theorem inverf_exact_accurate {p x : ℝ} (h0 : -1 + 1 / 10^300 ≤ p) (h2 : p ≤ 1 - 1 / 10^300) (hx : erfR x = p) :
    ∃ v, Returns (inverf p) v ∧ |v - x| ≤ 2 / 10^11 := by
  have e : (1.0:ℝ) - p = 1 - p := by norm_num
  unfold inverf
  rw [e]
  exact inverfc_exact_accurate (by linarith) (by linarith) (by unfold erfcR; rw [hx])

/-! ## The hypotheses are met -/

example : ∃ _ : Libm F64, LibmUlp := ⟨idealLibm, ideal_ulp⟩
example : (1:ℝ) / 10^280 ≤ (0.5 : F64).val ∧ (0.5 : F64).val < 2 ∧ ∃ x, erfcR x = (0.5 : F64).val := by
  have e : (0.5 : F64).val = ((1:ℤ):ℝ) / ((2:ℕ):ℝ) := val_of_sv 1 2 (by norm_num) (by decide +kernel)
  norm_num at e
  rw [e]
  exact ⟨one_div_le_one_div_of_le two_pos (le_trans (b := (10:ℝ)^1) (by norm_num) (pow_le_pow_right₀ (by norm_num) (by norm_num))), by norm_num, (erfc_bijective (by norm_num) (by norm_num)).exists⟩
/-- the exact inverse at 1 is 0 -/
example : erfcR 0 = 1 ∧ erfR 0 = 0 := ⟨erfcR_zero, by have := erfcR_zero; unfold erfcR at this; linarith⟩

end Verif
