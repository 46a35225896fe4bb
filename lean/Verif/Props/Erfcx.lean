import Verif.Proofs.ErfcxRange

/-!
# Properties of erfcx (src/error.rs): C30–C34

`erfcxR` (`Verif.SpecFun`) is the real function `exp(x²)·erfc(x)`.
-/

namespace Verif
open F64
variable [Libm F64]

omit [Libm F64] in
theorem invSqrtPi_val : 1/2 ≤ (INV_SQRT_PI : F64).val ∧ (INV_SQRT_PI : F64).val ≤ 1 ∧ (INV_SQRT_PI : F64).isFin = true := by
  have a := le_val_of_sv (x := (INV_SQRT_PI : F64)) 1 2 (by norm_num) (by decide +kernel)
  have b := val_le_of_sv (x := (INV_SQRT_PI : F64)) 1 1 (by norm_num) (by decide +kernel)
  push_cast at a b
  refine ⟨a, by linarith, by decide +kernel⟩

omit [Libm F64] in
theorem val_69 : (1:ℝ) ≤ (6.9e7 : F64).val ∧ (6.9e7 : F64).isNaN = false := by
  have a := le_val_of_sv (x := (6.9e7 : F64)) 1 1 (by norm_num) (by decide +kernel)
  push_cast at a
  exact ⟨by linarith, by decide +kernel⟩

omit [Libm F64] in
/-- the last branch -/
theorem tail_out {x : F64} (hn : x.isNaN = false) (h : 1 ≤ x.val) :
    (INV_SQRT_PI / x).isNaN = false ∧ (x ≠ inf → 0 < (INV_SQRT_PI / x).val) ∧ (INV_SQRT_PI / x).val ≤ 1 := by
  obtain ⟨a, b, c⟩ := invSqrtPi_val
  rcases fin_or_inf hn with hf | hf
  · have D := div_spec c hf (by linarith)
    refine ⟨D.1, fun _ => ?_, ?_⟩
    · rw [D.2.1]
      have e : RN (((1:ℤ):ℝ) * (2:ℝ)^(-1025:ℤ)) = ((1:ℤ):ℝ) * (2:ℝ)^(-1025:ℤ) := by
        refine RN_dyadic 1 (-1025) (by norm_num) (by norm_num) ?_
        rw [Int.cast_one, one_mul, abs_of_pos (by positivity)]
        refine le_trans (zpow_le_one_of_nonpos₀ (by norm_num) (by norm_num)) (le_trans (by norm_num) HUGE_ge)
      have hx := fin_lt hf
      refine lt_of_lt_of_le ?_ (RN_mono (x := ((1:ℤ):ℝ) * (2:ℝ)^(-1025:ℤ)) ?_)
      · rw [e]; positivity
      · rw [Int.cast_one, one_mul, le_div_iff₀ (by linarith)]
        have hH : (2:ℝ)^(-1025:ℤ) * HUGE = 1/2 := by
          rw [HUGE_eq, ← zpow_natCast, ← zpow_add₀ (by norm_num)]; norm_num
        have : (2:ℝ)^(-1025:ℤ) * x.val ≤ (2:ℝ)^(-1025:ℤ) * HUGE := mul_le_mul_of_nonneg_left hx.le (by positivity)
        rw [hH] at this
        exact this.trans a
    · rw [D.2.1]
      have : RN ((INV_SQRT_PI : F64).val / x.val) ≤ RN 1 := RN_mono (by
        rw [div_le_one (by linarith)]; linarith)
      rwa [RN_one] at this
  · have hneg : x.neg = false := neg_of_val_pos (by linarith)
    have e : x = inf := by rw [isInf_cases hf, hneg]; rfl
    rw [e]
    refine ⟨by decide +kernel, fun h => absurd rfl h, ?_⟩
    have : (INV_SQRT_PI / inf : F64) = 0.0 := by decide +kernel
    rw [this, Verif.zero_val]
    norm_num

/-! ## The branches -/

theorem erfcx_small {x : F64} (h : F64.lt x.abs 0.125 = true) : erfcx x = .ok (erfcxMaclaurin x) := if_pos h

theorem erfcx_over {x : F64} (h : x.val < (-26.7 : F64).val) (hn : x.isNaN = false) : erfcx x = .ok inf := by
  have v := val_le_of_sv (x := (-26.7 : F64)) (-26) 1 (by norm_num) (by decide +kernel)
  push_cast at v
  have h1 : F64.lt x.abs 0.125 = false := (lt_false_iff (by rw [isNaN_abs]; exact hn) lit_0125.2.2).2 (by
    rw [val_abs, val_0125, abs_of_neg (by linarith)]; linarith)
  have h2 : F64.lt x 0.0 = true := lt_iff.2 ⟨hn, nn_zero, by rw [Verif.zero_val]; linarith⟩
  have h3 : F64.lt x (-26.7) = true := lt_iff.2 ⟨hn, by decide +kernel, h⟩
  exact (if_neg (ne_true_of_eq_false h1)).trans ((if_pos h2).trans (if_pos h3))

theorem erfcx_mid {x : F64} (h : (-26.7 : F64).val ≤ x.val) (h' : x.val < (-6.1 : F64).val) (hn : x.isNaN = false) :
    erfcx x = .ok (2.0 * Libm.exp (x * x)) := by
  have v := val_le_of_sv (x := (-6.1 : F64)) (-6) 1 (by norm_num) (by decide +kernel)
  push_cast at v
  have h1 : F64.lt x.abs 0.125 = false := (lt_false_iff (by rw [isNaN_abs]; exact hn) lit_0125.2.2).2 (by
    rw [val_abs, val_0125, abs_of_neg (by linarith)]; linarith)
  have h2 : F64.lt x 0.0 = true := lt_iff.2 ⟨hn, nn_zero, by rw [Verif.zero_val]; linarith⟩
  have h3 : F64.lt x (-26.7) = false := (lt_false_iff hn (by decide +kernel)).2 h
  have h4 : F64.lt x (-6.1) = true := lt_iff.2 ⟨hn, by decide +kernel, h'⟩
  exact (if_neg (ne_true_of_eq_false h1)).trans ((if_pos h2).trans ((if_neg (ne_true_of_eq_false h3)).trans (if_pos h4)))

theorem erfcx_refl {x : F64} (h : (-6.1 : F64).val ≤ x.val) (h' : x.val ≤ -(1/8)) (hn : x.isNaN = false) :
    erfcx x = (fun v => 2.0 * Libm.exp (x * x) - v) <$> chebInterpolant (-x) := by
  have v := le_val_of_sv (x := (-6.1 : F64)) (-7) 1 (by norm_num) (by decide +kernel)
  have v2 := val_le_of_sv (x := (-26.7 : F64)) (-26) 1 (by norm_num) (by decide +kernel)
  push_cast at v v2
  have h1 : F64.lt x.abs 0.125 = false := (lt_false_iff (by rw [isNaN_abs]; exact hn) lit_0125.2.2).2 (by
    rw [val_abs, val_0125, abs_of_neg (by linarith)]; linarith)
  have h2 : F64.lt x 0.0 = true := lt_iff.2 ⟨hn, nn_zero, by rw [Verif.zero_val]; linarith⟩
  have h3 : F64.lt x (-26.7) = false := (lt_false_iff hn (by decide +kernel)).2 (by linarith)
  have h4 : F64.lt x (-6.1) = false := (lt_false_iff hn (by decide +kernel)).2 h
  exact (if_neg (ne_true_of_eq_false h1)).trans ((if_pos h2).trans ((if_neg (ne_true_of_eq_false h3)).trans (if_neg (ne_true_of_eq_false h4))))

theorem erfcx_table {x : F64} (h : 1/8 ≤ x.val) (h' : x.val ≤ 12) (hn : x.isNaN = false) : erfcx x = chebInterpolant x := by
  have h1 : F64.lt x.abs 0.125 = false := (lt_false_iff (by rw [isNaN_abs]; exact hn) lit_0125.2.2).2 (by
    rw [val_abs, val_0125, abs_of_pos (by linarith)]; linarith)
  have h2 : F64.lt x 0.0 = false := (lt_false_iff hn nn_zero).2 (by rw [Verif.zero_val]; linarith)
  have h3 : F64.le x 12.0 = true := le_iff.2 ⟨hn, lit_12.2.2, by rw [val_12]; exact h'⟩
  exact (if_neg (ne_true_of_eq_false h1)).trans ((if_neg (ne_true_of_eq_false h2)).trans (if_pos h3))

theorem erfcx_big {x : F64} (h : 12 < x.val) (hn : x.isNaN = false) :
    erfcx x = .ok (if F64.lt x 150.0 then (if F64.lt x 23.2 then erfcxAsy10 (1.0 / x) else erfcxAsy6 (1.0 / x))
      else if F64.lt x 6.9e7 then erfcxAsy3 (1.0 / x) else INV_SQRT_PI / x) := by
  have h1 : F64.lt x.abs 0.125 = false := (lt_false_iff (by rw [isNaN_abs]; exact hn) lit_0125.2.2).2 (by
    rw [val_abs, val_0125, abs_of_pos (by linarith)]; linarith)
  have h2 : F64.lt x 0.0 = false := (lt_false_iff hn nn_zero).2 (by rw [Verif.zero_val]; linarith)
  have h3 : F64.le x 12.0 = false := (le_false_iff hn lit_12.2.2).2 (by rw [val_12]; exact h)
  refine (if_neg (ne_true_of_eq_false h1)).trans ((if_neg (ne_true_of_eq_false h2)).trans ((if_neg (ne_true_of_eq_false h3)).trans ?_))
  simp only [ar_lt]
  split <;> split <;> rfl

theorem erfcx_nan {x : F64} (hn : x.isNaN = true) : erfcx x = .ok nan := by
  have h1 : F64.lt x.abs 0.125 = false := lt_nan_left (by rw [isNaN_abs]; exact hn)
  refine (if_neg (ne_true_of_eq_false h1)).trans ((if_neg (ne_true_of_eq_false (lt_nan_left hn))).trans ((if_neg (ne_true_of_eq_false (le_nan_left hn))).trans
    ((if_neg (ne_true_of_eq_false (lt_nan_left hn))).trans ((if_neg (ne_true_of_eq_false (lt_nan_left hn))).trans ?_))))
  rw [div_nan_right hn]

omit [Libm F64] in
theorem sq_fin {x : F64} (h : |x.val| ≤ 30) : x.isFin = true ∧ (x * x).isFin = true ∧ (x * x).val = RN (x.val * x.val) ∧ 0 ≤ (x * x).val := by
  have hf : x.isFin = true := abs_fin (b := 30) (by linarith [(abs_le.1 h).1]) (abs_le.1 h).2 (by norm_num)
  have S := Iv.mul_spec' hf hf
  have h0 : 0 ≤ (x * x).val := by rw [S.2]; exact RN_nonneg (mul_self_nonneg _)
  have h9 : (x * x).val ≤ 900 := by
    rw [S.2]
    have : RN (x.val * x.val) ≤ RN ((900:ℕ):ℝ) := RN_mono (by have := abs_le.1 h; push_cast; nlinarith)
    rw [RN_nat 900 (by norm_num)] at this
    exact_mod_cast this
  exact ⟨hf, abs_fin (b := 900) (by linarith) h9 (by norm_num), S.2, h0⟩

theorem twice_exp (L : LibmSpec) {y : F64} (hn : y.isNaN = false) (h0 : 0 ≤ y.val) :
    (2.0 * Libm.exp y).isNaN = false ∧ 2 ≤ (2.0 * Libm.exp y).val := by
  have a := L.exp_num y hn
  have b := L.exp_ge_one y hn h0
  generalize Libm.exp y = E at *
  rcases fin_or_inf a.1 with h | h
  · have S := Iv.mul_spec' (a := 2.0) (b := E) (by decide +kernel) h
    refine ⟨S.1, ?_⟩
    rw [S.2, two_val]
    have : RN ((2:ℕ):ℝ) ≤ RN (2 * E.val) := RN_mono (by push_cast; linarith)
    rw [RN_nat 2 (by norm_num)] at this
    exact_mod_cast this
  · have e : E = inf := by rw [isInf_cases h, a.2]; rfl
    have e2 : (2.0 * inf : F64) = inf := by decide +kernel
    rw [e, e2]
    refine ⟨rfl, ?_⟩
    rw [inf_val]
    exact le_trans (by norm_num) HUGE_ge

theorem erfcx_out (L : LibmSpec) {x : F64} (hn : x.isNaN = false) :
    ∃ v, erfcx x = .ok v ∧ v.isNaN = false ∧ (x ≠ inf → 0 < v.val) ∧ (1/8 ≤ x.val → v.val ≤ 1) := by
  have w1 := le_val_of_sv (x := (-26.7 : F64)) (-27) 1 (by norm_num) (by decide +kernel)
  have w2 := le_val_of_sv (x := (-6.1 : F64)) (-7) 1 (by norm_num) (by decide +kernel)
  have w3 := val_le_of_sv (x := (-6.1 : F64)) (-6) 1 (by norm_num) (by decide +kernel)
  push_cast at w1 w2 w3
  by_cases h1 : |x.val| < 1/8
  · obtain ⟨a, b, -⟩ := mac_range h1.le
    refine ⟨_, erfcx_small (lt_iff.2 ⟨by rw [isNaN_abs]; exact hn, lit_0125.2.2, by rw [val_abs, val_0125]; exact h1⟩), isFin_notNaN a, fun _ => by linarith,
      fun h2 => by rw [abs_lt] at h1; linarith⟩
  rcases lt_or_ge x.val 0 with h0 | h0
  · rw [abs_of_neg h0] at h1
    rcases lt_or_ge x.val (-26.7 : F64).val with h2 | h2
    · exact ⟨_, erfcx_over h2 hn, rfl, fun _ => by rw [inf_val]; exact HUGE_pos, fun h => by linarith⟩
    rcases lt_or_ge x.val (-6.1 : F64).val with h3 | h3
    · obtain ⟨-, f, -, z⟩ := sq_fin (abs_le.2 ⟨by linarith, by linarith⟩)
      obtain ⟨a, b⟩ := twice_exp L (isFin_notNaN f) z
      exact ⟨_, erfcx_mid h2 h3 hn, a, fun _ => by linarith, fun h => by linarith⟩
    · obtain ⟨-, f, -, z⟩ := sq_fin (abs_le.2 ⟨by linarith, by linarith⟩)
      obtain ⟨a, b⟩ := twice_exp L (isFin_notNaN f) z
      obtain ⟨v, e, c, -⟩ := cheb_at (x := -x) (by rw [val_neg]; linarith) (by rw [val_neg]; linarith)
      refine ⟨2.0 * Libm.exp (x * x) - v, (erfcx_refl h3 (by linarith) hn).trans (by rw [e]; rfl), ?_, ?_, fun h => by linarith⟩ <;>
      · generalize 2.0 * Libm.exp (x * x) = T at *
        rcases fin_or_inf a with hT | hT
        · have S := sub_spec hT c.fin
          first
          | exact S.1
          | intro _
            rw [S.2]
            have : RN ((1:ℕ):ℝ) ≤ RN (T.val - v.val) := RN_mono (by push_cast; linarith [c.le_one])
            rw [RN_nat 1 (by norm_num)] at this
            push_cast at this
            linarith
        · rw [sub_eq, add_inf_left hT (by rw [isNaN_neg]; exact isFin_notNaN c.fin) (fun hc => by rw [isInf_neg, isFin_notInf c.fin] at hc; cases hc)]
          first
          | exact a
          | intro _; linarith
  · rw [abs_of_nonneg h0] at h1
    rcases le_or_gt x.val 12 with h2 | h2
    · obtain ⟨v, e, c, -⟩ := cheb_at (x := x) (by linarith) h2
      exact ⟨v, (erfcx_table (by linarith) h2 hn).trans e, isFin_notNaN c.fin, fun _ => c.pos, fun _ => c.le_one⟩
    · refine ⟨_, erfcx_big h2 hn, ?_⟩
      rcases h3 : F64.lt x 6.9e7 with _ | _
      · have h4 : F64.lt x 150.0 = false := by
          rw [lt_false_iff hn (by decide +kernel)]
          have := (lt_false_iff hn val_69.2).1 h3
          have k := key_le.1 (show (150.0 : F64).key ≤ (6.9e7 : F64).key by decide +kernel)
          linarith
        rw [if_neg (ne_true_of_eq_false h4), if_neg Bool.false_ne_true]
        have := tail_out hn (by linarith)
        exact ⟨this.1, this.2.1, fun _ => this.2.2⟩
      · obtain ⟨a, b, c⟩ := asy_range (x := x) h2.le (lt_iff.1 h3).2.2.le
        rw [if_pos rfl]
        rcases F64.lt x 150.0 with _ | _
        · rw [if_neg Bool.false_ne_true]
          exact ⟨isFin_notNaN c.1, fun _ => c.2.1, fun _ => c.2.2⟩
        · rw [if_pos rfl]
          rcases F64.lt x 23.2 with _ | _
          · rw [if_neg Bool.false_ne_true]
            exact ⟨isFin_notNaN b.1, fun _ => b.2.1, fun _ => b.2.2⟩
          · rw [if_pos rfl]
            exact ⟨isFin_notNaN a.1, fun _ => a.2.1, fun _ => a.2.2⟩

/-! ## C30 -/

/-- C30: `erfcx(x)` returns for every `x`, and the result is NaN iff `x` is. -/
theorem erfcx_total (L : LibmSpec) (x : F64) : ∃ v, Returns (erfcx x) v ∧ (v.isNaN = true ↔ x.isNaN = true) := by
  rcases hn : x.isNaN with _ | _
  · obtain ⟨v, e, h, -⟩ := erfcx_out L hn
    exact ⟨v, e, by rw [h]⟩
  · exact ⟨nan, erfcx_nan hn, by simp⟩

/-! ## C31 -/

/-- C31: `erfcx(x) > 0` for every number `x` other than `+∞`, and `erfcx(x) ≤ 1` for `x ≥ 0.125`. -/
theorem erfcx_positive (L : LibmSpec) {x v : F64} (hn : x.isNaN = false) (h : Returns (erfcx x) v) :
    (x ≠ inf → 0 < v.val) ∧ (1/8 ≤ x.val → v.val ≤ 1) := by
  obtain ⟨w, e, -, a, b⟩ := erfcx_out L hn
  unfold Returns at h
  rw [h] at e
  injection e with e
  subst e
  exact ⟨a, b⟩

/-! ## C32 -/

/-- `y` is the next smaller float before `x` -/
def F64.IsPred (y x : F64) : Prop := y.isNaN = false ∧ y.val < x.val ∧ ∀ z : F64, z.isNaN = false → z.val < x.val → z.val ≤ y.val

/-- C32: two neighbouring floats in `[0.125, 12]` — in particular the two sides of every boundary between table intervals — have `erfcx`
values within `2^-49` of each other. -/
theorem erfcx_no_jumps {x y v w : F64} (hx : x.isNaN = false) (h1 : 1/8 ≤ y.val) (h2 : x.val ≤ 12) (hp : F64.IsPred y x)
    (hv : Returns (erfcx x) v) (hw : Returns (erfcx y) w) : |v.val - w.val| ≤ 1 / 2^49 := by
  obtain ⟨ny, lt, nb⟩ := hp
  have hxn : x.neg = false := neg_of_val_pos (by linarith)
  have hyn : y.neg = false := neg_of_val_pos (by linarith)
  have hm : x.mag = y.mag + 1 := by
    have l := lt
    rw [val_pos_form hxn, val_pos_form hyn, ivU_strictMono] at l
    by_contra hc
    have hxm := notNaN_iff.1 hx
    have hlt := x.isLt
    have k := nb ⟨false, y.mag + 1, by omega⟩ (notNaN_iff.2 (by show y.mag + 1 ≤ INFMAG; omega)) (by
      rw [val_pos_form rfl, val_pos_form hxn, ivU_strictMono]; show y.mag + 1 < x.mag; omega)
    rw [val_pos_form rfl, val_pos_form hyn, ivU_mono] at k
    have : y.mag + 1 ≤ y.mag := k
    omega
  unfold Returns at hv hw
  rw [erfcx_table (by linarith) h2 hx] at hv
  rw [erfcx_table h1 (by linarith) ny] at hw
  exact cheb_adjacent h1 h2 hm hxn hv hw

/-! ## C33 -/

/-- C33: for `-6.1 ≤ x ≤ -0.125`, `erfcx(x)` is `2·exp(x·x) - erfcx(-x)` in floating point; for `x < -26.7` it is `+∞`. -/
theorem erfcx_reflect {x : F64} (hn : x.isNaN = false) :
    ((-6.1 : F64).val ≤ x.val → x.val ≤ -(1/8) → ∃ v, Returns (erfcx (-x)) v ∧ Returns (erfcx x) (2.0 * Libm.exp (x * x) - v)) ∧
    (x.val < (-26.7 : F64).val → Returns (erfcx x) inf) := by
  refine ⟨fun h1 h2 => ?_, fun h => erfcx_over h hn⟩
  have w2 := le_val_of_sv (x := (-6.1 : F64)) (-7) 1 (by norm_num) (by decide +kernel)
  push_cast at w2
  obtain ⟨v, e, c, -⟩ := cheb_at (x := -x) (by rw [val_neg]; linarith) (by rw [val_neg]; linarith)
  refine ⟨v, (erfcx_table (x := -x) (by rw [val_neg]; linarith) (by rw [val_neg]; linarith) (by rw [isNaN_neg]; exact hn)).trans e, ?_⟩
  unfold Returns
  rw [erfcx_refl h1 h2 hn, e]; rfl

/-! ## C34 -/

/-- C34: for `0.125 ≤ x ≤ 12` the result is within `10^-14` (relative) of `exp(x²)·erfc(x)`. -/
theorem erfcx_accurate {x : F64} (hn : x.isNaN = false) (h1 : 1/8 ≤ x.val) (h2 : x.val ≤ 12) :
    ∃ v, Returns (erfcx x) v ∧ v.isFin = true ∧ |v.val - erfcxR x.val| ≤ erfcxR x.val / 10^14 := by
  obtain ⟨v, e, c, -⟩ := cheb_at h1 h2
  exact ⟨v, (erfcx_table h1 h2 hn).trans e, c.fin, c.acc⟩

/-! ## The hypotheses are met -/

example : ∃ _ : Libm F64, LibmSpec := ⟨idealLibm, ideal_spec⟩
example : (1/8 : ℝ) ≤ (1.0 : F64).val ∧ (1.0 : F64).val ≤ 12 := by rw [one_val]; norm_num
example : (-6.1 : F64).val ≤ (-1.0 : F64).val ∧ (-1.0 : F64).val ≤ -(1/8) := by
  have w3 := val_le_of_sv (x := (-6.1 : F64)) (-6) 1 (by norm_num) (by decide +kernel)
  push_cast at w3
  have e : (-1.0 : F64).val = -1 := by rw [val_neg, one_val]
  rw [e]; constructor
  · linarith
  · norm_num
/-- `2.0` and the float before it, the two sides of a table boundary -/
example : F64.IsPred ⟨false, (2.0 : F64).mag - 1, by decide +kernel⟩ (2.0 : F64) := by
  refine ⟨by decide +kernel, key_lt.1 (by decide +kernel), fun z hz h => ?_⟩
  rw [← key_lt] at h
  rw [← key_le]
  have e1 : (2.0 : F64).key = 4611686018427387904 := by decide +kernel
  have e2 : (⟨false, (2.0 : F64).mag - 1, by decide +kernel⟩ : F64).key = 4611686018427387903 := by decide +kernel
  rw [e1] at h; rw [e2]; omega

end Verif
