import Verif.Proofs.Error

/-!
# Properties of erf, erfc and their inverses (src/error.rs): C26–C29
-/

namespace Verif
open F64 OIv
variable [Libm F64]

/-! ## C26 -/

theorem erfccheb_ok {z : F64} (hn : z.isNaN = false) (h0 : 0 ≤ z.val) : ∃ v, erfccheb z = .ok v := by
  have hle : F64.le 0.0 z = true := le_iff.2 ⟨nn_zero, hn, by rw [zero_val]; exact h0⟩
  unfold erfccheb
  simp only [ar_le]
  rw [if_pos hle]
  exact ⟨_, rfl⟩

theorem erf_pos {x : F64} (hn : x.isNaN = false) (h : 0 ≤ x.val) : erf x = (fun v => 1.0 - v) <$> erfccheb x := by
  have hle : F64.le 0.0 x = true := le_iff.2 ⟨nn_zero, hn, by rw [zero_val]; exact h⟩
  unfold erf
  simp only [ar_le]
  rw [if_pos hle]

theorem erfc_pos {x : F64} (hn : x.isNaN = false) (h : 0 ≤ x.val) : erfc x = erfccheb x := by
  have hle : F64.le 0.0 x = true := le_iff.2 ⟨nn_zero, hn, by rw [zero_val]; exact h⟩
  unfold erfc
  simp only [ar_le]
  rw [if_pos hle]

theorem erf_neg' {x : F64} (h : x.val < 0) : erf x = (fun v => v - 1.0) <$> erfccheb (-x) := by
  have hle : F64.le 0.0 x = false := le_false_of_lt (by rw [zero_val]; exact h)
  unfold erf
  exact if_neg (ne_true_of_eq_false hle)

theorem erfc_neg' {x : F64} (h : x.val < 0) : erfc x = (fun v => 2.0 - v) <$> erfccheb (-x) := by
  have hle : F64.le 0.0 x = false := le_false_of_lt (by rw [zero_val]; exact h)
  unfold erfc
  exact if_neg (ne_true_of_eq_false hle)

theorem erfccheb_nan {x : F64} (h : x.isNaN = true) : erfccheb x = .error .panic := by
  unfold erfccheb
  exact if_neg (ne_true_of_eq_false (le_nan_right h))

theorem erf_nan {x : F64} (h : x.isNaN = true) : erf x = .error .panic ∧ erfc x = .error .panic := by
  have e := erfccheb_nan (x := -x) (by rw [isNaN_neg]; exact h)
  unfold erf erfc
  refine ⟨(if_neg (ne_true_of_eq_false (le_nan_right h))).trans ?_, (if_neg (ne_true_of_eq_false (le_nan_right h))).trans ?_⟩
  · rw [e]; rfl
  · rw [e]; rfl

/-- C26: `erf(x)` and `erfc(x)` panic iff `x` is NaN. -/
theorem erf_panic_iff (x : F64) : (Panics (erf x) ↔ x.isNaN = true) ∧ (Panics (erfc x) ↔ x.isNaN = true) := by
  unfold Panics
  rcases hn : x.isNaN with _ | _
  · rcases le_or_gt 0 x.val with h | h
    · obtain ⟨v, hv⟩ := erfccheb_ok hn h
      rw [erf_pos hn h, erfc_pos hn h, hv]
      exact ⟨⟨(fun h => nomatch h), (fun h => nomatch h)⟩, ⟨(fun h => nomatch h), (fun h => nomatch h)⟩⟩
    · obtain ⟨v, hv⟩ := erfccheb_ok (z := -x) (by rw [isNaN_neg]; exact hn) (by rw [val_neg]; linarith)
      rw [erf_neg' h, erfc_neg' h, hv]
      exact ⟨⟨(fun h => nomatch h), (fun h => nomatch h)⟩, ⟨(fun h => nomatch h), (fun h => nomatch h)⟩⟩
  · have := erf_nan hn
    exact ⟨⟨fun _ => rfl, fun _ => this.1⟩, ⟨fun _ => rfl, fun _ => this.2⟩⟩

/-! ## C27 -/

/-- `w = -v` as numbers (the sign of a zero is not fixed), or both are NaN -/
def F64.Opp (v w : F64) : Prop := (v.isNaN = true ∧ w.isNaN = true) ∨ (v.isNaN = false ∧ w.isNaN = false ∧ w.val = -v.val)

omit [Libm F64] in
theorem sub_opp (a b : F64) : F64.Opp (a - b) (b - a) := by
  rcases cases3 a with ha | ha | ha
  · left; rw [sub_nan_left ha, sub_nan_right ha]; exact ⟨rfl, rfl⟩
  · rcases cases3 b with hb | hb | hb
    · left; rw [sub_nan_left hb, sub_nan_right hb]; exact ⟨rfl, rfl⟩
    · rw [isInf_cases ha, isInf_cases hb]
      cases a.neg <;> cases b.neg
      · left; decide
      · right; refine ⟨by decide, by decide, ?_⟩
        rw [show sinf true - sinf false = ninf by decide, show sinf false - sinf true = inf by decide, inf_val, ninf_val]
      · right; refine ⟨by decide, by decide, ?_⟩
        rw [show sinf true - sinf false = ninf by decide, show sinf false - sinf true = inf by decide, inf_val, ninf_val, neg_neg]
      · left; decide
    · right
      have e1 : a - b = a := by
        rw [sub_eq]; exact add_inf_left ha (val_of_neg (isFin_notNaN hb)) (fun hc => by rw [isInf_neg, isFin_notInf hb] at hc; cases hc)
      have e2 : b - a = -a := by
        rw [sub_eq]; exact add_inf_right hb (by rw [isInf_neg]; exact ha)
      rw [e1, e2]
      exact ⟨isInf_notNaN ha, by rw [isNaN_neg]; exact isInf_notNaN ha, by rw [val_neg]⟩
  · rcases cases3 b with hb | hb | hb
    · left; rw [sub_nan_left hb, sub_nan_right hb]; exact ⟨rfl, rfl⟩
    · right
      have e1 : b - a = b := by
        rw [sub_eq]; exact add_inf_left hb (val_of_neg (isFin_notNaN ha)) (fun hc => by rw [isInf_neg, isFin_notInf ha] at hc; cases hc)
      have e2 : a - b = -b := by
        rw [sub_eq]; exact add_inf_right ha (by rw [isInf_neg]; exact hb)
      rw [e1, e2]
      exact ⟨by rw [isNaN_neg]; exact isInf_notNaN hb, isInf_notNaN hb, by rw [val_neg, neg_neg]⟩
    · right
      have S1 := sub_spec ha hb
      have S2 := sub_spec hb ha
      refine ⟨S1.1, S2.1, ?_⟩
      rw [S1.2, S2.2, ← RN_neg]; congr 1; ring

/-- C27: `erf(-x) = -erf(x)` for every non-zero number `x`. -/
theorem erf_odd (x v : F64) (hx : x.val ≠ 0) (h : Returns (erf x) v) : ∃ w, Returns (erf (-x)) w ∧ F64.Opp v w := by
  have hn : x.isNaN = false := by
    rcases hn : x.isNaN with _ | _
    · rfl
    · have := ((erf_panic_iff x).1).2 hn
      unfold Panics at this; unfold Returns at h
      rw [this] at h; cases h
  unfold Returns at *
  rcases lt_or_gt_of_ne hx with h0 | h0
  · obtain ⟨e, he⟩ := erfccheb_ok (z := -x) (by rw [isNaN_neg]; exact hn) (by rw [val_neg]; linarith)
    rw [erf_neg' h0, he] at h
    cases h
    rw [erf_pos (by rw [isNaN_neg]; exact hn) (by rw [val_neg]; linarith), he]
    exact ⟨_, rfl, sub_opp _ _⟩
  · obtain ⟨e, he⟩ := erfccheb_ok hn h0.le
    rw [erf_pos hn h0.le, he] at h
    cases h
    rw [erf_neg' (by rw [val_neg]; linarith), neg_neg', he]
    exact ⟨_, rfl, sub_opp _ _⟩

/-- C27: for `x > 0`, `erfc(-x) = 2 - erfc(x)`, and for `x ≥ 0`, `erf(x) = 1 - erfc(x)`, each with one rounding. -/
theorem erfc_reflect (x v : F64) (h : Returns (erfc x) v) :
    (0 < x.val → Returns (erfc (-x)) (2.0 - v)) ∧ (0 ≤ x.val → Returns (erf x) (1.0 - v)) := by
  have hn : x.isNaN = false := by
    rcases hn : x.isNaN with _ | _
    · rfl
    · have := ((erf_panic_iff x).2).2 hn
      unfold Panics at this; unfold Returns at h
      rw [this] at h; cases h
  unfold Returns at *
  constructor
  · intro h0
    rw [erfc_neg' (by rw [val_neg]; linarith), neg_neg', ← erfc_pos hn h0.le, h]; rfl
  · intro h0
    rw [erf_pos hn h0, ← erfc_pos hn h0, h]; rfl

example : (1.5 : F64).val ≠ 0 ∧ 0 < (1.5 : F64).val ∧ ∃ v, Returns (erfc (1.5 : F64)) v := by
  have p : 0 < (1.5 : F64).val := by have := val_lt_of_lt (a := 0.0) (b := 1.5) (by decide +kernel); rwa [zero_val] at this
  refine ⟨p.ne', p, ?_⟩
  obtain ⟨v, hv⟩ := erfccheb_ok (z := (1.5 : F64)) (by decide +kernel) p.le
  exact ⟨v, (erfc_pos (by decide +kernel) p.le).trans hv⟩

/-! ## C28 -/

/-- C28: for every number `x`, `erf(x)` is a number in `[-1,1]` and `erfc(x)` a number in `[0,2]`. -/
theorem erf_range (A : LibmAcc) (x : F64) (hn : x.isNaN = false) :
    (∃ v, Returns (erf x) v ∧ v.Mem (-1) 1) ∧ (∃ w, Returns (erfc x) w ∧ w.Mem 0 2) := by
  have one_m : ∀ e : F64, e.isFin = true → 0 ≤ e.val → e.val ≤ 2 → (1.0 - e).Mem (-1) 1 ∧ (e - 1.0).Mem (-1) 1 ∧ (2.0 - e).Mem 0 2 := by
    intro e fe h0 h2
    have S1 := sub_spec one_fin fe
    have S2 := sub_spec fe one_fin
    have S3 := sub_spec (a := 2.0) (b := e) (by decide +kernel) fe
    rw [one_val] at S1 S2
    rw [two_val] at S3
    have k : ∀ (r : ℝ) (i j : ℤ), |i| ≤ 2 → |j| ≤ 2 → (i:ℝ) ≤ r → r ≤ j → (i:ℝ) ≤ RN r ∧ RN r ≤ j := fun r i j hi hj h1 h2 =>
      ⟨RN_ge_int i (hi.trans (by norm_num)) h1, RN_le_int j (hj.trans (by norm_num)) h2⟩
    have k1 := k (1 - e.val) (-1) 1 (by norm_num) (by norm_num) (by push_cast; linarith) (by push_cast; linarith)
    have k2 := k (e.val - 1) (-1) 1 (by norm_num) (by norm_num) (by push_cast; linarith) (by push_cast; linarith)
    have k3 := k (2 - e.val) 0 2 (by norm_num) (by norm_num) (by push_cast; linarith) (by push_cast; linarith)
    push_cast at k1 k2 k3
    exact ⟨⟨S1.1, by rw [S1.2]; exact k1⟩, ⟨S2.1, by rw [S2.2]; exact k2⟩, ⟨S3.1, by rw [S3.2]; exact k3⟩⟩
  unfold Returns
  rcases le_or_gt 0 x.val with h | h
  · obtain ⟨e, he, fe, h0, h2⟩ := erfccheb_range A hn h
    have := one_m e fe h0 h2
    rw [erf_pos hn h, erfc_pos hn h, he]
    exact ⟨⟨_, rfl, this.1⟩, ⟨_, rfl, isFin_notNaN fe, h0, h2⟩⟩
  · obtain ⟨e, he, fe, h0, h2⟩ := erfccheb_range A (z := -x) (by rw [isNaN_neg]; exact hn) (by rw [val_neg]; linarith)
    have := one_m e fe h0 h2
    rw [erf_neg' h, erfc_neg' h, he]
    exact ⟨⟨_, rfl, this.2.1⟩, ⟨_, rfl, this.2.2⟩⟩

/-! ## C29 -/

/-- C29: saturation of the inverse functions. -/
theorem inverf_saturates (p : F64) (hn : p.isNaN = false) :
    (2 ≤ p.val → Returns (inverfc p) (-100.0)) ∧ (p.val ≤ 0 → Returns (inverfc p) 100.0) ∧
    (1 ≤ p.val → Returns (inverf p) 100.0) ∧ (p.val ≤ -1 → Returns (inverf p) (-100.0)) := by
  have a1 : ∀ q : F64, q.isNaN = false → 2 ≤ q.val → inverfc q = .ok (-100.0) := by
    intro q hq h
    have e : F64.le 2.0 q = true := le_iff.2 ⟨nn_two, hq, by rw [two_val]; exact h⟩
    unfold inverfc
    simp only [ar_le]
    rw [if_pos e]
  have a2 : ∀ q : F64, q.isNaN = false → q.val ≤ 0 → inverfc q = .ok 100.0 := by
    intro q hq h
    have e : F64.le 2.0 q = false := le_false_of_lt (by rw [two_val]; linarith)
    have e2 : F64.le q 0.0 = true := le_iff.2 ⟨hq, nn_zero, by rw [zero_val]; exact h⟩
    unfold inverfc
    simp only [ar_le]
    rw [e, if_neg Bool.false_ne_true, if_pos e2]
  have s : (1.0 - p).isNaN = false ∧ (1 ≤ p.val → (1.0 - p).val ≤ 0) ∧ (p.val ≤ -1 → 2 ≤ (1.0 - p).val) := by
    rcases fin_or_inf hn with h | h
    · have S := sub_spec one_fin h
      rw [one_val] at S
      refine ⟨S.1, fun h => ?_, fun h => ?_⟩
      · rw [S.2]; exact RN_nonpos (by linarith)
      · rw [S.2, ← two_val]; exact le_RN_of_le nn_two (by rw [two_val]; linarith)
    · rw [sub_eq, add_inf_right one_fin (by rw [isInf_neg]; exact h), val_neg]
      refine ⟨by rw [isNaN_neg]; exact hn, fun h => by linarith, fun h1 => ?_⟩
      have h2 := isInf_iff_val.1 h
      rw [abs_of_neg (by linarith)] at h2
      rw [h2]
      exact le_trans (by norm_num) HUGE_ge
  unfold Returns
  exact ⟨a1 p hn, a2 p hn, fun h => a2 _ s.1 (s.2.1 h), fun h => a1 _ s.1 (s.2.2 h)⟩

omit [Libm F64] in
/-- the reflected probability `2-p` stays strictly between 0 and 1 -/
theorem two_sub_mem {p : F64} (h1 : 1 < p.val) (h2 : p.val < 2) : (2.0 - p).isNaN = false ∧ 0 < (2.0 - p).val ∧ (2.0 - p).val < 1 := by
  have fp : p.isFin = true := abs_fin (b := 2) (by linarith) h2.le (by norm_num)
  have S := sub_spec (a := 2.0) (b := p) (by decide +kernel) fp
  refine ⟨S.1, ?_, ?_⟩
  · rw [S.2]
    refine lt_of_le_of_ne (RN_nonneg (by rw [two_val]; linarith)) (fun h => ?_)
    have := RN_sub_eq_zero.1 h.symm
    rw [two_val] at this; linarith
  · have hs : (1.0000000000000002 : F64).val ≤ p.val := by
      have h := h1
      rw [← one_val, ← key_lt] at h; rw [← key_le]
      have e1 : (1.0 : F64).key = 4607182418800017408 := by decide +kernel
      have e2 : (1.0000000000000002 : F64).key = 4607182418800017409 := by decide +kernel
      rw [e1] at h; rw [e2]; omega
    have v1 : (1.0000000000000002 : F64).val = 1 + 1/2^52 := by
      have := val_of_sv (x := (1.0000000000000002 : F64)) (2^52+1) (2^52) (by norm_num) (by decide +kernel); rw [this]; norm_num
    have v2 : (0.9999999999999998 : F64).val = 1 - 1/2^52 := by
      have := val_of_sv (x := (0.9999999999999998 : F64)) (2^52-1) (2^52) (by norm_num) (by decide +kernel); rw [this]; norm_num
    have : (2.0 - p).val ≤ (0.9999999999999998 : F64).val := by
      rw [S.2]
      exact RN_le_of_le (by decide +kernel) (by rw [v2, two_val]; rw [v1] at hs; linarith)
    rw [v2] at this
    have : (0:ℝ) < 1/2^52 := by positivity
    linarith

/-- C29: `inverfc(p) = -inverfc(2-p)` bit for bit for `1 < p < 2`. -/
theorem inverfc_reflect (p v : F64) (h1 : 1 < p.val) (h2 : p.val < 2) (h : Returns (inverfc (2.0 - p)) v) : Returns (inverfc p) (-v) := by
  obtain ⟨qn, q0, q1⟩ := two_sub_mem h1 h2
  have pn : p.isNaN = false := isFin_notNaN (abs_fin (b := 2) (by linarith) h2.le (by norm_num))
  have a1 : F64.le 2.0 p = false := le_false_of_lt (by rw [two_val]; exact h2)
  have a2 : F64.le p 0.0 = false := le_false_of_lt (by rw [zero_val]; linarith)
  have a3 : F64.lt p 1.0 = false := (lt_false_iff pn nn_one).2 (by rw [one_val]; exact h1.le)
  have b1 : F64.le 2.0 (2.0 - p) = false := le_false_of_lt (by rw [two_val]; linarith)
  have b2 : F64.le (2.0 - p) 0.0 = false := le_false_of_lt (by rw [zero_val]; exact q0)
  have b3 : F64.lt (2.0 - p) 1.0 = true := lt_iff.2 ⟨qn, nn_one, by rw [one_val]; exact q1⟩
  unfold Returns inverfc at *
  simp only [ar_le, ar_lt] at *
  simp only [a1, a2, a3, Bool.false_eq_true, if_false]
  simp only [b1, b2, b3, Bool.false_eq_true, if_false, if_true] at h
  rcases hc : inverfcCore (2.0 - p) with e | x
  · rw [hc] at h; cases h
  · rw [hc] at h
    cases h; rfl

/-- C29: both inverse functions panic on NaN. -/
theorem inverf_nan (L : LibmSpec) (p : F64) (hn : p.isNaN = true) : Panics (inverfc p) ∧ Panics (inverf p) := by
  have key : ∀ q : F64, q.isNaN = true → inverfc q = .error .panic := by
    intro q hq
    have c1 : (2.0 - q).isNaN = true := by rw [sub_nan_right hq]; rfl
    have c2 := L.ln_nan ((2.0 - q) / 2.0) (by rw [div_nan_left c1]; rfl)
    unfold inverfc
    simp only [ar_le, ar_lt]
    simp only [le_nan_right hq, le_nan_left hq, lt_nan_left hq, Bool.false_eq_true, if_false]
    unfold inverfcCore inverfcStep
    have c3 : F64.sqrt (-2.0 * Libm.ln ((2.0 - q) / 2.0)) = nan := by rw [mul_nan_right c2]; rfl
    simp only [ar_sqrt, c3]
    have c4 : ∀ u : F64, (u - nan).isNaN = true := fun u => by rw [sub_nan_right rfl]; rfl
    rw [mul_nan_right (c4 _), (erf_nan (x := nan) rfl).2]
    rfl
  exact ⟨key p hn, key (1.0 - p) (by rw [sub_nan_right hn]; rfl)⟩

end Verif
