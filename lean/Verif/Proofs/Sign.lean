import Verif.Proofs.Exact
import Verif.Proofs.Inst
import Verif.Spec

/-!
# Sign-bit calculus

`PN x`: a number (not NaN) with a clear sign bit (it may be `+0` or `+inf`).  `PS x`: NaN or `PN`.
Sums, products and quotients of such numbers are again such numbers, with NaN only from `0*inf`, `0/0`, `inf/inf`.
-/

namespace Verif
open F64

def PN (x : F64) : Prop := x.isNaN = false ∧ x.neg = false
def PS (x : F64) : Prop := x.isNaN = true ∨ x.neg = false

instance (x : F64) : Decidable (PN x) := by unfold PN; infer_instance

theorem PN.ps {x : F64} (h : PN x) : PS x := Or.inr h.2
theorem PS.pn {x : F64} (h : PS x) (hn : x.isNaN = false) : PN x := by
  rcases h with h | h
  · rw [hn] at h; cases h
  · exact ⟨hn, h⟩
theorem PS_nan : PS nan := Or.inl (by decide)
theorem PS.val {x : F64} (h : PS x) : x.isNaN = true ∨ 0 ≤ x.val := h.imp id val_nonneg_of_neg
theorem PN.val {x : F64} (h : PN x) : 0 ≤ x.val := val_nonneg_of_neg h.2
theorem pn_of_pos {x : F64} (hn : x.isNaN = false) (h : 0 < x.val) : PN x := ⟨hn, neg_of_val_pos h⟩

theorem add_pn {a b : F64} (ha : PN a) (hb : PN b) : PN (a + b) := by
  rcases fin_or_inf ha.1 with h1 | h1
  · rcases fin_or_inf hb.1 with h2 | h2
    · refine ⟨(add_spec h1 h2).1, ?_⟩
      rw [add_def]; unfold add
      rw [ha.1, hb.1, isFin_notInf h1, isFin_notInf h2]
      simp only [Bool.or_self, Bool.false_eq_true, if_false]
      split
      · rw [ha.2, hb.2]; rfl
      · rw [mk'_neg]
        have e1 : a.sv = (iv a.mag : Int) := by unfold sv; rw [ha.2]; rfl
        have e2 : b.sv = (iv b.mag : Int) := by unfold sv; rw [hb.2]; rfl
        rw [e1, e2]
        exact decide_eq_false (by omega)
    · rw [add_inf_right h1 h2]; exact hb
  · rw [add_inf_left h1 hb.1 (fun _ => by rw [ha.2, hb.2])]; exact ha

theorem add_ps {a b : F64} (ha : PS a) (hb : PS b) : PS (a + b) := by
  by_cases h1 : a.isNaN = true
  · rw [add_nan_left h1]; exact PS_nan
  · by_cases h2 : b.isNaN = true
    · rw [add_nan_right h2]; exact PS_nan
    · exact (add_pn (ha.pn (by simpa using h1)) (hb.pn (by simpa using h2))).ps

theorem mul_ps {a b : F64} (ha : PS a) (hb : PS b) : PS (a * b) := by
  by_cases h1 : a.isNaN = true
  · rw [mul_nan_left h1]; exact PS_nan
  by_cases h2 : b.isNaN = true
  · rw [mul_nan_right h2]; exact PS_nan
  have ha := ha.pn (by simpa using h1)
  have hb := hb.pn (by simpa using h2)
  rw [mul_def]; unfold mul
  split
  · exact PS_nan
  · split
    · split
      · exact PS_nan
      · right; rw [sinf_neg, ha.2, hb.2]; rfl
    · right; rw [mk'_neg, ha.2, hb.2]; rfl

theorem div_ps {a b : F64} (ha : PS a) (hb : PS b) : PS (a / b) := by
  by_cases h1 : a.isNaN = true
  · rw [div_nan_left h1]; exact PS_nan
  by_cases h2 : b.isNaN = true
  · rw [div_nan_right h2]; exact PS_nan
  have ha := ha.pn (by simpa using h1)
  have hb := hb.pn (by simpa using h2)
  rw [div_def]; unfold div
  have hs : (a.neg != b.neg) = false := by rw [ha.2, hb.2]; rfl
  rw [hs]
  split
  · exact PS_nan
  · split
    · split
      · exact PS_nan
      · right; rfl
    · split
      · right; rfl
      · split
        · split
          · exact PS_nan
          · right; rfl
        · right; rw [mk'_neg]

theorem lit_pn_of {x : F64} (h : x.isNaN = false ∧ x.neg = false) : PN x := h

/-- product of two positive-sign numbers is a number unless it is `0·∞` -/
theorem mul_pn {a b : F64} (ha : PN a) (hb : PN b) (h1 : a.isInf = true → 0 < b.val) (h2 : b.isInf = true → 0 < a.val) : PN (a * b) := by
  refine (mul_ps ha.ps hb.ps).pn ?_
  rcases fin_or_inf ha.1 with f1 | f1
  · rcases fin_or_inf hb.1 with f2 | f2
    · exact (mul_spec f1 f2).1
    · rw [mul_inf ha.1 hb.1 (Or.inr f2) (val_ne_zero.1 (h2 f2).ne') (notZero_of_inf f2)]; simp
  · rw [mul_inf ha.1 hb.1 (Or.inl f1) (notZero_of_inf f1) (val_ne_zero.1 (h1 f1).ne')]; simp

/-- quotient of positive-sign numbers, divisor positive and not both infinite -/
theorem div_pn {a b : F64} (ha : PN a) (hb : PN b) (h0 : 0 < b.val) (h1 : a.isInf = true → b.isFin = true) : PN (a / b) := by
  refine (div_ps ha.ps hb.ps).pn ?_
  rcases fin_or_inf ha.1 with f1 | f1
  · rcases fin_or_inf hb.1 with f2 | f2
    · exact (div_spec f1 f2 h0.ne').1
    · rw [div_inf_right f1 f2]; simp
  · rw [div_inf_left f1 (h1 f1)]; simp

/-! ## clamping -/

theorem clamp01_nan {x : F64} (h : x.isNaN = true) : clamp01 x = x := by
  unfold clamp01
  simp only [ar_lt, lt_nan_left h, lt_nan_right h, Bool.false_eq_true, if_false]

theorem clamp01_num {x : F64} (h : x.isNaN = false) : (clamp01 x).isNaN = false ∧ (clamp01 x).val = Max.max 0 (Min.min 1 x.val) := by
  unfold clamp01
  by_cases h1 : x.val < 0
  · have e1 : F64.lt x 0.0 = true := lt_iff.2 ⟨h, isFin_notNaN zero_fin, by rw [zero_val]; exact h1⟩
    have e2 : F64.lt (1.0 : F64) 0.0 = false := by decide +kernel
    simp only [ar_lt, e1, if_true, e2, Bool.false_eq_true, if_false]
    refine ⟨isFin_notNaN zero_fin, ?_⟩
    rw [zero_val, max_eq_left]; exact (min_le_right _ _).trans h1.le
  · rw [not_lt] at h1
    have e1 : F64.lt x 0.0 = false := (lt_false_iff h (isFin_notNaN zero_fin)).2 (by rw [zero_val]; exact h1)
    by_cases h2 : 1 < x.val
    · have e2 : F64.lt 1.0 x = true := lt_iff.2 ⟨isFin_notNaN one_fin, h, by rw [one_val]; exact h2⟩
      simp only [ar_lt, e1, if_true, e2, Bool.false_eq_true, if_false]
      refine ⟨isFin_notNaN one_fin, ?_⟩
      rw [one_val, min_eq_left h2.le, max_eq_right zero_le_one]
    · rw [not_lt] at h2
      have e2 : F64.lt 1.0 x = false := (lt_false_iff (isFin_notNaN one_fin) h).2 (by rw [one_val]; exact h2)
      simp only [ar_lt, e1, e2, Bool.false_eq_true, if_false]
      exact ⟨h, by rw [min_eq_right h2, max_eq_right h1]⟩

theorem clamp01_mem {x : F64} (h : x.isNaN = false) : (clamp01 x).Mem 0 1 := by
  obtain ⟨h1, h2⟩ := clamp01_num h
  exact ⟨h1, by rw [h2]; exact le_max_left _ _, by rw [h2]; exact max_le zero_le_one (min_le_left _ _)⟩

theorem clamp01_range (x : F64) : (clamp01 x).isNaN = true ∨ (clamp01 x).Mem 0 1 := by
  rcases h : x.isNaN with _ | _
  · exact Or.inr (clamp01_mem h)
  · left; rw [clamp01_nan h]; exact h

end Verif

namespace Verif
open F64

theorem add_pn_ge {a b : F64} (ha : PN a) (hb : PN b) : a.val ≤ (a + b).val := by
  rcases fin_or_inf ha.1 with h1 | h1
  · rcases fin_or_inf hb.1 with h2 | h2
    · rw [(add_spec h1 h2).2]
      exact le_RN_of_le ha.1 (by have := hb.val; linarith)
    · rw [add_inf_right h1 h2]
      have h3 := isInf_iff_val.1 h2
      rw [abs_of_nonneg hb.val] at h3
      rw [h3]; exact (fin_lt h1).le
  · rw [add_inf_left h1 hb.1 (fun _ => by rw [ha.2, hb.2])]

end Verif
