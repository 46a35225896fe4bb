import Verif.Proofs.GcfF10
import Verif.Props.IncGamma

/-!
# C76: `gammp` and `gammq` compute the regularised incomplete gamma functions

For orders below 100 the code sums the series for `γ(a,x)` or evaluates the continued fraction for `Γ(a,x)`.  Executed in binary64, both
functions are within `10^-8 + 10^-12/a` of the true `P(a,x)` and `Q(a,x)`.  Most of the error is that of the Lanczos coefficients
(`4·10^-9`) and of the rounding errors of at most 10000 steps of the continued fraction (`4.6·10^-9`).
-/

namespace Verif
open F64 Gcf
variable [Libm F64]

/-- C76: for every order `10^-12 ≤ a < 100` and every finite `x ≥ 0`, `gammp(a,x)` and `gammq(a,x)` return numbers within `10^-8 + 10^-12/a`
of `P(a,x) = γ(a,x)/Γ(a)` and `Q(a,x) = Γ(a,x)/Γ(a)`.  For orders below one, arguments `0 < x < a·2^-52` are excluded: there the code returns
`P = 0`, which is wrong (`gammp_cutoff`).
Missing for the full property: orders of 100 and more and orders below `10^-12`. -/
theorem gammpq_accurate_partial (L : LibmUlp) (a x : F64) (ha : 1 / 10^12 ≤ a.val) (ha1 : a.val < 100) (fx : x.isFin = true) (hx : 0 ≤ x.val)
    (hc : 1 ≤ a.val ∨ x.val = 0 ∨ a.val / 2^52 ≤ x.val) :
    (∃ p, Returns (gammp a x) p ∧ p.isFin = true ∧ |p.val - regP a.val x.val| ≤ 1 / 10^8 + 1 / 10^12 / a.val) ∧
    (∃ q, Returns (gammq a x) q ∧ q.isFin = true ∧ |q.val - regQ a.val x.val| ≤ 1 / 10^8 + 1 / 10^12 / a.val) := by
  have a0 : 0 < a.val := lt_of_lt_of_le (by norm_num) ha
  have fa : a.isFin = true := isFin_of_abs (b := 100) (by rw [abs_of_pos a0]; exact ha1.le) (by norm_num)
  have nx := isFin_notNaN fx
  have hv := valid_iff.2 ⟨⟨nx, hx⟩, isFin_notNaN fa, a0⟩
  have sum1 := regP_add_regQ a0 hx
  have hP0 := regP_nonneg a0 hx
  have hQ0 : 0 ≤ regQ a.val x.val := by
    have : 0 ≤ upperGamma a.val x.val := MeasureTheory.setIntegral_nonneg measurableSet_Ioi (fun t ht => by
      have : 0 < t := lt_of_le_of_lt hx ht
      positivity)
    exact div_nonneg this (Real.Gamma_pos_of_pos a0).le
  have j0 : 0 ≤ 1 / 10^12 / a.val := by positivity
  have j1 : 1 / 10^12 / a.val ≤ 1 := by rw [div_le_one a0]; exact ha
  have ej : 8 / 10^13 / a.val = 0.8 * (1 / 10^12 / a.val) := by ring
  have f0 : (0.0 : F64).isFin = true := by decide +kernel
  have f1 : (1.0 : F64).isFin = true := by decide +kernel
  -- results 0 and 1
  have lowcase : regP a.val x.val ≤ 1 / 10^9 →
      (∃ p, (.ok 0.0 : M F64) = .ok p ∧ p.isFin = true ∧ |p.val - regP a.val x.val| ≤ 1 / 10^8 + 1 / 10^12 / a.val) ∧
      (∃ q, (.ok 1.0 : M F64) = .ok q ∧ q.isFin = true ∧ |q.val - regQ a.val x.val| ≤ 1 / 10^8 + 1 / 10^12 / a.val) := by
    intro h
    refine ⟨⟨_, rfl, f0, ?_⟩, ⟨_, rfl, f1, ?_⟩⟩
    · rw [zero_val, abs_le]; norm_num at h j0 ⊢; constructor <;> linarith
    · rw [one_val, abs_le]; norm_num at h j0 ⊢; constructor <;> linarith
  unfold Returns
  rw [gammp_eq hv, gammq_eq hv]
  rcases c1 : F64.eq x 0.0 with _ | _
  swap
  · rw [if_pos rfl, if_pos rfl]
    have := (eq_iff.1 c1).2.2; rw [zero_val] at this
    refine lowcase ?_
    rw [this]
    unfold regP lowerGamma
    rw [intervalIntegral.integral_same, zero_div]; norm_num
  rw [if_neg Bool.false_ne_true, if_neg Bool.false_ne_true]
  have x0 : 0 < x.val := by
    refine lt_of_le_of_ne hx (fun h => ?_)
    rw [← Bool.not_eq_true, eq_zero_iff, ← val_eq_zero] at c1
    exact c1 h.symm
  -- the lower cut-off
  have m := (mul_spec fa lit_EPS_fin).2.1
  rw [lit_EPS_val, show a.val * 2^(-52:ℤ) = a.val / 2^52 by norm_num; ring] at m
  obtain ⟨g, r⟩ := Gcf.rn_rel (y := a.val / 2^52) (by
      rw [le_div_iff₀ (by norm_num)]; refine le_trans ?_ ha; norm_num) (by
      rw [div_le_iff₀ (by norm_num)]; refine ha1.le.trans ?_; norm_num)
  have m' := m
  rw [← m] at g r
  have fm : (a * EPS).isFin = true := by rw [isFin_iff_val]; exact g
  obtain ⟨r1, r2⟩ := abs_le.1 r
  rcases c2 : F64.lt x (a * EPS) with _ | _
  swap
  · rw [if_pos rfl, if_pos rfl]
    have h := (lt_iff.1 c2).2.2
    refine lowcase ?_
    rcases hc with h1 | h1 | h1
    · refine (near_P h1 hx ?_).trans (by norm_num)
      norm_num at r2 ⊢; linarith
    · linarith
    · exfalso
      have := RN_mono h1
      rw [← m', RN_val nx] at this
      linarith
  rw [if_neg Bool.false_ne_true, if_neg Bool.false_ne_true]
  rw [lt_false_iff nx (isFin_notNaN fm)] at c2
  have x28 : 1 / 10^28 ≤ x.val := by
    refine le_trans ?_ c2
    norm_num at r1 ha ⊢; linarith
  -- the upper cut-off
  have ff := far_fin fa a0
  rcases c3 : F64.lt (a + 20.0 * (F64.sqrt a + 1.0)) x with _ | _
  swap
  · rw [if_pos rfl, if_pos rfl]
    have h := (lt_iff.1 c3).2.2
    have hq := far_Q a0 ha1 ((far_val ha ha1).trans h.le)
    refine ⟨⟨_, rfl, f1, ?_⟩, ⟨_, rfl, f0, ?_⟩⟩
    · rw [one_val, abs_le]; norm_num at hq j0 ⊢; constructor <;> linarith
    · rw [zero_val, abs_le]; norm_num at hq j0 ⊢; constructor <;> linarith
  rw [if_neg Bool.false_ne_true, if_neg Bool.false_ne_true]
  rw [lt_false_iff (isFin_notNaN ff) nx] at c3
  have c4 : ¬ 100 ≤ F64.toUnsigned USIZE_MAX a := by
    rw [toUnsigned_spec fa a0.le]
    intro h
    have h1 : 100 ≤ ⌊a.val⌋₊ := h.trans (Nat.min_le_left _ _)
    have := (Nat.le_floor_iff a0.le).1 h1
    push_cast at this
    linarith
  rw [if_neg c4, if_neg c4]
  obtain ⟨ao1, ao2, ao3⟩ := add_one_fin fa a0.le
  rcases c5 : F64.lt x (a + 1.0) with _ | _
  · rw [if_neg Bool.false_ne_true, if_neg Bool.false_ne_true]
    have h2 := (lt_false_iff nx (isFin_notNaN ao1)).1 c5
    have v10 : (10.0 : F64).val = 10 := by
      have := val_of_int (x := (10.0 : F64)) 10 (by decide +kernel); rw [this]; norm_num
    have v100 : (100.0 : F64).val = 100 := by
      have := val_of_int (x := (100.0 : F64)) 100 (by decide +kernel); rw [this]; norm_num
    have v330 : (330.0 : F64).val = 330 := by
      have := val_of_int (x := (330.0 : F64)) 330 (by decide +kernel); rw [this]; norm_num
    have hx330 : x.val ≤ 330 := by
      have := far_bound fa a0 (r := 10.0) (h := 100.0) (u := 330.0)
        (by rw [v10, Real.sqrt_le_left (by norm_num)]; linarith) (by decide +kernel) (by rw [v100]; exact ha1.le) (by decide +kernel)
      linarith
    obtain ⟨gf, ge⟩ := gcf_acc L ha ha1 h2 hx330
    rw [ej] at ge
    have k := compl_acc (P := regP a.val x.val) gf ge (by linarith) hP0 (by linarith) (by norm_num at j1 ⊢; linarith)
    refine ⟨⟨_, rfl, ?_, ?_⟩, ⟨_, rfl, gf, ?_⟩⟩
    · refine isFin_of_abs (b := 100) ?_ (by norm_num)
      have hh := (abs_le.1 k)
      rw [abs_le]
      norm_num at hh j1 ⊢
      constructor <;> linarith
    · refine k.trans ?_; norm_num at j0 ⊢; linarith
    · refine ge.trans ?_; norm_num at j0 ⊢; linarith
  · rw [if_pos rfl, if_pos rfl]
    have h2 := (lt_iff.1 c5).2.2
    have hx11 : x.val ≤ a.val + 1.1 := by
      have s1 := (add_spec fa f1).2
      rw [one_val] at s1
      obtain ⟨_, e1⟩ := rn_mod (y := a.val + 1) (Y := 101) (by rw [abs_of_pos (by linarith)]; linarith) (by norm_num)
      rw [← s1] at e1
      have := (abs_le.1 e1).2
      norm_num at this ⊢; linarith
    obtain ⟨gf, ge⟩ := gser_acc L ha ha1 x28 hx11
    rw [ej] at ge
    have k := compl_acc (P := regQ a.val x.val) gf ge (by linarith) hQ0 (by linarith) (by norm_num at j1 ⊢; linarith)
    refine ⟨⟨_, rfl, gf, ?_⟩, ⟨_, rfl, ?_, ?_⟩⟩
    · refine ge.trans ?_; norm_num at j0 ⊢; linarith
    · refine isFin_of_abs (b := 100) ?_ (by norm_num)
      have hh := (abs_le.1 k)
      rw [abs_le]
      norm_num at hh j1 ⊢
      constructor <;> linarith
    · refine k.trans ?_; norm_num at j0 ⊢; linarith

/-- the hypotheses of `gammpq_accurate_partial` hold for `a = 2.5`, `x = 3` -/
example : 1 / 10^12 ≤ (2.5 : F64).val ∧ (2.5 : F64).val < 100 ∧ (3.0 : F64).isFin = true ∧ 0 ≤ (3.0 : F64).val ∧ 1 ≤ (2.5 : F64).val := by
  have v1 : (2.5 : F64).val = 5 / 2 := by
    have := val_of_sv (x := (2.5 : F64)) 5 2 (by norm_num) (by decide +kernel); rw [this]; norm_num
  have v2 : (3.0 : F64).val = 3 := by have := val_of_int (x := (3.0 : F64)) 3 (by decide +kernel); rw [this]; norm_num
  rw [v1, v2]
  refine ⟨by norm_num, by norm_num, by decide +kernel, by norm_num, by norm_num⟩

end Verif
