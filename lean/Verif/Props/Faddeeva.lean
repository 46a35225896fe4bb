import Verif.Proofs.Faddeeva
import Verif.Props.Erfcx
import Verif.Props.Dawson
import Verif.Proofs.FadAxis

/-!
# Properties of `faddeeva` (C37-C40)
-/

namespace Verif
open F64
variable [Libm F64] [Cfg]

/-! ## C37 -/

/-- how a call of `faddeeva` can end -/
theorem faddeeva_ends (L : LibmSpec) (re im : F64) :
    (∃ v, Returns (faddeeva re im) v) ∨ (F64.lt im.abs (1e-8 * re.abs) = true ∧ Panics (faddeeva re im) ∧ Panics (dawson re)) := by
  unfold Returns Panics
  rcases h : F64.lt im.abs (1e-8 * re.abs) with _ | _
  · left
    rcases h1 : F64.lt re.abs (1e-8 * im.abs) with _ | _
    · rcases h2 : F64.lt (zzOf re im) 0.053 with _ | _
      · rcases h3 : F64.le 49.0 (zzOf re im) with _ | _
        · rcases hx : re.isNaN with _ | _
          · rcases hy : im.isNaN with _ | _
            · obtain ⟨v, hv⟩ := faddeevaTaylor_ok hx hy h2 h3
              rw [fad_taylor h h1 h2 h3 hx hy, hv]
              exact ⟨_, rfl⟩
            · exact ⟨_, fad_nan_y h h1 h2 h3 hx hy⟩
          · exact ⟨_, fad_nan_x h h1 h2 h3 hx⟩
        · exact ⟨_, fad_large h h1 h2 h3⟩
      · exact ⟨_, fad_small h h1 h2⟩
    · obtain ⟨v, hv, -⟩ := erfcx_total L im
      rw [fad_imag h h1, hv]
      exact ⟨_, rfl⟩
  · rw [fad_real h]
    rcases hd : dawson re with e | d
    · right
      rcases hs : F64.lt re.abs 0.2 with _ | _
      · rw [dawson_large hs] at hd
        unfold wrapU at hd
        split at hd
        · cases hd
        · split at hd
          · cases hd; exact ⟨rfl, rfl, rfl⟩
          · cases hd
      · rw [dawson_small hs] at hd; cases hd
    · exact Or.inl ⟨_, rfl⟩

/-- C37: no out-of-bounds index, no failed assertion.  Integer overflow checks apart (they are switched off here, as in a release
build), `faddeeva` has no other source of panics than table indexing and the assertion, and it returns for every pair of arguments. -/
theorem faddeeva_total (L : LibmSpec) (hc : Cfg.checks = false) (re im : F64) : ∃ v, Returns (faddeeva re im) v := by
  rcases faddeeva_ends L re im with h | ⟨-, -, h⟩
  · exact h
  · exfalso
    unfold Panics at h
    rcases hs : F64.lt re.abs 0.2 with _ | _
    · rw [dawson_large hs] at h
      unfold wrapU at h
      split at h
      · cases h
      · rw [hc, if_neg (by decide)] at h; cases h
    · rw [dawson_small hs] at h; cases h

/-- … and with overflow checks the only panic is the integer overflow inside `dawson`. -/
theorem faddeeva_panic_iff (L : LibmSpec) (re im : F64) :
    Panics (faddeeva re im) ↔ (F64.lt im.abs (1e-8 * re.abs) = true ∧ Panics (dawson re)) := by
  constructor
  · intro h
    rcases faddeeva_ends L re im with ⟨v, hv⟩ | ⟨h1, -, h2⟩
    · unfold Panics at h; unfold Returns at hv; rw [h] at hv; cases hv
    · exact ⟨h1, h2⟩
  · rintro ⟨h1, h2⟩
    unfold Panics at *
    rw [fad_real h1, h2]; rfl

/-- … so `faddeeva` returns, whatever the configuration, whenever `|re| ≤ 2^54`. -/
theorem faddeeva_total_checked (A : LibmAcc) (re im : F64) (h : |re.val| ≤ 2^54) : ∃ v, Returns (faddeeva re im) v := by
  rcases faddeeva_ends A.toLibmSpec re im with h1 | ⟨-, -, h2⟩
  · exact h1
  · obtain ⟨v, hv, -⟩ := dawson_total_partial A re h
    unfold Panics at h2; unfold Returns at hv; rw [hv] at h2; cases h2

/-! ## C40 -/

/-- C40: if an argument is NaN, both components of the result are. -/
theorem faddeeva_nan (re im : F64) (h : re.isNaN = true ∨ im.isNaN = true) :
    ∃ v, Returns (faddeeva re im) v ∧ v.1.isNaN = true ∧ v.2.isNaN = true := by
  have hz : (zzOf re im).isNaN = true := by
    unfold zzOf
    rcases h with h | h
    · rw [mul_nan_left (by simpa using h), add_nan_left (by rfl)]; rfl
    · rw [mul_nan_left h, add_nan_right (by rfl)]; rfl
  have h1 : F64.lt im.abs (1e-8 * re.abs) = false := by
    rcases h with h | h
    · rw [mul_nan_right (by simpa using h)]; exact lt_nan_right (by rfl)
    · exact lt_nan_left (by simpa using h)
  have h2 : F64.lt re.abs (1e-8 * im.abs) = false := by
    rcases h with h | h
    · exact lt_nan_left (by simpa using h)
    · rw [mul_nan_right (by simpa using h)]; exact lt_nan_right (by rfl)
  have h3 : F64.lt (zzOf re im) 0.053 = false := lt_nan_left hz
  have h4 : F64.le 49.0 (zzOf re im) = false := le_nan_right hz
  rcases hx : re.isNaN with _ | _
  · have hy : im.isNaN = true := by rcases h with h | h; rw [hx] at h; cases h; exact h
    exact ⟨_, fad_nan_y h1 h2 h3 h4 hx hy, hy, hy⟩
  · exact ⟨_, fad_nan_x h1 h2 h3 h4 hx, by simpa using hx, by simpa using hx⟩

/-! ## C38 -/

/-- the arguments for which the asymptotic expansion is used: `49 ≤ |z|² ≤ 4.8e15` and neither component is negligible -/
def AsyRegion (re im : F64) : Prop :=
  F64.lt im.abs (1e-8 * re.abs) = false ∧ F64.lt re.abs (1e-8 * im.abs) = false ∧
  F64.le 49.0 (re.abs * re.abs + im * im) = true ∧ F64.lt 4.8e15 (re.abs * re.abs + im * im) = false

/-- C38 outside the region of the asymptotic expansion: `faddeeva(-re, im)` is the complex conjugate of `faddeeva(re, im)`
(equal as numbers; both panic if one does).  Missing: the region of the asymptotic expansion, where the components can differ in the last
bits (`faddeeva_conj_fails`; in exact arithmetic they agree, `faddeeva_asy_conj`). -/
theorem faddeeva_conj_partial (L : LibmSpec) (re im : F64) (h : ¬ AsyRegion re im) (v : F64 × F64) (hv : Returns (faddeeva re im) v) :
    ∃ w, Returns (faddeeva (-re) im) w ∧ NumEq w.1 v.1 ∧ NumEq w.2 (-v.2) := by
  rcases hnx : re.isNaN with _ | _
  case true =>
    obtain ⟨v', e1, n1, n2⟩ := faddeeva_nan re im (Or.inl hnx)
    obtain ⟨w', e2, m1, m2⟩ := faddeeva_nan (-re) im (Or.inl (by simpa using hnx))
    unfold Returns at *
    rw [e1] at hv; injection hv with hv; subst hv
    exact ⟨w', e2, Or.inl ⟨m1, n1⟩, Or.inl ⟨m2, by simpa using n2⟩⟩
  rcases hny : im.isNaN with _ | _
  case true =>
    obtain ⟨v', e1, n1, n2⟩ := faddeeva_nan re im (Or.inr hny)
    obtain ⟨w', e2, m1, m2⟩ := faddeeva_nan (-re) im (Or.inr hny)
    unfold Returns at *
    rw [e1] at hv; injection hv with hv; subst hv
    exact ⟨w', e2, Or.inl ⟨m1, n1⟩, Or.inl ⟨m2, by simpa using n2⟩⟩
  have ea : (-re).abs = re.abs := rfl
  rcases h1 : F64.lt im.abs (1e-8 * re.abs) with _ | _
  · rcases h2 : F64.lt re.abs (1e-8 * im.abs) with _ | _
    · rcases h3 : F64.lt (zzOf re im) 0.053 with _ | _
      · rcases h4 : F64.le 49.0 (zzOf re im) with _ | _
        · -- Taylor
          obtain ⟨r, hr⟩ := faddeevaTaylor_ok hnx hny h3 h4
          unfold Returns at *
          rw [fad_taylor h1 h2 h3 h4 hnx hny, hr] at hv
          rw [fad_taylor (x := -re) h1 h2 h3 h4 (by simpa using hnx) hny, ea, hr]
          injection hv with hv; subst hv
          refine ⟨_, rfl, faddeevaReflect_conj L hnx ?_ r⟩
          intro h0
          exact taylor_ne_zero hnx hny h0 h2 h3 h4
        · have h5 : F64.lt 4.8e15 (zzOf re im) = true := by
            cases h5 : F64.lt 4.8e15 (zzOf re im)
            · exact absurd ⟨h1, h2, h4, h5⟩ h
            · rfl
          unfold Returns at *
          rw [fad_large h1 h2 h3 h4] at hv
          injection hv with hv; subst hv
          exact ⟨_, fad_large (x := -re) h1 h2 h3 h4, faddeevaLarge_conj L hnx hny h5⟩
      · unfold Returns at *
        rw [fad_small h1 h2 h3] at hv
        injection hv with hv; subst hv
        exact ⟨_, fad_small (x := -re) h1 h2 h3, faddeevaSmall_conj re im _⟩
    · unfold Returns at *
      rw [fad_imag h1 h2] at hv
      rw [fad_imag (x := -re) h1 h2]
      cases hw : erfcx im with
      | error e => rw [hw] at hv; cases hv
      | ok w =>
        rw [hw] at hv
        injection hv with hv; subst hv
        refine ⟨_, rfl, ?_⟩
        rw [ea]
        by_cases hz : F64.eq re.abs 0.0 = true
        · rw [if_pos hz, if_pos hz]; exact ⟨NumEq.refl _, numEq_zero_neg (by show (0.0 : F64).isZero = true; decide +kernel)⟩
        · rw [if_neg hz, if_neg hz]; exact ⟨NumEq.refl _, numEq_neg_mul _ _⟩
  · unfold Returns at *
    rw [fad_real h1] at hv
    rw [fad_real (x := -re) h1]
    cases hd : dawson re with
    | error e => rw [hd] at hv; cases hv
    | ok d =>
      obtain ⟨d', hd', hs⟩ := dawson_odd re d hd
      unfold Returns at hd'
      rw [hd] at hv
      rw [hd']
      injection hv with hv; subst hv
      refine ⟨_, rfl, ?_⟩
      rw [ea]
      generalize (if F64.lt 27.0 re.abs = true then (0.0 : F64) else Libm.exp (-re.abs * re.abs)) = e2
      have hwi : NumEq (2.0 * d' * INV_SQRT_PI) (-(2.0 * d * INV_SQRT_PI)) := ((NumEq.refl _).mulN hs.numEq).mulNl (NumEq.refl _)
      by_cases hz : F64.eq im.abs 0.0 = true
      · rw [if_pos hz, if_pos hz]; exact ⟨NumEq.refl _, hwi⟩
      · rw [if_neg hz, if_neg hz]
        refine ⟨(NumEq.refl _).add ((NumEq.refl _).mul (NumEq.sub (NumEq.mulNN (NumEq.refl _) hwi) (NumEq.refl _))), ?_⟩
        exact hwi.subN ((((NumEq.refl _).mulN (NumEq.refl _)).mulNl (NumEq.refl _)).mulNl (NumEq.refl _))

example : ¬ AsyRegion (1.0 : F64) 2.0 ∧ ¬ AsyRegion (-0.1 : F64) 0.1 ∧ ¬ AsyRegion (1e10 : F64) 1e9 ∧ ¬ AsyRegion (3.0 : F64) 0.0 := by
  unfold AsyRegion; decide +kernel

/-- In exact arithmetic the asymptotic expansion (the case missing in `faddeeva_conj_partial`) has the symmetry. -/
theorem faddeeva_asy_conj (x y zz : ℝ) :
    (faddeevaAsy (-x) y zz).re = (faddeevaAsy x y zz).re ∧ (faddeevaAsy (-x) y zz).im = -(faddeevaAsy x y zz).im :=
  faddeevaAsy_real_conj x y zz

/-- C38 is false of the code: `faddeeva(-7.75, 2.5)` and `faddeeva(7.75, 2.5)` are not conjugate. -/
theorem faddeeva_conj_fails : ∃ v w, Returns (faddeeva (7.75 : F64) 2.5) v ∧ Returns (faddeeva (-7.75 : F64) 2.5) w ∧
    ¬ NumEq w.1 v.1 ∧ ¬ NumEq w.2 (-v.2) := by
  have e1 : faddeeva (7.75 : F64) 2.5 = .ok (0.021702964812822044, 0.06624691218698636) := by
    rw [fad_large (by decide +kernel) (by decide +kernel) (by decide +kernel) (by decide +kernel),
      large_asy (by decide +kernel) (by decide +kernel)]
    congr 1
    decide +kernel
  have e2 : faddeeva (-7.75 : F64) 2.5 = .ok (0.021702964812822047, -0.06624691218698638) := by
    rw [fad_large (by decide +kernel) (by decide +kernel) (by decide +kernel) (by decide +kernel),
      large_asy (by decide +kernel) (by decide +kernel)]
    congr 1
    decide +kernel
  refine ⟨_, _, e1, e2, ?_, ?_⟩
  · rw [numEq_iff (by decide +kernel)]; decide +kernel
  · rw [numEq_iff (by decide +kernel)]; decide +kernel

/-! ## C39 -/

/-- C39, real axis: for `0 < |x| ≤ 27` the result is `(exp(-x²), 2·dawson(x)·(1/√π))`. -/
theorem faddeeva_real_axis (L : LibmSpec) (x y d : F64) (h0 : x.val ≠ 0) (h27 : |x.val| ≤ 27) (hy : y.isZero = true) (hd : Returns (dawson x) d) :
    ∃ v, Returns (faddeeva x y) v ∧ NumEq v.1 (Libm.exp (-(x * x))) ∧ NumEq v.2 (2.0 * d * 0.5641895835477563) := by
  have hx : x.isFin = true := isFin_iff_val.2 (lt_of_le_of_lt h27 (lt_of_lt_of_le (by norm_num) HUGE_ge))
  have hxx : -x.abs * x.abs = -(x * x) := by
    rw [sq_abs_f64 x]
    rcases mul_neg_left_same x.abs x.abs with e | ⟨n, -⟩
    · exact e
    · rw [(mul_spec (a := -x.abs) (b := x.abs) (by simpa using hx) (by simpa using hx)).1] at n; cases n
  rcases h : F64.lt y.abs (1e-8 * x.abs) with _ | _
  · have ht := axis_tiny hy (by simpa using hx) h
    rw [F64.val_abs] at ht
    obtain ⟨e1, e2, e3⟩ := small_tiny_real hx ht hy
    refine ⟨_, fad_small h ?_ e1, ?_, ?_⟩
    · rw [lt_false_iff (by simpa using isFin_notNaN hx)]
      · have : (1e-8 * y.abs).val = 0 := by
          rw [(mul_spec (a := 1e-8) (b := y.abs) (by decide +kernel) (by simpa using isZero_fin hy)).2.1, F64.val_abs, val_eq_zero.2 hy, abs_zero, mul_zero, RN_zero]
        rw [this, F64.val_abs]; exact abs_nonneg _
      · exact (mul_spec (a := 1e-8) (b := y.abs) (by decide +kernel) (by simpa using isZero_fin hy)).1
    · have hz : (-(x * x)).val = 0 := by
        rw [val_neg, (mul_spec hx hx).2.1, RN_tiny_sq ht, neg_zero]
      have hn : (-(x * x)).isNaN = false := by rw [isNaN_neg]; exact (mul_spec hx hx).1
      have a1 := L.exp_le_one _ hn hz.le
      have a2 := L.exp_ge_one _ hn hz.ge
      exact Or.inr ⟨e2.1, (L.exp_num _ hn).1, by rw [e2.2]; linarith⟩
    · obtain ⟨d', hd', n', v'⟩ := dawson_tiny ht
      unfold Returns at hd
      rw [hd'] at hd
      injection hd with hd
      subst hd
      exact e3.trans ((NumEq.mul (NumEq.refl _) (Or.inr ⟨isFin_notNaN hx, n', v'.symm⟩)).mul (NumEq.refl _))
  · refine ⟨_, by unfold Returns at *; rw [fad_real h, hd]; rfl, ?_⟩
    have hy0 : F64.eq y.abs 0.0 = true := by
      rw [eq_iff]
      exact ⟨by simpa using isFin_notNaN (isZero_fin hy), by decide +kernel, by rw [F64.val_abs, val_eq_zero.2 hy, abs_zero, Verif.zero_val]⟩
    have h27' : F64.lt 27.0 x.abs = false := by
      rw [lt_false_iff (by decide +kernel) (by simpa using isFin_notNaN hx), F64.val_abs, show (27.0 : F64).val = 27 from val_of_int 27 (by decide +kernel)]
      exact h27
    rw [hy0, if_pos rfl, h27', hxx]
    exact ⟨NumEq.refl _, NumEq.refl _⟩

/-- C39, imaginary axis: for every `y ≠ 0` (infinities included) the result is `(erfcx(y), 0)`. -/
theorem faddeeva_imag_axis (x y w : F64) (hx : x.isZero = true) (hn : y.isNaN = false) (hy : y.val ≠ 0) (hw : Returns (erfcx y) w) :
    ∃ v, Returns (faddeeva x y) v ∧ NumEq v.1 w ∧ v.2.isZero = true := by
  have hxf := isZero_fin hx
  have h : F64.lt y.abs (1e-8 * x.abs) = false := by
    have S := mul_spec (a := 1e-8) (b := x.abs) (by decide +kernel) (by simpa using hxf)
    rw [lt_false_iff (by simpa using hn) S.1, S.2.1, F64.val_abs, F64.val_abs, val_eq_zero.2 hx, abs_zero, mul_zero, RN_zero]
    exact abs_nonneg _
  rcases h1 : F64.lt x.abs (1e-8 * y.abs) with _ | _
  · have hyf : y.isFin = true := by
      rcases fin_or_inf hn with f | i
      · exact f
      · exfalso
        have e : y.abs = inf := by rw [isInf_cases (a := y.abs) (by simpa using i)]; rfl
        rw [e, show (1e-8 * inf : F64) = inf by decide +kernel, lt_false_iff (by simpa using isFin_notNaN hxf) (by decide), inf_val, F64.val_abs,
          val_eq_zero.2 hx, abs_zero] at h1
        exact absurd (le_trans HUGE_ge h1) (by norm_num)
    have ht := axis_tiny hx (by simpa using hyf) h1
    rw [F64.val_abs] at ht
    obtain ⟨e1, e2, e3⟩ := small_tiny_imag ht hx
    refine ⟨_, fad_small h h1 e1, ?_, e3⟩
    have hws := erfcx_tiny ht hw
    exact Or.inr ⟨e2.1, hws.1, by rw [e2.2, hws.2]⟩
  · refine ⟨_, by unfold Returns at *; rw [fad_imag h h1, hw]; rfl, ?_⟩
    have hx0 : F64.eq x.abs 0.0 = true := by
      rw [eq_iff]
      exact ⟨by simpa using isFin_notNaN (isZero_fin hx), by decide +kernel, by rw [F64.val_abs, val_eq_zero.2 hx, abs_zero, Verif.zero_val]⟩
    rw [hx0, if_pos rfl]
    exact ⟨NumEq.refl _, by show (0.0 : F64).isZero = true; decide +kernel⟩

example : ∃ w, Returns (erfcx (1e-310 : F64)) w := ⟨_, erfcx_small (by decide +kernel)⟩
example : ∃ d, Returns (dawson (0.1 : F64)) d := ⟨_, dawson_small (by decide +kernel)⟩

end Verif
