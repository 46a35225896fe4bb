import Verif.Proofs.WronskianCase

/-!
# Wronskians of the fractional-order Bessel functions (C49, C50)

The program is run in exact arithmetic (`XR`, see `Verif/Exact.lean`): a result `real r` means that no undefined operation contributed to it.
-/

namespace Verif
open XR

/-! ## C49 -/

/-- src/bessel.rs:243-302: the value tested for zero on line 303 (the unnormalised `J` at the reduced order) -/
def jyBase {α : Type} [Add α] [Sub α] [Mul α] [Div α] [Neg α] [OfScientific α] [Arith α] (nu x : α) : M α := do
  let nl := jyNl nu x
  let xi := 1.0 / x
  let xi2 := 2.0 * xi
  let h0 := cf1Start nu xi
  let (h, isign) ← jyCF1 xi2 MAXIT (xi2 * nu) 0.0 h0 h0 1
  pure (jyDown xi nl (Arith.ofInt isign * FPMIN, h * (Arith.ofInt isign * FPMIN), nu * xi)).1

attribute [local irreducible] MAXIT

/-- C49: whenever `besseljy(nu, x)` returns in exact arithmetic and no undefined operation contributed to the results `J, Y, J', Y'`
(and the denominator on line 306 was not zero), they satisfy `J·Y' - J'·Y = 2/(πx)`. -/
theorem besseljy_wronskian (nu x J Y J' Y' : ℝ) (hz : jyBase (real nu) (real x) ≠ .ok (real 0))
    (h : Returns (besseljy (real nu) (real x)) (real J, real Y, real J', real Y')) :
    J * Y' - J' * Y = 2 / (Real.pi * x) := by
  unfold Returns besseljy at h
  unfold jyBase at hz
  split at h
  · cases h
  simp only [bind, Except.bind, pure, Except.pure] at h hz
  split at h
  · cases h
  rename_i v hcf
  obtain ⟨hh, isign⟩ := v
  rw [hcf] at hz
  simp only [] at h hz
  set nl := jyNl (real nu) (real x) with hnl
  set rjl1 : XR := Arith.ofInt isign * FPMIN with hrjl1
  set s := jyDown (1.0 / real x) nl (rjl1, hh * rjl1, real nu * (1.0 / real x)) with hs
  have hs0 : s.1 ≠ real 0 := fun e => hz (by rw [e])
  set rjl : XR := if (Arith.eq s.1 (0.0 : XR)) = true then EPS else s.1 with hrjl
  have hrjl' : rjl = s.1 := by
    rw [hrjl, if_neg]
    intro e
    cases hv : s.1 with
    | undef => rw [hv] at e; exact Bool.noConfusion e
    | real r =>
      rw [hv] at e hs0
      have : decide (r = (0.0 : ℝ)) = true := e
      rw [decide_eq_true_eq] at this
      exact hs0 (by rw [this]; norm_num)
  have core : ∀ rjmu rymu ry1 : XR, (∀ ra rb rc rf : ℝ, rjmu = real ra → rymu = real rb → ry1 = real rc → s.2.1 / rjl = real rf → x ≠ 0 →
      ra * (((nu - nl) * (1 / x) * rb - rc) - rf * rb) = 2 * (1 / x) / Real.pi) →
      (rjl1 * (rjmu / rjl), (jyUp (real nu - Arith.ofNat nl) (2.0 * (1.0 / real x)) rymu ry1 nl).1, hh * rjl1 * (rjmu / rjl),
        real nu * (1.0 / real x) * (jyUp (real nu - Arith.ofNat nl) (2.0 * (1.0 / real x)) rymu ry1 nl).1 -
          (jyUp (real nu - Arith.ofNat nl) (2.0 * (1.0 / real x)) rymu ry1 nl).2) = (real J, real Y, real J', real Y') →
      J * Y' - J' * Y = 2 / (Real.pi * x) := by
    intro rjmu rymu ry1 hn he
    injection he with hJ he
    injection he with hY he
    injection he with hJ' hY'
    obtain ⟨j, fact, ej, efact, hJr⟩ := mul_inv hJ
    obtain ⟨j', _, ej', e, hJr'⟩ := mul_inv hJ'
    rw [efact] at e; cases e
    obtain ⟨a, jl, ea, ejl, hjl, hfact⟩ := div_inv efact
    obtain ⟨t1, y1, et1, ey1, hYr'⟩ := sub_inv hY'
    obtain ⟨t2, y0, et2, ey0, ht1⟩ := mul_inv et1
    rw [hY] at ey0; cases ey0
    obtain ⟨_, t3, e, et3, ht2⟩ := mul_inv et2
    cases e
    obtain ⟨_, _, e1, e2, hx, ht3⟩ := div_inv et3
    cases e1; cases e2
    have exi : (1.0 / real x : XR) = real (1 / x) := by rw [et3, ht3]; norm_num
    have exi2 : (2.0 * (1.0 / real x) : XR) = real (2 * (1 / x)) := by
      rw [exi]; show real ((2.0:ℝ) * (1 / x)) = _; norm_num
    obtain ⟨b, c, eb, ec⟩ := jyUp_inv _ _ _ _ nl _ _ (Prod.ext hY ey1)
    have emu : (real nu - Arith.ofNat nl : XR) = real (nu - nl) := rfl
    rw [emu, exi2, eb, ec, jyUp_real] at hY ey1
    obtain ⟨g, hd⟩ := jyDown_real (1 / x) nl j j' (nu * (1 / x))
    rw [exi, ej, ← ej, ej', ej, mul_real] at hs
    have hs' := hs.trans hd
    have e1 : s.1 = real (downR (-1) (1 / x) nl j j' (nu * (1 / x))).1 := by rw [hs']
    have e2 : s.2.1 = real (downR (-1) (1 / x) nl j j' (nu * (1 / x))).2 := by rw [hs']
    rw [hrjl', e1] at ejl
    injection ejl with ejl
    have hw := hn a b c ((downR (-1) (1 / x) nl j j' (nu * (1 / x))).2 / jl) ea eb ec (by
      rw [e2, hrjl', e1, ejl, div_real _ hjl]) hx
    have inv := wronskian_inv (-1) (nu - nl) (1 / x) b c nl j j'
    rw [sub_add_cancel, ejl] at inv
    injection hY with hY
    injection ey1 with ey1
    rw [hY, ey1] at inv
    have hYY : Y' = nu * (1 / x) * Y - y1 := by
      rw [hYr', ht1, ht2, ht3]; norm_num
    have k : J * Y' - J' * Y = fact * (j * (nu * (1 / x) * Y - y1) - j' * Y) := by
      rw [hJr, hJr', hYY]; ring
    rw [k, inv, hfact]
    have hpi := Real.pi_pos.ne'
    have e3 : a / jl * (jl * ((nu - nl) * (1 / x) * b - c) - (downR (-1) (1 / x) nl j j' (nu * (1 / x))).2 * b) =
        a * (((nu - nl) * (1 / x) * b - c) - (downR (-1) (1 / x) nl j j' (nu * (1 / x))).2 / jl * b) := by
      field_simp
    rw [e3, hw]
    field_simp
  have xi' : x ≠ 0 → (1.0 / real x : XR) = real (1 / x) := fun hx => by
    show (real (1.0 : ℝ) / real x : XR) = _
    rw [div_real _ hx]; norm_num
  have w' : x ≠ 0 → (2.0 * (1.0 / real x) / Arith.pi : XR) = real (2 * (1 / x) / Real.pi) := fun hx => by
    rw [xi' hx]
    show (real ((2.0 : ℝ) * (1 / x)) / real Real.pi : XR) = _
    rw [div_real _ Real.pi_pos.ne']; norm_num
  split at h
  · split at h
    · cases h
    · rename_i v hv
      refine core v.1 v.2.1 v.2.2 ?_ (Except.ok.inj h)
      intro ra rb rc rf h1 h2 h3 h4 hx
      exact jySmall_norm hv h1 h2 h3 rfl (xi' hx) h4 (w' hx)
  · split at h
    · cases h
    · rename_i v hv
      refine core v.1 v.2.1 v.2.2 ?_ (Except.ok.inj h)
      intro ra rb rc rf h1 h2 h3 h4 hx
      exact jyLarge_norm hv h1 h2 h3 rfl (xi' hx) h4 (w' hx)

/-- the hypotheses of `besseljy_wronskian` are met at `nu = 1/2`, `x = 2` -/
theorem besseljy_half : ∃ J Y J' Y', jyBase (real (1/2)) (real 2) ≠ .ok (real 0) ∧
    Returns (besseljy (real (1/2)) (real 2)) (real J, real Y, real J', real Y') := by
  have e := jyPQ_half
  unfold Returns besseljy jyBase
  have hcf := jyCF1_half
  have h0 := cf1Start_half
  have hnl : jyNl (real (1/2) : XR) (real 2) = 0 := by
    unfold jyNl
    rw [if_neg (by xr; norm_num)]
    xr; norm_num
  have hp := XR.fpmin_pos
  have hF := XR.FPMIN_XR
  have hh : ((-11024871202619 / 15579387423604 : ℚ) : ℝ) < -1/2 := by norm_num
  rw [hnl]
  generalize (FPMIN : XR) = P at *
  generalize ((-11024871202619 / 15579387423604 : ℚ) : ℝ) = hv at *
  generalize (1 / 2 ^ 970 : ℝ) = t at *
  subst hF
  have b1 : (real 2 ≤ᶠ real 0 || real (1/2) <ᶠ real 0) = false := by
    rw [XR.leF (by norm_num), XR.ltF (by norm_num)]; rfl
  have b2 : (real 2 <ᶠ real 2) = false := XR.ltF le_rfl
  have x1 : (1.0 / real 2 : XR) = real (1/2) := by rw [XR.one_lit, div_real _ (by norm_num)]
  have x2 : (real 2 * real (1/2) : XR) = real 1 := by rw [mul_real]; norm_num
  have x3 : (real 1 * real (1/2) : XR) = real (1/2) := by rw [mul_real]; norm_num
  have x4 : (real (1/2) - Arith.ofNat 0 : XR) = real (1/2) := by rw [ofNat_real, sub_real]; norm_num
  have x6 : (real (1/2) * real (1/2) : XR) = real (1/4) := by rw [mul_real]; norm_num
  have x7 : (Arith.ofInt 1 * real t : XR) = real t := by rw [ofInt_real, mul_real]; norm_num
  have x8 : (real 1 / Arith.pi : XR) = real (1 / Real.pi) := div_real _ Real.pi_ne_zero
  have b3 : (real t ==ᶠ real 0) = false := XR.eqF hp.ne'
  have b4 : (real t <ᶠ real 0) = false := XR.ltF hp.le
  have x9 : (real hv * real t / real t : XR) = real hv := by
    rw [mul_real, div_real _ hp.ne']; congr 1; field_simp
  simp only [x1, x2, x3, x4, x6, x7, x8, h0, XR.lit0, XR.lit2, b1, b2, hcf, bind, Except.bind, pure, Except.pure, Bool.false_eq_true, if_false,
    jyDown, jyUp, jyLarge, e, x9, b3, b4]
  have g : (0:ℝ) < -1/4 - hv := by linarith
  have g1 : (-1/4 - hv) / 1 ≠ 0 := by rw [div_one]; exact g.ne'
  have g2 : 0 < (-1/4 - hv) * ((-1/4 - hv) / 1) + 1 := by positivity
  have g3 : 0 ≤ 1 / Real.pi / ((-1/4 - hv) * ((-1/4 - hv) / 1) + 1) := by positivity
  simp only [sub_real, mul_real, add_real, div_real _ one_ne_zero, div_real _ g1, div_real _ g2.ne', sqrt_real g3, div_real _ hp.ne']
  refine ⟨_, _, _, _, ?_, rfl⟩
  intro h
  injection h with h
  injection h with h
  exact hp.ne' h


example : ∃ J Y J' Y' : ℝ, Returns (besseljy (real (1/2)) (real 2)) (real J, real Y, real J', real Y') ∧ J * Y' - J' * Y = 2 / (Real.pi * 2) :=
  let ⟨J, Y, J', Y', h1, h2⟩ := besseljy_half
  ⟨J, Y, J', Y', h2, besseljy_wronskian _ _ _ _ _ _ h1 h2⟩

/-! ## C50 -/

/-- C50: whenever `besselik(nu, x)` returns in exact arithmetic and no undefined operation contributed to the results `I, K, I', K'`,
they satisfy `I·K' - I'·K = -1/x`. -/
theorem besselik_wronskian (nu x I K I' K' : ℝ)
    (h : Returns (besselik (real nu) (real x)) (real I, real K, real I', real K')) :
    I * K' - I' * K = -(1 / x) := by
  unfold Returns besselik at h
  split at h
  · cases h
  simp only [bind, Except.bind, pure, Except.pure] at h
  split at h
  · cases h
  rename_i hh hcf
  set nl := Arith.toU USIZE_MAX (real nu + 0.5 : XR) with hnl
  set ril1 : XR := FPMIN with hril1
  set s := ikDown (1.0 / real x) nl (ril1, hh * ril1, real nu * (1.0 / real x)) with hs
  have core : ∀ rkmu rk1 : XR,
      (1.0 / real x / (s.2.1 / s.1 * rkmu - ((real nu - Arith.ofNat nl) * (1.0 / real x) * rkmu - rk1)) * ril1 / s.1,
        (ikUp (real nu - Arith.ofNat nl) (2.0 * (1.0 / real x)) rkmu rk1 nl).1,
        1.0 / real x / (s.2.1 / s.1 * rkmu - ((real nu - Arith.ofNat nl) * (1.0 / real x) * rkmu - rk1)) * (hh * ril1) / s.1,
        real nu * (1.0 / real x) * (ikUp (real nu - Arith.ofNat nl) (2.0 * (1.0 / real x)) rkmu rk1 nl).1 -
          (ikUp (real nu - Arith.ofNat nl) (2.0 * (1.0 / real x)) rkmu rk1 nl).2) = (real I, real K, real I', real K') →
      I * K' - I' * K = -(1 / x) := by
    intro rkmu rk1 he
    injection he with hI he
    injection he with hK he
    injection he with hI' hK'
    obtain ⟨t1, y1, et1, ey1, hKr'⟩ := sub_inv hK'
    obtain ⟨t2, y0, et2, ey0, ht1⟩ := mul_inv et1
    rw [hK] at ey0; cases ey0
    obtain ⟨_, t3, e, et3, ht2⟩ := mul_inv et2
    cases e
    obtain ⟨_, _, e1, e2, hx, ht3⟩ := div_inv et3
    cases e1; cases e2
    have exi : (1.0 / real x : XR) = real (1 / x) := by rw [et3, ht3]; norm_num
    have exi2 : (2.0 * (1.0 / real x) : XR) = real (2 * (1 / x)) := by
      rw [exi]; show real ((2.0:ℝ) * (1 / x)) = _; norm_num
    obtain ⟨b, c, eb, ec⟩ := ikUp_inv _ _ _ _ nl _ _ (Prod.ext hK ey1)
    have emu : (real nu - Arith.ofNat nl : XR) = real (nu - nl) := rfl
    rw [emu, exi2, eb, ec, ikUp_real] at hK ey1
    rw [emu, exi, eb, ec] at hI hI'
    obtain ⟨p1, j0, ep1, ej0, hj0, hIr⟩ := div_inv hI
    obtain ⟨rimu, j, erimu, ej, hp1⟩ := mul_inv ep1
    obtain ⟨p2, _, ep2, e, -, hIr'⟩ := div_inv hI'
    rw [ej0] at e; cases e
    obtain ⟨_, j', e, ej', hp2⟩ := mul_inv ep2
    rw [erimu] at e; cases e
    obtain ⟨g, hd⟩ := ikDown_real (1 / x) nl j j' (nu * (1 / x))
    rw [exi, ej', ej, mul_real] at hs
    have hs' := hs.trans hd
    have e1 : s.1 = real (downR 1 (1 / x) nl j j' (nu * (1 / x))).1 := by rw [hs']
    have e2 : s.2.1 = real (downR 1 (1 / x) nl j j' (nu * (1 / x))).2 := by rw [hs']
    rw [e1] at ej0
    injection ej0 with ej0
    rw [e1, e2, ej0, div_real _ hj0, mul_real, mul_real, mul_real, sub_real, sub_real] at erimu
    obtain ⟨_, _, q1, q2, hden, hrimu⟩ := div_inv erimu
    cases q1; cases q2
    have inv := wronskian_inv 1 (nu - nl) (1 / x) b c nl j j'
    rw [sub_add_cancel, ej0] at inv
    injection hK with hK
    injection ey1 with ey1
    rw [hK, ey1] at inv
    have hKK : K' = nu * (1 / x) * K - y1 := by
      rw [hKr', ht1, ht2, ht3]; norm_num
    have k : I * K' - I' * K = rimu / j0 * (j * (nu * (1 / x) * K - y1) - j' * K) := by
      rw [hIr, hIr', hp1, hp2, hKK]; ring
    have hr : rimu * ((downR 1 (1 / x) nl j j' (nu * (1 / x))).2 / j0 * b - ((nu - nl) * (1 / x) * b - c)) = 1 / x := by
      rw [hrimu]; exact div_mul_cancel₀ _ hden
    have k2 : rimu / j0 * (j0 * ((nu - nl) * (1 / x) * b - c) - (downR 1 (1 / x) nl j j' (nu * (1 / x))).2 * b) =
        -(rimu * ((downR 1 (1 / x) nl j j' (nu * (1 / x))).2 / j0 * b - ((nu - nl) * (1 / x) * b - c))) := by
      generalize (downR 1 (1 / x) nl j j' (nu * (1 / x))).2 = D
      field_simp
      ring
    rw [k, inv, k2, hr]
  split at h
  · split at h
    · cases h
    · exact core _ _ (Except.ok.inj h)
  · split at h
    · cases h
    · exact core _ _ (Except.ok.inj h)

/-- the hypothesis of `besselik_wronskian` is met at `nu = 1/2`, `x = 2` -/
theorem besselik_half : ∃ I K I' K', Returns (besselik (real (1/2)) (real 2)) (real I, real K, real I', real K') := by
  obtain ⟨k, hk, e⟩ := ikLarge_half
  unfold Returns besselik
  have hcf := ikCF1_half
  have h0 := cf1Start_half
  have hnl : Arith.toU USIZE_MAX (real (1/2) + 0.5 : XR) = 1 := by
    xr; norm_num
  have hp := XR.fpmin_pos
  have hF := XR.FPMIN_XR
  have hh : (0 : ℝ) < ((41690207275261 / 52952404137364 : ℚ) : ℝ) := by norm_num
  rw [hnl]
  generalize (FPMIN : XR) = P at *
  generalize ((41690207275261 / 52952404137364 : ℚ) : ℝ) = hv at *
  generalize (1 / 2 ^ 970 : ℝ) = t at *
  subst hF
  have b1 : (real 2 ≤ᶠ real 0 || real (1/2) <ᶠ real 0) = false := by
    rw [XR.leF (by norm_num), XR.ltF (by norm_num)]; rfl
  have b2 : (real 2 <ᶠ real 2) = false := XR.ltF le_rfl
  have x1 : (1.0 / real 2 : XR) = real (1/2) := by rw [XR.one_lit, div_real _ (by norm_num)]
  have x2 : (real 2 * real (1/2) : XR) = real 1 := by rw [mul_real]; norm_num
  have x3 : (real 1 * real (1/2) : XR) = real (1/2) := by rw [mul_real]; norm_num
  have x4 : (real (1/2) - Arith.ofNat 1 : XR) = real (-1/2) := by rw [ofNat_real, sub_real]; norm_num
  have x5 : (real (-1/2) * real (-1/2) : XR) = real (1/4) := by rw [mul_real]; norm_num
  have x6 : (real (1/2) * real (1/2) : XR) = real (1/4) := by rw [mul_real]; norm_num
  have x7 : (real (-1/2) * real (1/2) : XR) = real (-1/4) := by rw [mul_real]; norm_num
  simp only [x1, x2, x3, x4, x5, x6, x7, h0, XR.lit0, XR.lit2, b1, b2, hcf, bind, Except.bind, pure, Except.pure, e, Bool.false_eq_true, if_false]
  have d1 : (real (1/4) * real t + real hv * real t : XR) = real (1/4 * t + hv * t) := by simp only [mul_real, add_real]
  have n1 : (1/4 * t + hv * t) ≠ 0 := by positivity
  simp only [ikDown, ikUp, add_real, sub_real, mul_real, ofNat_real, div_real _ n1]
  rw [div_real, mul_real, div_real _ n1, mul_real, div_real _ n1]
  · exact ⟨_, _, _, _, rfl⟩
  · have : (0 : ℝ) < 1/4 * t + hv * t := by positivity
    apply ne_of_gt
    have q : 0 ≤ t / (1/4 * t + hv * t) * k := by positivity
    have : ((1 / 4 - 1 / 2) * (1 / 4 * t + hv * t) + t) / (1 / 4 * t + hv * t) * k - (-1 / 4 * k - k) =
      k + t / (1/4 * t + hv * t) * k := by field_simp; ring
    rw [this]; positivity


example : ∃ I K I' K' : ℝ, Returns (besselik (real (1/2)) (real 2)) (real I, real K, real I', real K') ∧ I * K' - I' * K = -(1 / 2) :=
  let ⟨I, K, I', K', h⟩ := besselik_half
  ⟨I, K, I', K', h, besselik_wronskian _ _ _ _ _ _ h⟩

end Verif
