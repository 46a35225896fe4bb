import Verif.Proofs.NumEq
import Verif.Proofs.FadTile
import Verif.LibmSpec
import Verif.Spec

/-! # Branches of faddeeva (src/faddeeva.rs) and conjugation -/

namespace Verif
open F64
variable [Libm F64] [Cfg]

/-- |z|² as computed -/
def zzOf (x y : F64) : F64 := x.abs * x.abs + y * y

theorem fad_real {x y : F64} (h : F64.lt y.abs (1e-8 * x.abs) = true) : faddeeva x y =
    (dawson x).bind fun d => .ok (if F64.eq y.abs 0.0 then (if F64.lt 27.0 x.abs then 0.0 else Libm.exp (-x.abs * x.abs), 2.0 * d * INV_SQRT_PI)
      else ((if F64.lt 27.0 x.abs then 0.0 else Libm.exp (-x.abs * x.abs)) + y * 2.0 * (x * (2.0 * d * INV_SQRT_PI) - INV_SQRT_PI),
        2.0 * d * INV_SQRT_PI - 2.0 * x * y * (if F64.lt 27.0 x.abs then 0.0 else Libm.exp (-x.abs * x.abs)))) := by
  unfold faddeeva imWOfX
  simp only [ar_abs, ar_lt, ar_eq]
  rw [if_pos h]
  cases hd : dawson x with
  | error e => rfl
  | ok d =>
    dsimp only [Except.bind, bind, Functor.map, Except.map]
    split <;> split <;> rfl

theorem fad_imag {x y : F64} (h : F64.lt y.abs (1e-8 * x.abs) = false) (h1 : F64.lt x.abs (1e-8 * y.abs) = true) : faddeeva x y =
    (erfcx y).bind fun w => .ok (if F64.eq x.abs 0.0 then (w, 0.0) else (w, x * (2.0 * (INV_SQRT_PI - y * w)))) := by
  unfold faddeeva
  simp only [ar_abs, ar_lt, ar_eq]
  rw [if_neg (by rw [h]; decide), if_pos h1]
  cases hd : erfcx y with
  | error e => rfl
  | ok d =>
    dsimp only [Except.bind, bind]
    split <;> rfl

theorem fad_small {x y : F64} (h : F64.lt y.abs (1e-8 * x.abs) = false) (h1 : F64.lt x.abs (1e-8 * y.abs) = false)
    (h2 : F64.lt (zzOf x y) 0.053 = true) : faddeeva x y = .ok ((faddeevaSmall ⟨x, y⟩ (zzOf x y)).re, (faddeevaSmall ⟨x, y⟩ (zzOf x y)).im) := by
  unfold faddeeva
  simp only [ar_abs, ar_lt, ar_eq]
  rw [if_neg (by rw [h]; decide), if_neg (by rw [h1]; decide)]
  exact if_pos h2

theorem fad_large {x y : F64} (h : F64.lt y.abs (1e-8 * x.abs) = false) (h1 : F64.lt x.abs (1e-8 * y.abs) = false)
    (h2 : F64.lt (zzOf x y) 0.053 = false) (h3 : F64.le 49.0 (zzOf x y) = true) :
    faddeeva x y = .ok ((faddeevaLarge x y x.abs y.abs (zzOf x y)).re, (faddeevaLarge x y x.abs y.abs (zzOf x y)).im) := by
  unfold faddeeva
  simp only [ar_abs, ar_lt, ar_eq, ar_le]
  rw [if_neg (by rw [h]; decide), if_neg (by rw [h1]; decide)]
  show (if F64.lt (zzOf x y) 0.053 = true then _ else _) = _
  rw [if_neg (by rw [h2]; decide)]
  exact if_pos h3

theorem fad_nan_x {x y : F64} (h : F64.lt y.abs (1e-8 * x.abs) = false) (h1 : F64.lt x.abs (1e-8 * y.abs) = false)
    (h2 : F64.lt (zzOf x y) 0.053 = false) (h3 : F64.le 49.0 (zzOf x y) = false) (hx : x.isNaN = true) :
    faddeeva x y = .ok (x.abs, x.abs) := by
  unfold faddeeva
  simp only [ar_abs, ar_lt, ar_eq, ar_le, ar_isNaN]
  rw [if_neg (by rw [h]; decide), if_neg (by rw [h1]; decide)]
  show (if F64.lt (zzOf x y) 0.053 = true then _ else if F64.le 49.0 (zzOf x y) = true then _ else _) = _
  rw [if_neg (by rw [h2]; decide), if_neg (by rw [h3]; decide)]
  exact if_pos (by simpa using hx)

theorem fad_nan_y {x y : F64} (h : F64.lt y.abs (1e-8 * x.abs) = false) (h1 : F64.lt x.abs (1e-8 * y.abs) = false)
    (h2 : F64.lt (zzOf x y) 0.053 = false) (h3 : F64.le 49.0 (zzOf x y) = false) (hx : x.isNaN = false) (hy : y.isNaN = true) :
    faddeeva x y = .ok (y, y) := by
  unfold faddeeva
  simp only [ar_abs, ar_lt, ar_eq, ar_le, ar_isNaN]
  rw [if_neg (by rw [h]; decide), if_neg (by rw [h1]; decide)]
  show (if F64.lt (zzOf x y) 0.053 = true then _ else if F64.le 49.0 (zzOf x y) = true then _ else _) = _
  rw [if_neg (by rw [h2]; decide), if_neg (by rw [h3]; decide), if_neg (by simp [hx])]
  exact if_pos hy

theorem fad_taylor {x y : F64} (h : F64.lt y.abs (1e-8 * x.abs) = false) (h1 : F64.lt x.abs (1e-8 * y.abs) = false)
    (h2 : F64.lt (zzOf x y) 0.053 = false) (h3 : F64.le 49.0 (zzOf x y) = false) (hx : x.isNaN = false) (hy : y.isNaN = false) :
    faddeeva x y = (faddeevaTaylor x.abs y.abs).bind fun res => .ok (faddeevaReflect x y res) := by
  unfold faddeeva
  simp only [ar_abs, ar_lt, ar_eq, ar_le, ar_isNaN]
  rw [if_neg (by rw [h]; decide), if_neg (by rw [h1]; decide)]
  show (if F64.lt (zzOf x y) 0.053 = true then _ else if F64.le 49.0 (zzOf x y) = true then _ else _) = _
  rw [if_neg (by rw [h2]; decide), if_neg (by rw [h3]; decide), if_neg (by simp [hx]), if_neg (by simp [hy])]
  rfl

omit [Libm F64] [Cfg] in
theorem zzOf_neg (x y : F64) : zzOf (-x) y = zzOf x y := rfl

/-! ## complex numbers up to conjugation -/

/-- `a` is the conjugate of `b` (`s = true`) or its negative (`s = false`) -/
def CRel : Bool → Cx F64 → Cx F64 → Prop
  | true, a, b => NumEq a.re b.re ∧ NumEq a.im (-b.im)
  | false, a, b => NumEq a.re (-b.re) ∧ NumEq a.im b.im

omit [Libm F64] [Cfg] in
theorem F64.NumEq.mulNN {a a' b b' : F64} (h : NumEq a' (-a)) (g : NumEq b' (-b)) : NumEq (a' * b') (a * b) := by
  have := NumEq.mul h g; rwa [mul_neg_neg] at this
omit [Libm F64] [Cfg] in
theorem F64.NumEq.mulN {a a' b b' : F64} (h : NumEq a' a) (g : NumEq b' (-b)) : NumEq (a' * b') (-(a * b)) :=
  (NumEq.mul h g).trans (numEq_mul_neg _ _)
omit [Libm F64] [Cfg] in
theorem F64.NumEq.mulNl {a a' b b' : F64} (h : NumEq a' (-a)) (g : NumEq b' b) : NumEq (a' * b') (-(a * b)) :=
  (NumEq.mul h g).trans (numEq_neg_mul _ _)
omit [Libm F64] [Cfg] in
theorem F64.NumEq.addN {a a' b b' : F64} (h : NumEq a' (-a)) (g : NumEq b' (-b)) : NumEq (a' + b') (-(a + b)) :=
  (NumEq.add h g).trans (numEq_neg_add _ _)
omit [Libm F64] [Cfg] in
theorem F64.NumEq.subN {a a' b b' : F64} (h : NumEq a' (-a)) (g : NumEq b' (-b)) : NumEq (a' - b') (-(a - b)) :=
  (NumEq.sub h g).trans (numEq_neg_sub _ _)

omit [Libm F64] [Cfg] in
theorem CRel.mul {s t : Bool} {a a' b b' : Cx F64} (h : CRel s a' a) (g : CRel t b' b) : CRel (s == t) (a'.mul b') (a.mul b) := by
  unfold Cx.mul
  cases s <;> cases t <;> obtain ⟨h1, h2⟩ := h <;> obtain ⟨g1, g2⟩ := g
  · exact ⟨NumEq.sub (h1.mulNN g1) (h2.mul g2), (h1.mulNl g2).addN (h2.mulN g1)⟩
  · exact ⟨(h1.mulNl g1).subN (h2.mulN g2), (h1.mulNN g2).add (h2.mul g1)⟩
  · exact ⟨(h1.mulN g1).subN (h2.mulNl g2), (h1.mul g2).add (h2.mulNN g1)⟩
  · exact ⟨(h1.mul g1).sub (h2.mulNN g2), (h1.mulN g2).addN (h2.mulNl g1)⟩

omit [Libm F64] [Cfg] in
theorem CRel.add {s : Bool} {a a' b b' : Cx F64} (h : CRel s a' a) (g : CRel s b' b) : CRel s (a'.add b') (a.add b) := by
  unfold Cx.add
  cases s <;> obtain ⟨h1, h2⟩ := h <;> obtain ⟨g1, g2⟩ := g
  · exact ⟨h1.addN g1, h2.add g2⟩
  · exact ⟨h1.add g1, h2.addN g2⟩

omit [Libm F64] [Cfg] in
theorem CRel.sub {a a' b b' : Cx F64} (h : CRel true a' a) (g : CRel true b' b) : CRel true (a'.sub b') (a.sub b) := by
  obtain ⟨h1, h2⟩ := h; obtain ⟨g1, g2⟩ := g
  exact ⟨h1.sub g1, h2.subN g2⟩

omit [Libm F64] [Cfg] in
theorem CRel.addR {a a' : Cx F64} (h : CRel true a' a) (r : F64) : CRel true (a'.addR r) (a.addR r) :=
  ⟨h.1.add (NumEq.refl r), h.2⟩

omit [Libm F64] [Cfg] in
theorem CRel.rmul {a a' : Cx F64} (h : CRel true a' a) (r : F64) : CRel true (Cx.rmul r a') (Cx.rmul r a) :=
  ⟨(NumEq.refl r).mul h.1, (NumEq.refl r).mulN h.2⟩

/-- purely real / purely imaginary -/
def cIs : Bool → Cx F64 → Bool
  | true, c => c.im.isZero
  | false, c => c.re.isZero

omit [Libm F64] [Cfg] in
theorem numEq_zero_neg {a : F64} (h : a.isZero = true) : NumEq a (-a) := by
  have f := isZero_fin h
  exact Or.inr ⟨isFin_notNaN f, by simpa using isFin_notNaN f, by rw [val_neg, val_eq_zero.2 h, neg_zero]⟩

omit [Libm F64] [Cfg] in
theorem CRel.coef {s : Bool} {c : Cx F64} (h : cIs s c = true) : CRel s c c := by
  cases s
  · exact ⟨numEq_zero_neg h, NumEq.refl _⟩
  · exact ⟨NumEq.refl _, numEq_zero_neg h⟩

/-- the coefficients are alternately real and imaginary, ending on an imaginary one -/
def altOk : Bool → List (Cx F64) → Bool
  | s, [] => !s
  | s, c :: cs => cIs (!s) c && altOk (!s) cs

omit [Libm F64] [Cfg] in
theorem cxHorner_conj {z z' : Cx F64} (hz : CRel false z' z) : ∀ (cs : List (Cx F64)) (s : Bool) (r r' : Cx F64),
    altOk s cs = true → CRel s r' r → CRel true (cxHorner z' r' cs) (cxHorner z r cs)
  | [], s, r, r', h, hr => by
    have e : s = false := by cases s; rfl; exact absurd h (by decide)
    subst e
    exact (CRel.mul hr hz).addR 1.0
  | c :: cs, s, r, r', h, hr => by
    rw [altOk, Bool.and_eq_true] at h
    have e : (s == false) = !s := by cases s <;> rfl
    have hm := CRel.mul hr hz
    rw [e] at hm
    exact cxHorner_conj hz cs (!s) _ _ h.2 (hm.add (CRel.coef h.1))

omit [Libm F64] [Cfg] in
theorem macl4_alt : cIs true (⟨5e-1, 0.0⟩ : Cx F64) = true ∧ altOk true (macl4 : List (Cx F64)) = true := by decide +kernel
omit [Libm F64] [Cfg] in
theorem macl13_alt : cIs false (⟨0.0, 5.344009079373427e-4⟩ : Cx F64) = true ∧ altOk false (macl13 : List (Cx F64)) = true := by decide +kernel
omit [Libm F64] [Cfg] in
theorem macl19_alt : cIs false (⟨0.0, -8.823957200203801e-7⟩ : Cx F64) = true ∧ altOk false (macl19 : List (Cx F64)) = true := by decide +kernel

omit [Libm F64] [Cfg] in
theorem faddeevaSmall_conj (x y zz : F64) : CRel true (faddeevaSmall ⟨-x, y⟩ zz) (faddeevaSmall ⟨x, y⟩ zz) := by
  have hz : CRel false (⟨-x, y⟩ : Cx F64) ⟨x, y⟩ := ⟨NumEq.refl _, NumEq.refl _⟩
  unfold faddeevaSmall
  split
  · split
    · exact cxHorner_conj hz _ _ _ _ macl4_alt.2 (CRel.coef macl4_alt.1)
    · exact cxHorner_conj hz _ _ _ _ macl13_alt.2 (CRel.coef macl13_alt.1)
  · exact cxHorner_conj hz _ _ _ _ macl19_alt.2 (CRel.coef macl19_alt.1)

omit [Libm F64] [Cfg] in
theorem isFinite_neg (a : F64) : Cx.isFinite (-a) = Cx.isFinite a := by
  unfold Cx.isFinite; simp [ar_isInf, ar_isNaN]

omit [Libm F64] [Cfg] in
theorem eq_zero_neg (a : F64) : F64.eq (-a) 0.0 = F64.eq a 0.0 := by
  rcases ha : a.isNaN with _ | _
  · rw [Bool.eq_iff_iff, eq_iff, eq_iff, val_neg, Verif.zero_val, neg_eq_zero, isNaN_neg]
  · rw [eq_nan_left (by simpa using ha), eq_nan_left ha]

omit [Libm F64] [Cfg] in
theorem zero_conj : CRel true (⟨0.0, 0.0⟩ : Cx F64) ⟨0.0, 0.0⟩ := ⟨NumEq.refl _, numEq_zero_neg (by decide +kernel)⟩

omit [Cfg] in
/-- complex `exp` of conjugate arguments -/
theorem cexp_conj (L : LibmSpec) {a b b' : F64} (h : Same b' (-b)) : CRel true (Cx.exp ⟨a, b'⟩) (Cx.exp ⟨a, b⟩) := by
  have main : ∀ c : F64, CRel true (Cx.exp ⟨a, -c⟩) (Cx.exp ⟨a, c⟩) := by
    intro c
    have polar : CRel true (⟨Libm.exp a * Libm.cos (-c), Libm.exp a * Libm.sin (-c)⟩ : Cx F64) ⟨Libm.exp a * Libm.cos c, Libm.exp a * Libm.sin c⟩ := by
      rcases hf : c.isFin with _ | _
      · have hf' : (-c).isFin = false := by simpa using hf
        refine ⟨?_, ?_⟩
        · exact Or.inl ⟨by rw [mul_nan_right (L.cos_nan _ hf')]; rfl, by rw [mul_nan_right (L.cos_nan _ hf)]; rfl⟩
        · exact Or.inl ⟨by rw [mul_nan_right (L.sin_nan _ hf')]; rfl, by rw [mul_nan_right (L.sin_nan _ hf)]; rfl⟩
      · rw [L.cos_neg _ hf, L.sin_neg _ hf]
        exact ⟨NumEq.refl _, numEq_mul_neg _ _⟩
    unfold Cx.exp
    simp only [ar_isInf, ar_isNaN, ar_lt, ar_eq, ar_nan]
    rw [isFinite_neg, eq_zero_neg]
    have hi : (-c).isInf = c.isInf := by simp
    rw [hi]
    cases a.isInf <;> cases F64.lt a 0.0 <;> cases Cx.isFinite c <;> cases F64.eq c 0.0 <;> cases a.isNaN <;> cases c.isInf <;>
      first
      | exact polar
      | exact zero_conj
      | exact ⟨NumEq.refl _, Or.inl ⟨rfl, rfl⟩⟩
      | exact ⟨NumEq.refl _, NumEq.refl _⟩
  rcases h with rfl | ⟨h1, h2⟩
  · exact main b
  · have hb : b.isNaN = true := by simpa using h2
    have fb : b.isFin = false := by
      cases hf : b.isFin
      · rfl
      · rw [isFin_notNaN hf] at hb; cases hb
    have fb' : b'.isFin = false := by
      cases hf : b'.isFin
      · rfl
      · rw [isFin_notNaN hf] at h1; cases h1
    have polar : CRel true (⟨Libm.exp a * Libm.cos b', Libm.exp a * Libm.sin b'⟩ : Cx F64) ⟨Libm.exp a * Libm.cos b, Libm.exp a * Libm.sin b⟩ := by
      refine ⟨?_, ?_⟩
      · exact Or.inl ⟨by rw [mul_nan_right (L.cos_nan _ fb')]; rfl, by rw [mul_nan_right (L.cos_nan _ fb)]; rfl⟩
      · exact Or.inl ⟨by rw [mul_nan_right (L.sin_nan _ fb')]; rfl, by rw [mul_nan_right (L.sin_nan _ fb)]; rfl⟩
    have nanim : NumEq b' (-b) := Or.inl ⟨h1, h2⟩
    have e1 : Cx.isFinite b' = false := by unfold Cx.isFinite; simp [ar_isInf, ar_isNaN, h1]
    have e2 : Cx.isFinite b = false := by unfold Cx.isFinite; simp [ar_isInf, ar_isNaN, hb]
    have e3 : F64.eq b' 0.0 = false := eq_nan_left h1
    have e4 : F64.eq b 0.0 = false := eq_nan_left hb
    have e5 : b'.isInf = false := by
      cases hi : b'.isInf
      · rfl
      · rw [isInf_notNaN hi] at h1; cases h1
    have e6 : b.isInf = false := by
      cases hi : b.isInf
      · rfl
      · rw [isInf_notNaN hi] at hb; cases hb
    unfold Cx.exp
    simp only [ar_isInf, ar_isNaN, ar_lt, ar_eq, ar_nan, e1, e2, e3, e4, e5, e6]
    cases a.isInf <;> cases F64.lt a 0.0 <;> cases a.isNaN <;>
      first
      | exact polar
      | exact zero_conj
      | exact ⟨NumEq.refl _, nanim⟩


omit [Libm F64] [Cfg] in
theorem xs_neg (x y : F64) : (if F64.lt y 0.0 = true then -(-x) else -x) = -(if F64.lt y 0.0 = true then -x else x) := by
  split <;> simp

/-- the final reflection of the large branch -/
theorem large_fin_conj (L : LibmSpec) (xs y : F64) {r r' : Cx F64} (h : CRel true r' r) :
    CRel true (if F64.lt y 0.0 = true then (Cx.rmul 2.0 (Cx.exp ⟨(y.abs - -xs) * (-xs + y.abs), 2.0 * -xs * y⟩)).sub r' else r')
      (if F64.lt y 0.0 = true then (Cx.rmul 2.0 (Cx.exp ⟨(y.abs - xs) * (xs + y.abs), 2.0 * xs * y⟩)).sub r else r) := by
  split
  · have e1 : (y.abs - -xs) * (-xs + y.abs) = (y.abs - xs) * (xs + y.abs) := by
      rw [sub_eq, neg_neg', sub_eq, F64.mul_comm', F64.add_comm' (a := -xs), F64.add_comm' (a := y.abs) (b := xs)]
    rw [e1]
    refine CRel.sub (CRel.rmul (cexp_conj L ?_) 2.0) h
    have s1 : Same (2.0 * -xs) (-(2.0 * xs)) := mul_neg_right_same _ _
    rcases s1 with e | ⟨n1, n2⟩
    · rw [e]; exact mul_neg_left_same _ _
    · have n2 : ((2.0 : F64) * xs).isNaN = true := by simpa using n2
      exact Or.inr ⟨by rw [mul_nan_left n1]; rfl, by rw [isNaN_neg, mul_nan_left n2]; rfl⟩
  · exact h

omit [Libm F64] [Cfg] in
theorem same_nan {a b : F64} (ha : a.isNaN = true) (hb : b.isNaN = true) : NumEq a (-b) := Or.inl ⟨ha, by simpa using hb⟩

omit [Libm F64] [Cfg] in
/-- `x + (y/x)*y` is not zero for `|x| > y ≥ 0` -/
theorem den_ne {xs ya : F64} (hxs : xs.isNaN = false) (hya : ya.isNaN = false) (h0 : 0 ≤ ya.val) (hlt : ya.val < |xs.val|) :
    (xs + ya / xs * ya).isZero = false := by
  have hfy : ya.isFin = true := by
    rw [isFin_iff_val, _root_.abs_of_nonneg h0]
    exact lt_of_lt_of_le hlt (notNaN_iff_val.1 hxs)
  have hx0 : xs.val ≠ 0 := by
    intro hc; rw [hc, abs_zero] at hlt; linarith
  rcases fin_or_inf hxs with hf | hi
  · have hq := Iv.div_spec' hfy hf hx0
    have hq1 : |ya.val / xs.val| ≤ 1 := by
      rw [abs_div, _root_.abs_of_nonneg h0, div_le_one (_root_.abs_pos.2 hx0)]; exact hlt.le
    have hqv : |(ya / xs).val| ≤ 1 := by
      rw [hq.2]
      have := RN_abs_le_int (r := ya.val / xs.val) 1 (by norm_num) (by push_cast; exact hq1)
      exact_mod_cast this
    have hqf : (ya / xs).isFin = true := isFin_iff_val.2 (lt_of_le_of_lt hqv (lt_of_lt_of_le (by norm_num) HUGE_ge))
    have hm := Iv.mul_spec' hqf hfy
    have hm1 : |(ya / xs * ya).val| ≤ ya.val := by
      rw [hm.2, RN_abs, abs_mul, _root_.abs_of_nonneg h0]
      refine RN_le_of_le (b := ya) hya ?_
      nlinarith
    have hmf : (ya / xs * ya).isFin = true := isFin_iff_val.2 (lt_of_le_of_lt hm1 (lt_of_lt_of_le hlt (notNaN_iff_val.1 hxs)))
    have ha := add_spec hf hmf
    apply val_ne_zero.1
    rw [ha.2]
    rcases lt_or_gt_of_ne hx0 with hneg | hpos
    · have h1 : (ya / xs).val ≤ 0 := by rw [hq.2]; exact RN_nonpos (div_nonpos_of_nonneg_of_nonpos h0 hneg.le)
      have h2 : (ya / xs * ya).val ≤ 0 := by rw [hm.2]; exact RN_nonpos (mul_nonpos_of_nonpos_of_nonneg h1 h0)
      have := RN_le_of_le (b := xs) hxs (x := xs.val + (ya / xs * ya).val) (by linarith)
      linarith
    · have h1 : 0 ≤ (ya / xs).val := by rw [hq.2]; exact RN_nonneg (div_nonneg h0 hpos.le)
      have h2 : 0 ≤ (ya / xs * ya).val := by rw [hm.2]; exact RN_nonneg (mul_nonneg h1 h0)
      have := le_RN_of_le (b := xs) hxs (x := xs.val + (ya / xs * ya).val) (by linarith)
      linarith
  · have hz : (ya / xs).isZero = true := by rw [div_inf_right hfy hi]; rfl
    have hm := Iv.mul_spec' (isZero_fin hz) hfy
    have hmf : (ya / xs * ya).isFin = true := by
      rw [isFin_iff_val, hm.2, val_eq_zero.2 hz, zero_mul, RN_zero, abs_zero]
      exact lt_of_lt_of_le (by norm_num) HUGE_ge
    rw [add_inf_left hi (isFin_notNaN hmf) (fun hc => by rw [isFin_notInf hmf] at hc; cases hc)]
    cases hz : xs.isZero
    · rfl
    · exact absurd (val_eq_zero.2 hz) hx0


omit [Libm F64] [Cfg] in
theorem numEq_div_neg {b b' : F64} (h : NumEq b' (-b)) (hz : b.isZero = false) (a : F64) : NumEq (a / b') (-(a / b)) :=
  ((numEq_div_right h.symm (by simpa using hz) a).symm).trans (div_neg_right_same a b).numEq

omit [Libm F64] [Cfg] in
theorem xs_abs (x y : F64) : (if F64.lt y 0.0 = true then -x else x).abs = x.abs := by
  split <;> simp

/-- conjugation in the branch `|z|² > 4.8e15` -/
theorem faddeevaLarge_conj (L : LibmSpec) {x y zz : F64} (hx : x.isNaN = false) (hy : y.isNaN = false) (hzz : F64.lt 4.8e15 zz = true) :
    CRel true (faddeevaLarge (-x) y (-x).abs y.abs zz) (faddeevaLarge x y x.abs y.abs zz) := by
  unfold faddeevaLarge
  simp only [ar_lt, ar_isInf, ar_isNaN, ar_nan, abs_neg']
  rw [if_pos hzz, if_pos hzz, xs_neg]
  generalize hxs : (if F64.lt y 0.0 = true then -x else x) = xs
  have hxa : xs.abs = x.abs := by rw [← hxs]; exact xs_abs x y
  have hxn : xs.isNaN = false := by rw [← isNaN_abs, hxa, isNaN_abs]; exact hx
  have hyn : y.abs.isNaN = false := by simpa using hy
  have hy0 : 0 ≤ y.abs.val := by rw [F64.val_abs]; exact abs_nonneg _
  rcases hlt : F64.lt y.abs x.abs with _ | _
  · simp only [Bool.false_eq_true, if_false]
    rcases hi : y.abs.isInf with _ | _
    · simp only [Bool.false_eq_true, if_false]
      apply large_fin_conj L
      rcases div_neg_left_same xs y.abs with e | ⟨n1, n2⟩
      · rw [e, mul_neg_neg]
        exact ⟨NumEq.refl _, numEq_mul_neg _ _⟩
      · have n2 : (xs / y.abs).isNaN = true := by simpa using n2
        have d1 : (INV_SQRT_PI / (-xs / y.abs * -xs + y.abs) : F64) = nan := by
          rw [mul_nan_left n1, add_nan_left (by rfl), div_nan_right (by rfl)]
        have d2 : (INV_SQRT_PI / (xs / y.abs * xs + y.abs) : F64) = nan := by
          rw [mul_nan_left n2, add_nan_left (by rfl), div_nan_right (by rfl)]
        rw [d1, d2]
        exact ⟨NumEq.refl _, Or.inl ⟨by rw [mul_nan_left (by rfl)]; rfl, by rw [isNaN_neg, mul_nan_left (by rfl)]; rfl⟩⟩
    · simp only [if_true]
      by_cases hc : (x.abs.isNaN || F64.lt y 0.0) = true
      · simp only [hc, if_true]
        exact ⟨NumEq.refl _, Or.inl ⟨rfl, rfl⟩⟩
      · simp only [hc]
        exact zero_conj
  · simp only [if_true]
    apply large_fin_conj L
    have hl : y.abs.val < |xs.val| := by
      rw [← F64.val_abs xs, hxa]
      exact (lt_iff.1 hlt).2.2
    have e1 : NumEq (y.abs / -xs) (-(y.abs / xs)) := (div_neg_right_same _ _).numEq
    have e2 : NumEq (-xs + y.abs / -xs * y.abs) (-(xs + y.abs / xs * y.abs)) :=
      (NumEq.refl _).addN (e1.mulNl (NumEq.refl _))
    have e3 : NumEq (INV_SQRT_PI / (-xs + y.abs / -xs * y.abs)) (-(INV_SQRT_PI / (xs + y.abs / xs * y.abs))) :=
      numEq_div_neg e2 (den_ne hxn hyn hy0 hl) _
    exact ⟨e3.mulNN e1, e3⟩

/-- conjugation of the reflection formulas of the Taylor branch -/
theorem faddeevaReflect_conj (L : LibmSpec) {x y : F64} (hx : x.isNaN = false) (h0 : x.val ≠ 0) (res : Cx F64) :
    NumEq (faddeevaReflect (-x) y res).1 (faddeevaReflect x y res).1 ∧ NumEq (faddeevaReflect (-x) y res).2 (-(faddeevaReflect x y res).2) := by
  have hxn : (-x).isNaN = false := by simpa using hx
  have z0 : (0.0 : F64).isNaN = false := by decide +kernel
  have ce : CRel true (Cx.rmul 2.0 (Cx.exp ⟨(y - -x) * (-x + y), -2.0 * -x * y⟩)) (Cx.rmul 2.0 (Cx.exp ⟨(y - x) * (x + y), -2.0 * x * y⟩)) := by
    have e1 : (y - -x) * (-x + y) = (y - x) * (x + y) := by
      rw [sub_eq, neg_neg', sub_eq, F64.mul_comm', F64.add_comm' (a := -x), F64.add_comm' (a := y) (b := x)]
    rw [e1]
    refine CRel.rmul (cexp_conj L ?_) 2.0
    have s1 : Same (-2.0 * -x) (-(-2.0 * x)) := mul_neg_right_same _ _
    rcases s1 with e | ⟨n1, n2⟩
    · rw [e]; exact mul_neg_left_same _ _
    · have n2 : ((-2.0 : F64) * x).isNaN = true := by simpa using n2
      exact Or.inr ⟨by rw [mul_nan_left n1]; rfl, by rw [isNaN_neg, mul_nan_left n2]; rfl⟩
  unfold faddeevaReflect
  simp only [ar_lt]
  rcases lt_or_gt_of_ne h0 with hneg | hpos
  · have a1 : F64.lt x 0.0 = true := lt_iff.2 ⟨hx, z0, by rw [Verif.zero_val]; exact hneg⟩
    have a2 : F64.lt (-x) 0.0 = false := by
      rw [lt_false_iff hxn z0, Verif.zero_val, val_neg]; linarith
    simp only [a1, a2]
    cases F64.lt y 0.0
    · exact ⟨NumEq.refl _, by simp [NumEq.refl]⟩
    · exact ⟨ce.1.sub (NumEq.refl _), ce.2.subN (NumEq.refl _)⟩
  · have a1 : F64.lt x 0.0 = false := by
      rw [lt_false_iff hx z0, Verif.zero_val]; linarith
    have a2 : F64.lt (-x) 0.0 = true := lt_iff.2 ⟨hxn, z0, by rw [Verif.zero_val, val_neg]; linarith⟩
    simp only [a1, a2]
    cases F64.lt y 0.0
    · exact ⟨NumEq.refl _, NumEq.refl _⟩
    · refine ⟨ce.1.sub (NumEq.refl _), ?_⟩
      refine ce.2.subN ?_
      show NumEq res.im (-(-res.im))
      rw [neg_neg']; exact NumEq.refl _


omit [Libm F64] [Cfg] in
/-- in the Taylor branch the real part is not zero -/
theorem taylor_ne_zero {x y : F64} (hx : x.isNaN = false) (hy : y.isNaN = false) (h0 : x.val = 0) (h : F64.lt x.abs (1e-8 * y.abs) = false)
    (h3 : F64.lt (zzOf x y) 0.053 = false) (h4 : F64.le 49.0 (zzOf x y) = false) : False := by
  obtain ⟨fx, fy, lx, ly, hs, zn, zv⟩ := zz_spec hx hy h4
  have hya : y.abs.isFin = true := by simpa using fy
  have S := mul_spec (a := 1e-8) (b := y.abs) (by decide +kernel) hya
  rw [lt_false_iff (by simpa using hx) S.1, S.2.1, F64.val_abs, F64.val_abs, h0, abs_zero] at h
  have h8 : 0 ≤ (1e-8 : F64).val := by
    have := (lt_iff.1 (by decide +kernel : F64.lt 0.0 (1e-8 : F64) = true)).2.2
    rw [Verif.zero_val] at this; exact this.le
  have hy1 : |y.val| < (1e-2 : F64).val := by
    by_contra hc
    have hm := RN_mono (mul_le_mul_of_nonneg_left (not_lt.1 hc) h8)
    rw [← (mul_spec (a := 1e-8) (b := (1e-2 : F64)) (by decide +kernel) (by decide +kernel)).2.1] at hm
    have hp := (lt_iff.1 (by decide +kernel : F64.lt 0.0 ((1e-8 : F64) * 1e-2) = true)).2.2
    rw [Verif.zero_val] at hp
    linarith
  have hz : (x.abs * x.abs + y * y).val ≤ ((0.0 : F64) + 1e-2 * 1e-2).val := by
    have s1 := mul_spec (a := (1e-2 : F64)) (b := (1e-2 : F64)) (by decide +kernel) (by decide +kernel)
    have s2 := add_spec (a := (0.0 : F64)) (b := (1e-2 : F64) * 1e-2) (by decide +kernel) (by decide +kernel)
    rw [zv, s2.2, s1.2.1, h0, Verif.zero_val, abs_zero, mul_zero, RN_zero]
    apply RN_mono
    have := RN_mono (mul_le_mul hy1.le hy1.le (abs_nonneg _) (le_trans (abs_nonneg _) hy1.le))
    linarith
  unfold zzOf at h3
  rw [lt_false_iff zn (by decide +kernel)] at h3
  have := (lt_iff.1 (by decide +kernel : F64.lt ((0.0 : F64) + 1e-2 * 1e-2) 0.053 = true)).2.2
  exact absurd (h3.trans hz) (not_le.2 this)

omit [Cfg] in
theorem large_asy {x y zz : F64} (hy : F64.lt y 0.0 = false) (hz : F64.lt 4.8e15 zz = false) :
    faddeevaLarge x y x.abs y.abs zz = faddeevaAsy x y.abs zz := by
  unfold faddeevaLarge
  simp only [ar_lt]
  rw [if_neg (by rw [hz]; decide)]
  simp only [hy, Bool.false_eq_true, if_false]

omit [Libm F64] [Cfg] in
theorem numEq_iff {a b : F64} (h : a.isNaN = false) : NumEq a b ↔ F64.eq a b = true := by
  unfold NumEq; rw [eq_iff, h]; simp

/-- conjugation of the asymptotic Horner scheme over the reals -/
theorem cxAsy_real_conj (a b c d : ℝ) : ∀ (cs : List ℝ) (p q : ℝ),
    (cxAsy ⟨a, -b⟩ ⟨c, -d⟩ ⟨p, -q⟩ cs).re = (cxAsy ⟨a, b⟩ ⟨c, d⟩ ⟨p, q⟩ cs).re ∧
    (cxAsy ⟨a, -b⟩ ⟨c, -d⟩ ⟨p, -q⟩ cs).im = -(cxAsy ⟨a, b⟩ ⟨c, d⟩ ⟨p, q⟩ cs).im
  | [], p, q => by
    simp only [cxAsy, Cx.mul]; constructor <;> ring
  | [e], p, q => by
    simp only [cxAsy, Cx.mul, Cx.addR]; constructor <;> ring
  | e :: f :: cs, p, q => by
    have h := cxAsy_real_conj a b c d (f :: cs) ((p + e) * a - q * b) ((p + e) * b + q * a)
    simp only [cxAsy, Cx.mul, Cx.addR]
    rw [show (p + e) * a - -q * -b = (p + e) * a - q * b by ring, show (p + e) * -b + -q * a = -((p + e) * b + q * a) by ring]
    exact h

theorem faddeevaAsy_real_conj (x y zz : ℝ) :
    (faddeevaAsy (-x) y zz).re = (faddeevaAsy x y zz).re ∧ (faddeevaAsy (-x) y zz).im = -(faddeevaAsy x y zz).im := by
  have key : ∀ (k : ℝ) (cs : List ℝ) (a b c d : ℝ),
      (cxAsy ⟨a, -b⟩ ⟨c, -d⟩ (Cx.rmul k ⟨a, -b⟩) cs).re = (cxAsy ⟨a, b⟩ ⟨c, d⟩ (Cx.rmul k ⟨a, b⟩) cs).re ∧
      (cxAsy ⟨a, -b⟩ ⟨c, -d⟩ (Cx.rmul k ⟨a, -b⟩) cs).im = -(cxAsy ⟨a, b⟩ ⟨c, d⟩ (Cx.rmul k ⟨a, b⟩) cs).im := by
    intro k cs a b c d
    have := cxAsy_real_conj a b c d cs (k * a) (k * b)
    rw [← mul_neg] at this
    exact this
  unfold faddeevaAsy
  have e1 : 1.0 / zz * (1.0 / zz) * (-x + y) * (-x - y) = 1.0 / zz * (1.0 / zz) * (x + y) * (x - y) := by
    generalize (1.0:ℝ) = u; ring
  have e2 : -2.0 * (1.0 / zz * (1.0 / zz)) * -x * y = -(-2.0 * (1.0 / zz * (1.0 / zz)) * x * y) := by
    generalize (1.0:ℝ) = u; generalize (-2.0:ℝ) = t; ring
  have e3 : -x * (1.0 / zz) = -(x * (1.0 / zz)) := by
    generalize (1.0:ℝ) = u; ring
  simp only [e1, e2, e3]
  split
  · split
    · exact key _ _ _ _ _ _
    · exact key _ _ _ _ _ _
  · exact key _ _ _ _ _ _

end Verif
