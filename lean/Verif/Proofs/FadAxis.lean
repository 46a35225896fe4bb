import Verif.Proofs.Faddeeva
import Verif.Proofs.OIv
import Verif.Proofs.ErfcxRange
import Verif.Props.Erfcx
import Verif.Proofs.Beta

/-! # faddeeva on the axes, arguments so small that `1e-8*|x|` underflows -/

namespace Verif
open F64 OIv

theorem sq_abs_f64 (x : F64) : x * x = x.abs * x.abs := by
  rw [mul_def, mul_def]; unfold F64.mul
  have e : x.abs.um = x.um := rfl
  simp [e]

/-- so small that every square vanishes -/
abbrev TINY : F64 := 1e-290

theorem axis_tiny {y b : F64} (hy : y.isZero = true) (hb : b.isFin = true) (h : F64.lt y.abs (1e-8 * b) = false) : b.val ≤ TINY.val := by
  by_contra hc
  have hc := not_le.1 hc
  have S := mul_spec (a := 1e-8) (b := b) (by decide +kernel) hb
  rw [lt_false_iff (by simpa using isFin_notNaN (isZero_fin hy)) S.1, S.2.1, F64.val_abs, val_eq_zero.2 hy, abs_zero] at h
  have S' := mul_spec (a := 1e-8) (b := TINY) (by decide +kernel) (by decide +kernel)
  have hp : 0 < ((1e-8 : F64) * TINY).val := by
    have := (lt_iff.1 (by decide +kernel : F64.lt 0.0 ((1e-8 : F64) * TINY) = true)).2.2
    rwa [Verif.zero_val] at this
  have h8 : 0 ≤ (1e-8 : F64).val := by
    have := (lt_iff.1 (by decide +kernel : F64.lt 0.0 (1e-8 : F64) = true)).2.2
    rw [Verif.zero_val] at this; exact this.le
  have hm := RN_mono (mul_le_mul_of_nonneg_left hc.le h8)
  rw [← S'.2.1] at hm
  linarith

theorem encl_tiny {x : F64} (h : |x.val| ≤ TINY.val) : Encl (mk2 (-TINY) TINY) x := by
  rw [abs_le] at h
  exact rel_mk2 (by rw [val_neg]; exact h.1) h.2

theorem encl_zero {y : F64} (h : y.isZero = true) : Encl (mk2 0.0 0.0) y :=
  rel_mk2 (by rw [Verif.zero_val, val_eq_zero.2 h]) (by rw [Verif.zero_val, val_eq_zero.2 h])

theorem RN_tiny_sq {x : F64} (h : |x.val| ≤ TINY.val) : RN (x.val * x.val) = 0 := by
  have hx : x.isFin = true := isFin_iff_val.2 (lt_of_le_of_lt h (by
    have := isFin_iff_val.1 (by decide +kernel : TINY.isFin = true)
    exact lt_of_le_of_lt (le_abs_self _) this))
  have r := rel_inside (l := 0.0) (h := 0.0) (rel_mul (encl_tiny h) (encl_tiny h)) (by decide +kernel)
  rw [Verif.zero_val, (mul_spec hx hx).2.1] at r
  linarith [r.2.1, r.2.2]

theorem zz_tiny {x y : F64} (hx : |x.val| ≤ TINY.val) (hy : |y.val| ≤ TINY.val) : F64.lt (zzOf x y) 0.053 = true ∧ F64.lt (zzOf x y) 0.00689 = true ∧ F64.lt (zzOf x y) 4e-7 = true := by
  have hxa : |x.abs.val| ≤ TINY.val := by rw [F64.val_abs, abs_abs]; exact hx
  have r := rel_inside (l := 0.0) (h := 0.0) (rel_add (rel_mul (encl_tiny hxa) (encl_tiny hxa)) (rel_mul (encl_tiny hy) (encl_tiny hy))) (by decide +kernel)
  have hv : (zzOf x y).val = 0 := by
    have := r.2; rw [Verif.zero_val] at this; unfold zzOf; linarith [this.1, this.2]
  have pos : ∀ c : F64, F64.lt 0.0 c = true → F64.lt (zzOf x y) c = true := by
    intro c hc
    have := lt_iff.1 hc
    rw [Verif.zero_val] at this
    exact lt_iff.2 ⟨isFin_notNaN r.1, this.2.1, by rw [hv]; exact this.2.2⟩
  exact ⟨pos _ (by decide +kernel), pos _ (by decide +kernel), pos _ (by decide +kernel)⟩

/-- the third Horner step of the shortest Maclaurin polynomial -/
def mac3 (x y : F64) : Cx F64 :=
  ((((((((⟨5e-1, 0.0⟩ : Cx F64).mul ⟨x, y⟩).add ⟨0.0, -7.522527780636751e-1⟩).mul ⟨x, y⟩).add ⟨-1.0, 0.0⟩).mul ⟨x, y⟩).add ⟨0.0, Arith.frac2SqrtPi⟩))

theorem small_tiny {x y : F64} (hx : |x.val| ≤ TINY.val) (hy : |y.val| ≤ TINY.val) :
    faddeevaSmall ⟨x, y⟩ (zzOf x y) = ((mac3 x y).mul ⟨x, y⟩).addR 1.0 := by
  obtain ⟨-, h1, h2⟩ := zz_tiny hx hy
  unfold faddeevaSmall
  simp only [ar_lt]
  rw [if_pos h1, if_pos h2]
  rfl

/-- real and imaginary part of `mac3` on intervals -/
def mac3O (x y : OIv) : OIv × OIv :=
  let s (r : OIv × OIv) (c d : OIv) : OIv × OIv := (r.1 * x - r.2 * y + c, r.1 * y + r.2 * x + d)
  s (s (s (5e-1, 0.0) 0.0 (-7.522527780636751e-1)) (-1.0) 0.0) 0.0 (pt Arith.frac2SqrtPi)

theorem rel_mac3 {I J : OIv} {x y : F64} (hx : Encl I x) (hy : Encl J y) : Encl (mac3O I J).1 (mac3 x y).re ∧ Encl (mac3O I J).2 (mac3 x y).im := by
  have st : ∀ {A B C D : OIv} {a c : Cx F64}, Encl A a.re → Encl B a.im → Encl C c.re → Encl D c.im →
      Encl (A * I - B * J + C) ((a.mul ⟨x, y⟩).add c).re ∧ Encl (A * J + B * I + D) ((a.mul ⟨x, y⟩).add c).im := by
    intro A B C D a c hA hB hC hD
    exact ⟨rel_add (rel_sub (rel_mul hA hx) (rel_mul hB hy)) hC, rel_add (rel_add (rel_mul hA hy) (rel_mul hB hx)) hD⟩
  have l0 : Encl (0.0 : OIv) (0.0 : F64) := rel_lit _ _ _
  have l5 : Encl (5e-1 : OIv) (5e-1 : F64) := rel_lit _ _ _
  have l7 : Encl (7.522527780636751e-1 : OIv) (7.522527780636751e-1 : F64) := rel_lit _ _ _
  have l1 : Encl (1.0 : OIv) (1.0 : F64) := rel_lit _ _ _
  have s1 := st (a := ⟨5e-1, 0.0⟩) (c := ⟨0.0, -7.522527780636751e-1⟩) l5 l0 l0 (rel_neg l7)
  have s2 := st (c := ⟨-1.0, 0.0⟩) s1.1 s1.2 (rel_neg l1) l0
  exact st (c := ⟨0.0, Arith.frac2SqrtPi⟩) s2.1 s2.2 l0 (rel_pt _)

theorem frac2_val : (Arith.frac2SqrtPi : F64).val = 2 * (0.5641895835477563 : F64).val := by
  have h : (Arith.frac2SqrtPi : F64).sv = 2 * (0.5641895835477563 : F64).sv := by decide +kernel
  unfold F64.val
  rw [h]; push_cast; ring

theorem RN_double_abs {x : F64} (h : |x.val| ≤ 1) : RN (2 * x.val) = 2 * x.val := by
  rcases le_or_gt 0 x.val with h0 | h0
  · exact RN_double h0 (by rwa [_root_.abs_of_nonneg h0] at h)
  · have := RN_double (x := -x) (by rw [val_neg]; linarith) (by rw [val_neg]; rw [abs_of_neg h0] at h; exact h)
    rw [val_neg, show 2 * -x.val = -(2 * x.val) by ring, RN_neg] at this
    linarith

theorem small_tiny_real {x y : F64} (hx : x.isFin = true) (ht : |x.val| ≤ TINY.val) (hy : y.isZero = true) :
    F64.lt (zzOf x y) 0.053 = true ∧ ((faddeevaSmall ⟨x, y⟩ (zzOf x y)).re.isNaN = false ∧ (faddeevaSmall ⟨x, y⟩ (zzOf x y)).re.val = 1) ∧
    NumEq (faddeevaSmall ⟨x, y⟩ (zzOf x y)).im (2.0 * x * 0.5641895835477563) := by
  have hy' : |y.val| ≤ TINY.val := by
    rw [val_eq_zero.2 hy, abs_zero, ← Verif.zero_val]; exact (lt_iff.1 (by decide +kernel : F64.lt 0.0 TINY = true)).2.2.le
  obtain ⟨m1, m2⟩ := rel_mac3 (encl_tiny ht) (encl_zero hy)
  refine ⟨(zz_tiny ht hy').1, ?_, ?_⟩
  · rw [small_tiny ht hy']
    have l1 : Encl (1.0 : OIv) (1.0 : F64) := rel_lit _ _ _
    have r := rel_inside (l := 1.0) (h := 1.0) (rel_add (rel_sub (rel_mul m1 (encl_tiny ht)) (rel_mul m2 (encl_zero hy))) l1) (by decide +kernel)
    rw [one_val] at r
    exact ⟨isFin_notNaN r.1, by
      show ((mac3 x y).re * x - (mac3 x y).im * y + 1.0).val = 1
      linarith [r.2.1, r.2.2]⟩
  · rw [small_tiny ht hy']
    have r1 := rel_inside (l := -1.0) (h := 1.0) m1 (by decide +kernel)
    have r2 := rel_inside (l := Arith.frac2SqrtPi) (h := Arith.frac2SqrtPi) m2 (by decide +kernel)
    have hc : (mac3 x y).im.val = (Arith.frac2SqrtPi : F64).val := le_antisymm r2.2.2 r2.2.1
    show NumEq ((mac3 x y).re * y + (mac3 x y).im * x) _
    have hyf := isZero_fin hy
    have s1 := mul_spec r1.1 hyf
    have s2 := mul_spec r2.1 hx
    have f1 : ((mac3 x y).re * y).isFin = true := (rel_inside (l := -1.0) (h := 1.0) (rel_mul m1 (encl_zero hy)) (by decide +kernel)).1
    have f2 : ((mac3 x y).im * x).isFin = true := (rel_inside (l := -1.0) (h := 1.0) (rel_mul m2 (encl_tiny ht)) (by decide +kernel)).1
    have sa := add_spec f1 f2
    have v1 : ((mac3 x y).re * y).val = 0 := by rw [s1.2.1, val_eq_zero.2 hy, mul_zero, RN_zero]
    have l2 : Encl (2.0 : OIv) (2.0 : F64) := rel_lit _ _ _
    have f3 : (2.0 * x).isFin = true := (rel_inside (l := -1.0) (h := 1.0) (rel_mul l2 (encl_tiny ht)) (by decide +kernel)).1
    have s3 := mul_spec (a := 2.0) (by decide +kernel) hx
    have s4 := mul_spec (b := (0.5641895835477563 : F64)) f3 (by decide +kernel)
    have hx1 : |x.val| ≤ 1 := ht.trans (by rw [← one_val]; exact (lt_iff.1 (by decide +kernel : F64.lt TINY 1.0 = true)).2.2.le)
    refine Or.inr ⟨sa.1, s4.1, ?_⟩
    rw [sa.2, v1, zero_add, RN_val s2.1, s2.2.1, hc, s4.2.1, s3.2.1, two_val, RN_double_abs hx1, frac2_val]
    generalize (0.5641895835477563 : F64).val = c
    rw [mul_right_comm]

theorem small_tiny_imag {x y : F64} (ht : |y.val| ≤ TINY.val) (hx : x.isZero = true) :
    F64.lt (zzOf x y) 0.053 = true ∧ ((faddeevaSmall ⟨x, y⟩ (zzOf x y)).re.isNaN = false ∧ (faddeevaSmall ⟨x, y⟩ (zzOf x y)).re.val = 1) ∧
    (faddeevaSmall ⟨x, y⟩ (zzOf x y)).im.isZero = true := by
  have hx' : |x.val| ≤ TINY.val := by
    rw [val_eq_zero.2 hx, abs_zero, ← Verif.zero_val]; exact (lt_iff.1 (by decide +kernel : F64.lt 0.0 TINY = true)).2.2.le
  obtain ⟨m1, m2⟩ := rel_mac3 (encl_zero hx) (encl_tiny ht)
  refine ⟨(zz_tiny hx' ht).1, ?_, ?_⟩
  · rw [small_tiny hx' ht]
    have l1 : Encl (1.0 : OIv) (1.0 : F64) := rel_lit _ _ _
    have r := rel_inside (l := 1.0) (h := 1.0) (rel_add (rel_sub (rel_mul m1 (encl_zero hx)) (rel_mul m2 (encl_tiny ht))) l1) (by decide +kernel)
    rw [one_val] at r
    exact ⟨isFin_notNaN r.1, by
      show ((mac3 x y).re * x - (mac3 x y).im * y + 1.0).val = 1
      linarith [r.2.1, r.2.2]⟩
  · rw [small_tiny hx' ht]
    have r := rel_inside (l := 0.0) (h := 0.0) (rel_add (rel_mul m1 (encl_tiny ht)) (rel_mul m2 (encl_zero hx))) (by decide +kernel)
    rw [Verif.zero_val] at r
    exact val_eq_zero.1 (le_antisymm r.2.2 r.2.1)

theorem dawson_tiny [Libm F64] [Cfg] {x : F64} (ht : |x.val| ≤ TINY.val) : ∃ d, dawson x = .ok d ∧ d.isNaN = false ∧ d.val = x.val := by
  have hx : x.isFin = true := isFin_iff_val.2 (lt_of_le_of_lt ht (by
    have := isFin_iff_val.1 (by decide +kernel : TINY.isFin = true)
    exact lt_of_le_of_lt (le_abs_self _) this))
  have hs : F64.lt x.abs 0.2 = true := by
    refine lt_iff.2 ⟨by simpa using isFin_notNaN hx, by decide +kernel, ?_⟩
    rw [F64.val_abs]
    exact lt_of_le_of_lt ht (lt_iff.1 (by decide +kernel : F64.lt TINY 0.2 = true)).2.2
  rw [dawson_small hs]
  have l1 : Encl (1.0 : OIv) (1.0 : F64) := rel_lit _ _ _
  have l2 : Encl (2.0 : OIv) (2.0 : F64) := rel_lit _ _ _
  have l3 : Encl (3.0 : OIv) (3.0 : F64) := rel_lit _ _ _
  have l4 : Encl (0.4 : OIv) (0.4 : F64) := rel_lit _ _ _
  have l7 : Encl (7.0 : OIv) (7.0 : F64) := rel_lit _ _ _
  have e := encl_tiny ht
  have r := rel_inside (l := 1.0) (h := 1.0) (rel_sub l1 (rel_mul (rel_mul (rel_div l2 l3) (rel_mul e e)) (rel_sub l1 (rel_mul (rel_mul l4 (rel_mul e e))
    (rel_sub l1 (rel_mul (rel_div l2 l7) (rel_mul e e))))))) (by decide +kernel)
  generalize (1.0 - 2.0 / 3.0 * (x * x) * (1.0 - 0.4 * (x * x) * (1.0 - 2.0 / 7.0 * (x * x))) : F64) = t at *
  rw [one_val] at r
  have s := mul_spec hx r.1
  refine ⟨_, rfl, s.1, ?_⟩
  rw [s.2.1, le_antisymm r.2.2 r.2.1, mul_one, RN_val (isFin_notNaN hx)]

theorem erfcx_tiny [Libm F64] [Cfg] {y w : F64} (ht : |y.val| ≤ TINY.val) (hw : erfcx y = .ok w) : w.isNaN = false ∧ w.val = 1 := by
  have hx : y.isFin = true := isFin_iff_val.2 (lt_of_le_of_lt ht (by
    have := isFin_iff_val.1 (by decide +kernel : TINY.isFin = true)
    exact lt_of_le_of_lt (le_abs_self _) this))
  have hs : F64.lt y.abs 0.125 = true := by
    refine lt_iff.2 ⟨by simpa using isFin_notNaN hx, by decide +kernel, ?_⟩
    rw [F64.val_abs]
    exact lt_of_le_of_lt ht (lt_iff.1 (by decide +kernel : F64.lt TINY 0.125 = true)).2.2
  rw [erfcx_small hs] at hw
  injection hw with hw
  subst hw
  have r := rel_inside (l := 1.0) (h := 1.0) (rel_mac (encl_tiny ht)) (by decide +kernel)
  rw [one_val] at r
  exact ⟨isFin_notNaN r.1, le_antisymm r.2.2 r.2.1⟩

end Verif
