import Mathlib.Analysis.SpecialFunctions.Sqrt
import Mathlib.Tactic.FieldSimp
import Verif.F64.Round

/-!
# Real values of binary64 numbers, and the correctness of the executable operations

`val` is the real value; infinities get the nominal value `±2^1024` (so that order is faithful).
`RN : ℝ → ℝ` is IEEE round-to-nearest-even (with overflow to the nominal `2^1024`).
For finite operands every operation `∘` of the model satisfies `(a ∘ b).val = RN (a.val ∘ b.val)`.
-/

namespace Verif
open F64

/-- the value `2^1024` at which the finite range ends (kept opaque for the tactics) -/
@[irreducible] noncomputable def HUGE : ℝ := 2^1024
theorem HUGE_eq : HUGE = 2^1024 := by unfold HUGE; rfl
theorem HUGE_pos : 0 < HUGE := by rw [HUGE_eq]; positivity
set_option exponentiation.threshold 2000 in
theorem HUGE_ge : (10:ℝ)^200 ≤ HUGE := by rw [HUGE_eq]; norm_num

/-- nonnegative rounding -/
noncomputable def rnd0 (x : ℝ) : ℝ := (iv (rndMag (x * 2^1074)) : ℝ) / 2^1074

/-- IEEE-754 round to nearest, ties to even, on the reals; overflow gives `±HUGE`. -/
noncomputable def RN (x : ℝ) : ℝ := if 0 ≤ x then rnd0 x else - rnd0 (-x)

theorem U_pos : (0:ℝ) < 2^1074 := by positivity

theorem rnd0_nonneg (x : ℝ) : 0 ≤ rnd0 x := by unfold rnd0; positivity

theorem rnd0_of_nonpos {x : ℝ} (h : x ≤ 0) : rnd0 x = 0 := by
  unfold rnd0
  rw [rndMag_of_nonpos (mul_nonpos_of_nonpos_of_nonneg h U_pos.le)]
  simp

theorem rnd0_mono {x y : ℝ} (h : x ≤ y) : rnd0 x ≤ rnd0 y := by
  unfold rnd0
  apply div_le_div_of_nonneg_right _ U_pos.le
  exact Nat.cast_le.2 (iv_strictMono.monotone (rndMag_mono (mul_le_mul_of_nonneg_right h U_pos.le)))

@[simp] theorem RN_zero : RN 0 = 0 := by
  unfold RN; rw [if_pos (le_refl _), rnd0_of_nonpos (le_refl _)]

theorem RN_neg (x : ℝ) : RN (-x) = - RN x := by
  rcases lt_trichotomy x 0 with h | h | h
  · unfold RN; rw [if_pos (by linarith), if_neg (by linarith), neg_neg]
  · subst h; simp
  · unfold RN; rw [if_neg (by linarith), if_pos (by linarith), neg_neg]

theorem RN_nonneg {x : ℝ} (h : 0 ≤ x) : 0 ≤ RN x := by
  unfold RN; rw [if_pos h]; exact rnd0_nonneg x

theorem RN_mono {x y : ℝ} (h : x ≤ y) : RN x ≤ RN y := by
  unfold RN
  split
  · rename_i hx; rw [if_pos (by linarith)]; exact rnd0_mono h
  · split
    · have := rnd0_nonneg (-x); have := rnd0_nonneg y; linarith
    · have := rnd0_mono (x := -y) (y := -x) (by linarith); linarith

theorem RN_nonpos {x : ℝ} (h : x ≤ 0) : RN x ≤ 0 := by
  have := RN_mono h; rwa [RN_zero] at this

theorem RN_abs (x : ℝ) : |RN x| = RN |x| := by
  rcases le_total 0 x with h | h
  · rw [abs_of_nonneg h, abs_of_nonneg (RN_nonneg h)]
  · rw [abs_of_nonpos h, abs_of_nonpos (RN_nonpos h), RN_neg]

namespace F64

/-- The real value of a number (nominal for infinities and NaN). -/
noncomputable def val (a : F64) : ℝ := (a.sv : ℝ) / 2^1074

theorem val_eq (a : F64) : a.val = if a.neg then -((iv a.mag : ℝ) / 2^1074) else (iv a.mag : ℝ) / 2^1074 := by
  unfold val sv; split <;> push_cast <;> ring

theorem val_pos_form {a : F64} (h : a.neg = false) : a.val = (iv a.mag : ℝ) / 2^1074 := by
  rw [val_eq, h]; simp

theorem val_neg_form {a : F64} (h : a.neg = true) : a.val = -((iv a.mag : ℝ) / 2^1074) := by
  rw [val_eq, h]; simp

theorem abs_val (a : F64) : |a.val| = (iv a.mag : ℝ) / 2^1074 := by
  have : (0:ℝ) ≤ (iv a.mag : ℝ) / 2^1074 := by positivity
  rw [val_eq]; split
  · rw [abs_neg, abs_of_nonneg this]
  · rw [abs_of_nonneg this]

@[simp] theorem val_neg (a : F64) : (-a).val = -a.val := by
  show (F64.neg' a).val = _
  rw [val_eq, val_eq]; unfold F64.neg'
  cases a.neg <;> simp

@[simp] theorem val_abs (a : F64) : a.abs.val = |a.val| := by
  rw [abs_val, val_eq]; simp [F64.abs]

theorem neg_def (a : F64) : -a = F64.neg' a := rfl
theorem add_def (a b : F64) : a + b = F64.add a b := rfl
theorem sub_def (a b : F64) : a - b = F64.sub a b := rfl
theorem mul_def (a b : F64) : a * b = F64.mul a b := rfl
theorem div_def (a b : F64) : a / b = F64.div a b := rfl

@[simp] theorem neg_mag (a : F64) : (-a).mag = a.mag := rfl
@[simp] theorem neg_neg_bit (a : F64) : (-a).neg = !a.neg := rfl
@[simp] theorem neg_neg' (a : F64) : -(-a) = a := by
  apply ext' <;> simp
@[simp] theorem abs_mag (a : F64) : a.abs.mag = a.mag := rfl
@[simp] theorem abs_neg_bit (a : F64) : a.abs.neg = false := rfl
@[simp] theorem isNaN_neg (a : F64) : (-a).isNaN = a.isNaN := rfl
@[simp] theorem isInf_neg (a : F64) : (-a).isInf = a.isInf := rfl
@[simp] theorem isFin_neg (a : F64) : (-a).isFin = a.isFin := rfl
@[simp] theorem isZero_neg (a : F64) : (-a).isZero = a.isZero := rfl
@[simp] theorem um_neg (a : F64) : (-a).um = a.um := rfl
@[simp] theorem isNaN_abs (a : F64) : a.abs.isNaN = a.isNaN := rfl
@[simp] theorem isInf_abs (a : F64) : a.abs.isInf = a.isInf := rfl
@[simp] theorem isFin_abs (a : F64) : a.abs.isFin = a.isFin := rfl
@[simp] theorem isZero_abs (a : F64) : a.abs.isZero = a.isZero := rfl
@[simp] theorem abs_neg' (a : F64) : (-a).abs = a.abs := rfl
@[simp] theorem sv_neg (a : F64) : (-a).sv = -a.sv := by
  show (F64.neg' a).sv = _
  unfold sv F64.neg'; cases a.neg <;> simp
@[simp] theorem key_neg (a : F64) : (-a).key = -a.key := by
  show (F64.neg' a).key = _
  unfold key F64.neg'; cases a.neg <;> simp

theorem isFin_iff {a : F64} : a.isFin = true ↔ a.mag < INFMAG := by simp [isFin]
theorem isNaN_iff {a : F64} : a.isNaN = true ↔ INFMAG < a.mag := by simp [isNaN]
theorem isInf_iff {a : F64} : a.isInf = true ↔ a.mag = INFMAG := by simp [isInf]
theorem isZero_iff {a : F64} : a.isZero = true ↔ a.mag = 0 := by simp [isZero]
theorem notNaN_iff {a : F64} : a.isNaN = false ↔ a.mag ≤ INFMAG := by simp [isNaN]
theorem isFin_notNaN {a : F64} (h : a.isFin = true) : a.isNaN = false := by
  rw [notNaN_iff]; rw [isFin_iff] at h; omega
theorem isFin_notInf {a : F64} (h : a.isFin = true) : a.isInf = false := by
  rw [isFin_iff] at h; simp [isInf]; omega
theorem isInf_notNaN {a : F64} (h : a.isInf = true) : a.isNaN = false := by
  rw [notNaN_iff]; rw [isInf_iff] at h; omega
theorem isInf_notFin {a : F64} (h : a.isInf = true) : a.isFin = false := by
  rw [isInf_iff] at h; simp [isFin]; omega
theorem isNaN_notFin {a : F64} (h : a.isNaN = true) : a.isFin = false := by
  rw [isNaN_iff] at h; simp [isFin]; omega
theorem isNaN_notInf {a : F64} (h : a.isNaN = true) : a.isInf = false := by
  rw [isNaN_iff] at h; simp [isInf]; omega
theorem fin_or_inf {a : F64} (h : a.isNaN = false) : a.isFin = true ∨ a.isInf = true := by
  rw [notNaN_iff] at h; rw [isFin_iff, isInf_iff]; omega
theorem isZero_fin {a : F64} (h : a.isZero = true) : a.isFin = true := by
  rw [isZero_iff] at h; rw [isFin_iff, h]; decide

theorem cases3 (a : F64) : a.isNaN = true ∨ a.isInf = true ∨ a.isFin = true := by
  rw [isNaN_iff, isInf_iff, isFin_iff]; omega

theorem val_eq_zero {a : F64} : a.val = 0 ↔ a.isZero = true := by
  rw [isZero_iff]
  constructor
  · intro h
    have h2 := abs_val a
    rw [h, abs_zero] at h2
    have h3 : (iv a.mag : ℝ) = 0 := by
      have := (div_eq_zero_iff.1 h2.symm)
      rcases this with h | h
      · exact h
      · exact absurd h U_pos.ne'
    exact iv_eq_zero.1 (by exact_mod_cast h3)
  · intro h
    have h2 := abs_val a
    rw [h, iv_zero] at h2
    simpa using h2

theorem val_ne_zero {a : F64} : a.val ≠ 0 ↔ a.isZero = false := by
  rw [Ne, val_eq_zero]; simp

theorem ivU_strictMono {m n : Nat} : (iv m : ℝ) / 2^1074 < (iv n : ℝ) / 2^1074 ↔ m < n := by
  rw [div_lt_div_iff_of_pos_right U_pos, Nat.cast_lt, iv_strictMono.lt_iff_lt]

theorem ivU_mono {m n : Nat} : (iv m : ℝ) / 2^1074 ≤ (iv n : ℝ) / 2^1074 ↔ m ≤ n := by
  rw [div_le_div_iff_of_pos_right U_pos, Nat.cast_le, iv_strictMono.le_iff_le]

theorem key_lt {a b : F64} : a.key < b.key ↔ a.val < b.val := by
  have ha : (0:ℝ) ≤ (iv a.mag : ℝ) / 2^1074 := by positivity
  have hb : (0:ℝ) ≤ (iv b.mag : ℝ) / 2^1074 := by positivity
  have h0 : ∀ n, 0 < (iv n : ℝ) / 2^1074 ↔ 0 < n := by
    intro n
    have := ivU_strictMono (m := 0) (n := n)
    simpa using this
  have h1 := h0 a.mag
  have h2 := h0 b.mag
  rw [val_eq, val_eq]; unfold key
  cases a.neg <;> cases b.neg <;> simp only [if_true, if_false, Bool.false_eq_true]
  · rw [ivU_strictMono]; omega
  · constructor
    · intro h; omega
    · intro h; linarith
  · constructor
    · intro h
      rcases Nat.eq_zero_or_pos a.mag with h3 | h3
      · have : 0 < b.mag := by omega
        have := h2.2 this; linarith
      · have := h1.2 h3; linarith
    · intro h
      by_contra hc
      have e1 : a.mag = 0 := by omega
      have e2 : b.mag = 0 := by omega
      rw [e1, e2] at h; simp at h
  · rw [neg_lt_neg_iff, neg_lt_neg_iff, ivU_strictMono]; omega

theorem key_le {a b : F64} : a.key ≤ b.key ↔ a.val ≤ b.val := by
  rw [← not_lt, ← not_lt, key_lt]

theorem key_eq {a b : F64} : a.key = b.key ↔ a.val = b.val := by
  rw [le_antisymm_iff, le_antisymm_iff, key_le, key_le]

theorem lt_iff {a b : F64} : F64.lt a b = true ↔ a.isNaN = false ∧ b.isNaN = false ∧ a.val < b.val := by
  unfold lt; simp [key_lt, and_assoc]

theorem le_iff {a b : F64} : F64.le a b = true ↔ a.isNaN = false ∧ b.isNaN = false ∧ a.val ≤ b.val := by
  unfold le; simp [key_le, and_assoc]

theorem eq_iff {a b : F64} : F64.eq a b = true ↔ a.isNaN = false ∧ b.isNaN = false ∧ a.val = b.val := by
  unfold eq; simp [key_eq, and_assoc]

/-- Equal value and equal sign bit: equal. -/
theorem eq_of_val {a b : F64} (h : a.val = b.val) (hs : a.neg = b.neg) : a = b := by
  apply ext' hs
  have h1 := abs_val a
  have h2 := abs_val b
  rw [h, h2] at h1
  have := le_antisymm (ivU_mono.1 h1.le) (ivU_mono.1 h1.ge)
  exact this.symm

theorem neg_of_val_neg {a : F64} (h : a.val < 0) : a.neg = true := by
  by_contra hc
  rw [val_pos_form (by simpa using hc)] at h
  have : (0:ℝ) ≤ (iv a.mag : ℝ) / 2^1074 := by positivity
  linarith

theorem neg_of_val_pos {a : F64} (h : 0 < a.val) : a.neg = false := by
  by_contra hc
  rw [val_neg_form (by simpa using hc)] at h
  have : (0:ℝ) ≤ (iv a.mag : ℝ) / 2^1074 := by positivity
  linarith

theorem eq_of_val_ne {a b : F64} (h : a.val = b.val) (hz : a.val ≠ 0) : a = b := by
  apply eq_of_val h
  rcases lt_or_gt_of_ne hz with h1 | h1
  · rw [neg_of_val_neg h1, neg_of_val_neg (h ▸ h1)]
  · rw [neg_of_val_pos h1, neg_of_val_pos (h ▸ h1)]

theorem val_nonneg_of_neg {a : F64} (h : a.neg = false) : 0 ≤ a.val := by
  rw [val_pos_form h]; positivity

theorem val_nonpos_of_neg {a : F64} (h : a.neg = true) : a.val ≤ 0 := by
  rw [val_neg_form h]; simp only [Left.neg_nonpos_iff]; positivity

theorem ivInf : (iv INFMAG : ℝ) / 2^1074 = HUGE := by
  rw [iv_inf, HUGE_eq, Nat.cast_pow, Nat.cast_ofNat]
  rw [div_eq_iff U_pos.ne', ← pow_add]

theorem isFin_iff_val {a : F64} : a.isFin = true ↔ |a.val| < HUGE := by
  rw [isFin_iff, abs_val, ← ivInf, ivU_strictMono]

theorem notNaN_iff_val {a : F64} : a.isNaN = false ↔ |a.val| ≤ HUGE := by
  rw [notNaN_iff, abs_val, ← ivInf, ivU_mono]

theorem isInf_iff_val {a : F64} : a.isInf = true ↔ |a.val| = HUGE := by
  rw [isInf_iff, abs_val, ← ivInf]
  constructor
  · intro h; rw [h]
  · intro h; exact le_antisymm (ivU_mono.1 h.le) (ivU_mono.1 h.ge)

theorem fin_lt {a : F64} (h : a.isFin = true) : a.val < HUGE := (abs_lt.1 (isFin_iff_val.1 h)).2
theorem fin_gt {a : F64} (h : a.isFin = true) : -HUGE < a.val := (abs_lt.1 (isFin_iff_val.1 h)).1

end F64

theorem rnd0_ivU {n : Nat} (h : n ≤ INFMAG) : rnd0 ((iv n : ℝ) / 2^1074) = (iv n : ℝ) / 2^1074 := by
  unfold rnd0; rw [div_mul_cancel₀ _ U_pos.ne', rndMag_iv h]

theorem RN_val {a : F64} (h : a.isNaN = false) : RN a.val = a.val := by
  rw [F64.notNaN_iff] at h
  have h2 := rnd0_ivU h
  have h3 : (0:ℝ) ≤ (iv a.mag : ℝ) / 2^1074 := by positivity
  rcases hs : a.neg with _ | _
  · rw [F64.val_pos_form hs]; unfold RN; rw [if_pos h3, h2]
  · rw [F64.val_neg_form hs, RN_neg]; unfold RN; rw [if_pos h3, h2]

theorem RN_le_inf (x : ℝ) : RN x ≤ HUGE := by
  rcases le_total 0 x with h | h
  · unfold RN; rw [if_pos h, ← F64.ivInf]; unfold rnd0
    exact F64.ivU_mono.2 (rndMag_le _)
  · exact le_trans (RN_nonpos h) HUGE_pos.le

theorem RN_abs_le_inf (x : ℝ) : |RN x| ≤ HUGE := by
  rw [RN_abs]; exact RN_le_inf _

/-! ## correctness of the constructors -/

theorem F64.mk'_notNaN (s : Bool) (num den : Nat) : (F64.mk' s num den).isNaN = false := by
  rw [F64.mk'_eq, F64.notNaN_iff]; exact roundMag_le _ _

theorem F64.mk'_neg (s : Bool) (num den : Nat) : (F64.mk' s num den).neg = s := by
  rw [F64.mk'_eq]

theorem F64.mk'_val (s : Bool) (num den : Nat) (hd : 0 < den) :
    (F64.mk' s num den).val = RN ((if s then -1 else 1) * ((num:ℝ)/den) / 2^1074) := by
  rw [F64.mk'_eq, F64.val_eq]
  simp only
  rw [roundMag_eq _ _ hd]
  have h0 : (0:ℝ) ≤ (num:ℝ)/den/2^1074 := by positivity
  have h : RN ((num:ℝ)/den/2^1074) = (iv (rndMag ((num:ℝ)/den)) : ℝ) / 2^1074 := by
    unfold RN; rw [if_pos h0]; unfold rnd0; rw [div_mul_cancel₀ _ U_pos.ne']
  cases s
  · simp only [Bool.false_eq_true, if_false, one_mul]; exact h.symm
  · simp only [if_true]
    rw [neg_one_mul, neg_div, RN_neg, h]

namespace F64

theorem um_val (a : F64) : (a.um : ℝ) / 2^1074 = |a.val| := by rw [abs_val]; rfl

theorem sgn_abs_val (a : F64) : (if a.neg then -1 else 1) * |a.val| = a.val := by
  rw [abs_val, val_eq]; cases a.neg <;> simp

theorem szero_val (s : Bool) : (szero s).val = 0 := by
  rw [val_eq_zero]; rfl

@[simp] theorem zero_val : zero.val = 0 := szero_val false

/-- Rounded addition. -/
theorem add_spec {a b : F64} (ha : a.isFin = true) (hb : b.isFin = true) :
    (a + b).isNaN = false ∧ (a + b).val = RN (a.val + b.val) := by
  rw [add_def]; unfold add
  rw [isFin_notNaN ha, isFin_notNaN hb, isFin_notInf ha, isFin_notInf hb]
  simp only [Bool.or_self, Bool.false_eq_true, if_false]
  have hs : a.val + b.val = ((a.sv + b.sv : Int) : ℝ) / 2^1074 := by
    unfold val; push_cast; ring
  split
  · rename_i h
    refine ⟨rfl, ?_⟩
    rw [szero_val, hs, h]; simp
  · rename_i h
    refine ⟨mk'_notNaN _ _ _, ?_⟩
    rw [mk'_val _ _ _ (by norm_num), hs]
    congr 1
    generalize a.sv + b.sv = s at *
    rcases lt_or_gt_of_ne h with h1 | h1
    · simp only [h1, decide_true, if_true, Nat.cast_one, div_one]
      have : ((s.natAbs : ℕ) : ℝ) = -(s:ℝ) := by
        have : ((s.natAbs : ℤ) : ℝ) = ((-s : ℤ) : ℝ) := by congr 1; omega
        simpa using this
      rw [this]; ring
    · have h2 : ¬ s < 0 := by omega
      simp only [h2, decide_false, Bool.false_eq_true, if_false, Nat.cast_one, div_one]
      have : ((s.natAbs : ℕ) : ℝ) = (s:ℝ) := by
        have : ((s.natAbs : ℤ) : ℝ) = ((s : ℤ) : ℝ) := by congr 1; omega
        simpa using this
      rw [this]; ring

theorem sub_eq (a b : F64) : a - b = a + (-b) := rfl

theorem sub_spec {a b : F64} (ha : a.isFin = true) (hb : b.isFin = true) :
    (a - b).isNaN = false ∧ (a - b).val = RN (a.val - b.val) := by
  rw [sub_eq]
  have := add_spec ha (b := -b) (by simpa using hb)
  rwa [val_neg, ← _root_.sub_eq_add_neg] at this

theorem xor_sgn (s t : Bool) (x y : ℝ) :
    (if (s != t) = true then (-1:ℝ) else 1) * (x * y) =
      ((if s = true then (-1:ℝ) else 1) * x) * ((if t = true then (-1:ℝ) else 1) * y) := by
  cases s <;> cases t <;> simp

theorem mul_spec {a b : F64} (ha : a.isFin = true) (hb : b.isFin = true) :
    (a * b).isNaN = false ∧ (a * b).val = RN (a.val * b.val) ∧ (a * b).neg = (a.neg != b.neg) := by
  rw [mul_def]; unfold mul
  rw [isFin_notNaN ha, isFin_notNaN hb, isFin_notInf ha, isFin_notInf hb]
  simp only [Bool.or_self, Bool.false_eq_true, if_false]
  refine ⟨mk'_notNaN _ _ _, ?_, mk'_neg _ _ _⟩
  rw [mk'_val _ _ _ (by positivity)]
  congr 1
  have e : (((a.um * b.um : ℕ) : ℝ) / ((2^1074 : ℕ) : ℝ)) / 2^1074 = |a.val| * |b.val| := by
    rw [← um_val, ← um_val]; push_cast; ring
  rw [mul_div_assoc, e, xor_sgn, sgn_abs_val, sgn_abs_val]

theorem div_spec {a b : F64} (ha : a.isFin = true) (hb : b.isFin = true) (h0 : b.val ≠ 0) :
    (a / b).isNaN = false ∧ (a / b).val = RN (a.val / b.val) ∧ (a / b).neg = (a.neg != b.neg) := by
  rw [div_def]; unfold div
  rw [isFin_notNaN ha, isFin_notNaN hb, isFin_notInf ha, isFin_notInf hb]
  have hz := val_ne_zero.1 h0
  rw [hz]
  simp only [Bool.or_self, Bool.false_eq_true, if_false]
  refine ⟨mk'_notNaN _ _ _, ?_, mk'_neg _ _ _⟩
  have hb0 : 0 < b.um := by
    rcases Nat.eq_zero_or_pos b.um with h | h
    · exfalso
      have : b.mag = 0 := iv_eq_zero.1 h
      rw [← isZero_iff, hz] at this; simp at this
    · exact h
  rw [mk'_val _ _ _ hb0]
  congr 1
  have e : (((a.um * 2^1074 : ℕ) : ℝ) / ((b.um : ℕ) : ℝ)) / 2^1074 = |a.val| * |b.val|⁻¹ := by
    rw [← um_val, ← um_val]; push_cast
    have : (b.um : ℝ) ≠ 0 := by positivity
    field_simp
  rw [mul_div_assoc, e, xor_sgn, sgn_abs_val, div_eq_mul_inv]
  congr 1
  conv_rhs => rw [← sgn_abs_val b, mul_inv]
  congr 1
  cases b.neg <;> simp

theorem int_sgn (i : Int) : (if decide (i < 0) = true then (-1:ℝ) else 1) * (i.natAbs : ℝ) = i := by
  rcases lt_or_ge i 0 with h | h
  · simp only [h, decide_true, if_true]
    have : ((i.natAbs : ℤ) : ℝ) = ((-i : ℤ) : ℝ) := by congr 1; omega
    rw [Int.cast_natCast] at this
    rw [this]; push_cast; ring
  · have h2 : ¬ i < 0 := by omega
    simp only [h2, decide_false, Bool.false_eq_true, if_false]
    have : ((i.natAbs : ℤ) : ℝ) = ((i : ℤ) : ℝ) := by congr 1; omega
    rw [Int.cast_natCast] at this
    rw [this]; ring

theorem ofNat_spec (n : Nat) : (ofNat n).isNaN = false ∧ (ofNat n).val = RN n ∧ (ofNat n).neg = false := by
  unfold ofNat
  refine ⟨mk'_notNaN _ _ _, ?_, mk'_neg _ _ _⟩
  rw [mk'_val _ _ _ (by norm_num)]
  congr 1
  simp only [Bool.false_eq_true, if_false]
  push_cast
  rw [div_one, one_mul, mul_div_assoc, div_self U_pos.ne', mul_one]

theorem ofInt_spec (i : Int) : (ofInt i).isNaN = false ∧ (ofInt i).val = RN i := by
  unfold ofInt
  refine ⟨mk'_notNaN _ _ _, ?_⟩
  rw [mk'_val _ _ _ (by norm_num)]
  congr 1
  have := int_sgn i
  push_cast at this ⊢
  rw [div_one, ← mul_assoc, mul_div_assoc, div_self U_pos.ne', mul_one, int_sgn]

theorem ofRat_spec (q : Rat) : (ofRat q).isNaN = false ∧ (ofRat q).val = RN q := by
  unfold ofRat
  refine ⟨mk'_notNaN _ _ _, ?_⟩
  rw [mk'_val _ _ _ q.den_pos]
  congr 1
  have hd : (q.den : ℝ) ≠ 0 := by exact_mod_cast q.den_nz
  have hq : (q : ℝ) = (q.num : ℝ) / q.den := by
    conv_lhs => rw [← Rat.num_div_den q]
    push_cast; rfl
  rw [hq]; push_cast
  have e : (q.num.natAbs : ℝ) * 2^1074 / q.den = (q.num.natAbs : ℝ) / q.den * 2^1074 := by ring
  rw [e, ← mul_assoc, mul_div_assoc, div_self U_pos.ne', mul_one]
  have hlt : decide (q < 0) = decide (q.num < 0) := by
    simp only [Rat.num_neg]
  rw [hlt, ← mul_div_assoc, int_sgn]

end F64
end Verif
