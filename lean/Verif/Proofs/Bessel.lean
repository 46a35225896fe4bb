import Verif.Model.Bessel
import Verif.Proofs.NumEq
import Verif.LibmSpec
import Verif.Spec

/-! # Lemmas on src/bessel.rs: parity, NaN, recurrences -/

namespace Verif
open F64
set_option linter.unusedSectionVars false
variable [Libm F64] [Cfg]

/-! ## NaN -/

section nan
omit [Libm F64] [Cfg]
theorem nadd_l {a : F64} (h : a.isNaN = true) (b : F64) : (a + b).isNaN = true := by rw [add_nan_left h]; rfl
theorem nadd_r (a : F64) {b : F64} (h : b.isNaN = true) : (a + b).isNaN = true := by rw [add_nan_right h]; rfl
theorem nsub_l {a : F64} (h : a.isNaN = true) (b : F64) : (a - b).isNaN = true := by rw [sub_eq]; exact nadd_l h _
theorem nsub_r (a : F64) {b : F64} (h : b.isNaN = true) : (a - b).isNaN = true := by rw [sub_eq]; exact nadd_r _ (by simpa using h)
theorem nmul_l {a : F64} (h : a.isNaN = true) (b : F64) : (a * b).isNaN = true := by rw [mul_nan_left h]; rfl
theorem nmul_r (a : F64) {b : F64} (h : b.isNaN = true) : (a * b).isNaN = true := by rw [mul_nan_right h]; rfl
theorem ndiv_l {a : F64} (h : a.isNaN = true) (b : F64) : (a / b).isNaN = true := by rw [div_nan_left h]; rfl
theorem ndiv_r (a : F64) {b : F64} (h : b.isNaN = true) : (a / b).isNaN = true := by rw [div_nan_right h]; rfl
theorem nsqrt {a : F64} (h : a.isNaN = true) : (F64.sqrt a).isNaN = true := by
  unfold F64.sqrt; simp [h]
theorem nabs {a : F64} (h : a.isNaN = true) : a.abs.isNaN = true := by simpa using h
theorem nneg {a : F64} (h : a.isNaN = true) : (-a).isNaN = true := by simpa using h
end nan

theorem j0_nan {x : F64} (h : x.isNaN = true) : (j0 x).isNaN = true := by
  unfold j0
  simp only [ar_abs, ar_lt, ar_sqrt]
  rw [lt_nan_left (nabs h), if_neg (by decide)]
  exact nmul_l (nsqrt (ndiv_r _ (nabs h))) _

theorem j1_nan {x : F64} (h : x.isNaN = true) : (j1 x).isNaN = true := by
  unfold j1
  simp only [ar_abs, ar_lt, ar_sqrt]
  rw [lt_nan_left (nabs h), if_neg (by decide)]
  split
  · exact nneg (nmul_l (nsqrt (ndiv_r _ (nabs h))) _)
  · exact nmul_l (nsqrt (ndiv_r _ (nabs h))) _

theorem i0_nan (L : LibmSpec) {x : F64} (h : x.isNaN = true) : (i0 x).isNaN = true := by
  unfold i0
  simp only [ar_abs, ar_lt, ar_sqrt]
  rw [lt_nan_left (nabs h), if_neg (by decide)]
  exact ndiv_l (nmul_l (L.exp_nan _ (nabs h)) _) _

theorem i1_nan (L : LibmSpec) {x : F64} (h : x.isNaN = true) : (i1 x).isNaN = true := by
  unfold i1
  simp only [ar_abs, ar_lt, ar_sqrt]
  rw [lt_nan_left (nabs h), if_neg (by decide)]
  split
  · exact nneg (ndiv_l (nmul_l (L.exp_nan _ h) _) _)
  · exact ndiv_l (nmul_l (L.exp_nan _ h) _) _

/-- not a number, or negative -/
def Bad (x : F64) : Prop := x.isNaN = true ∨ (x.isNaN = false ∧ x.val < 0)

theorem ln_bad (L : LibmSpec) {x : F64} (h : Bad x) : (Libm.ln x).isNaN = true := by
  rcases h with h | ⟨h1, h2⟩
  · exact L.ln_nan _ h
  · exact L.ln_neg _ h1 h2

omit [Libm F64] [Cfg] in
theorem lt_of_bad {x c : F64} (h : x.isNaN = false ∧ x.val < 0) (hc : F64.le 0.0 c = true) : F64.lt x c = true := by
  have := le_iff.1 hc
  rw [Verif.zero_val] at this
  exact lt_iff.2 ⟨h.1, this.2.1, lt_of_lt_of_le h.2 this.2.2⟩

theorem y0_bad (L : LibmSpec) {x : F64} (h : Bad x) : (y0 x).isNaN = true := by
  unfold y0
  simp only [ar_lt, ar_sqrt]
  rcases h with h | h
  · rw [lt_nan_left h, if_neg (by decide)]
    exact nmul_l (nsqrt (ndiv_r _ h)) _
  · rw [lt_of_bad h (by decide +kernel), if_pos rfl]
    exact nadd_r _ (nmul_r _ (ln_bad L (Or.inr h)))

theorem y1_bad (L : LibmSpec) {x : F64} (h : Bad x) : (y1 x).isNaN = true := by
  unfold y1
  simp only [ar_lt, ar_sqrt]
  rcases h with h | h
  · rw [lt_nan_left h, if_neg (by decide)]
    exact nmul_l (nsqrt (ndiv_r _ h)) _
  · rw [lt_of_bad h (by decide +kernel), if_pos rfl]
    exact nadd_r _ (nmul_r _ (nsub_l (nmul_r _ (ln_bad L (Or.inr h))) _))

omit [Libm F64] [Cfg] in
theorem le_of_bad {x c : F64} (h : x.isNaN = false ∧ x.val < 0) (hc : F64.le 0.0 c = true) : F64.le x c = true := by
  have := le_iff.1 hc
  rw [Verif.zero_val] at this
  exact le_iff.2 ⟨h.1, this.2.1, (lt_of_lt_of_le h.2 this.2.2).le⟩

theorem k0_bad (L : LibmSpec) {x : F64} (h : Bad x) : (k0 x).isNaN = true := by
  unfold k0
  simp only [ar_le, ar_sqrt]
  rcases h with h | h
  · rw [le_nan_left h, if_neg (by decide)]
    exact ndiv_l (nmul_l (L.exp_nan _ (nneg h)) _) _
  · rw [le_of_bad h (by decide +kernel), if_pos rfl]
    exact nsub_r _ (ndiv_l (nmul_r _ (ln_bad L (Or.inr h))) _)

theorem k1_bad (L : LibmSpec) {x : F64} (h : Bad x) : (k1 x).isNaN = true := by
  unfold k1
  simp only [ar_le, ar_sqrt]
  rcases h with h | h
  · rw [le_nan_left h, if_neg (by decide)]
    exact ndiv_l (nmul_l (L.exp_nan _ (nneg h)) _) _
  · rw [le_of_bad h (by decide +kernel), if_pos rfl]
    exact nadd_l (nmul_r _ (nadd_r _ (ndiv_l (nmul_r _ (ln_bad L (Or.inr h))) _))) _

omit [Libm F64] [Cfg] in
theorem upMinus_nan {t a b : F64} (ha : a.isNaN = true) (hb : b.isNaN = true) : ∀ k, (upMinus t a b k).1.isNaN = true ∧ (upMinus t a b k).2.isNaN = true
  | 0 => ⟨ha, hb⟩
  | k+1 => ⟨(upMinus_nan ha hb k).2, nsub_r _ (upMinus_nan ha hb k).1⟩

omit [Libm F64] [Cfg] in
theorem upPlus_nan {t a b : F64} (ha : a.isNaN = true) (hb : b.isNaN = true) : ∀ k, (upPlus t a b k).1.isNaN = true ∧ (upPlus t a b k).2.isNaN = true
  | 0 => ⟨ha, hb⟩
  | k+1 => ⟨(upPlus_nan ha hb k).2, nadd_r _ (upPlus_nan ha hb k).1⟩

/-! ## the recurrences -/

omit [Libm F64] [Cfg] in
theorem upMinus_fst (t a b : F64) (k : ℕ) : (upMinus t a b (k+1)).1 = (upMinus t a b k).2 := rfl
omit [Libm F64] [Cfg] in
theorem upPlus_fst (t a b : F64) (k : ℕ) : (upPlus t a b (k+1)).1 = (upPlus t a b k).2 := rfl

omit [Libm F64] [Cfg] in
theorem upMinus_zero (t a b : F64) : (upMinus t a b 0).2 = b := rfl
omit [Libm F64] [Cfg] in
theorem upPlus_zero (t a b : F64) : (upPlus t a b 0).2 = b := rfl

theorem Yn_eq (n : ℕ) (x : F64) : Yn (n+1) x = (upMinus (2.0 / x) (y0 x) (y1 x) n).2 := by
  unfold Yn
  rw [if_neg (by omega)]
  rcases n with _ | n
  · rw [upMinus_zero]; exact if_pos rfl
  · rw [if_neg (by omega), Nat.add_sub_cancel]

theorem Kn_eq (n : ℕ) (x : F64) : Kn (n+1) x = (upPlus (2.0 / x) (k0 x) (k1 x) n).2 := by
  unfold Kn
  rw [if_neg (by omega)]
  rcases n with _ | n
  · rw [upPlus_zero]; exact if_pos rfl
  · rw [if_neg (by omega), Nat.add_sub_cancel]

/-! ## panics of the fractional functions -/

attribute [local irreducible] MAXIT

omit [Libm F64] [Cfg] in
theorem guardTiny_nan {d : F64} (h : d.isNaN = true) : (jyCF1.guardTiny' d).isNaN = true := by
  unfold jyCF1.guardTiny'
  rw [if_neg (by show ¬ F64.lt d.abs FPMIN = true; rw [lt_nan_left (nabs h)]; decide)]; exact h

omit [Libm F64] [Cfg] in
theorem jyCF1_nan (xi2 : F64) : ∀ (k : ℕ) (b d c h : F64) (s : ℤ), b.isNaN = true → jyCF1 xi2 k b d c h s = .error .panic
  | 0, _, _, _, _, _, _ => rfl
  | k+1, b, d, c, h, s, hb => by
    have hb' := nadd_l hb xi2
    rw [jyCF1]
    have hd := guardTiny_nan (nsub_l hb' d)
    have hdel : ((jyCF1.guardTiny' (b + xi2 - 1.0 / c)) * (1.0 / jyCF1.guardTiny' (b + xi2 - d)) - 1.0).abs.isNaN = true :=
      nabs (nsub_l (nmul_r _ (ndiv_r _ hd)) _)
    rw [if_neg (by
      show ¬ F64.le ((jyCF1.guardTiny' (b + xi2 - 1.0 / c)) * (1.0 / jyCF1.guardTiny' (b + xi2 - d)) - 1.0).abs EPS = true
      rw [le_nan_left hdel]; decide)]
    exact jyCF1_nan xi2 k _ _ _ _ _ hb'

omit [Libm F64] [Cfg] in
theorem ikCF1_nan (xi2 : F64) : ∀ (k : ℕ) (b d c h : F64), b.isNaN = true → ikCF1 xi2 k b d c h = .error .panic
  | 0, _, _, _, _, _ => rfl
  | k+1, b, d, c, h, hb => by
    have hb' := nadd_l hb xi2
    rw [ikCF1]
    have hdel : ((b + xi2 + 1.0 / c) * (1.0 / (b + xi2 + d)) - 1.0).abs.isNaN = true :=
      nabs (nsub_l (nmul_l (nadd_l hb' _) _) _)
    rw [if_neg (by show ¬ F64.le ((b + xi2 + 1.0 / c) * (1.0 / (b + xi2 + d)) - 1.0).abs EPS = true; rw [le_nan_left hdel]; decide)]
    exact ikCF1_nan xi2 k _ _ _ _ hb'

theorem besseljy_guard {nu x : F64} (h : F64.le x 0.0 = true ∨ F64.lt nu 0.0 = true) : besseljy nu x = .error .panic := by
  unfold besseljy
  simp only [ar_le, ar_lt]
  exact if_pos (by rcases h with h | h <;> simp [h])

theorem besselik_guard {nu x : F64} (h : F64.le x 0.0 = true ∨ F64.lt nu 0.0 = true) : besselik nu x = .error .panic := by
  unfold besselik
  simp only [ar_le, ar_lt]
  exact if_pos (by rcases h with h | h <;> simp [h])

theorem besseljy_nan {nu x : F64} (h : nu.isNaN = true ∨ x.isNaN = true) : besseljy nu x = .error .panic := by
  have hb : (2.0 * (1.0 / x) * nu).isNaN = true := by
    rcases h with h | h
    · exact nmul_r _ h
    · exact nmul_l (nmul_r _ (ndiv_r _ h)) _
  unfold besseljy
  simp only [ar_le, ar_lt]
  split
  · rfl
  · rw [jyCF1_nan _ _ _ _ _ _ _ hb]; rfl

theorem besselik_nan {nu x : F64} (h : nu.isNaN = true ∨ x.isNaN = true) : besselik nu x = .error .panic := by
  have hb : (2.0 * (1.0 / x) * nu).isNaN = true := by
    rcases h with h | h
    · exact nmul_r _ h
    · exact nmul_l (nmul_r _ (ndiv_r _ h)) _
  unfold besselik
  simp only [ar_le, ar_lt]
  split
  · rfl
  · rw [ikCF1_nan _ _ _ _ _ _ hb]; rfl


/-! ## parity -/

omit [Libm F64] [Cfg] in
theorem Same.mulL {a a' : F64} (h : Same a' (-a)) (b : F64) : Same (a' * b) (-(a * b)) := by
  rcases h with rfl | ⟨h1, h2⟩
  · exact mul_neg_left_same _ _
  · exact Or.inr ⟨nmul_l h1 _, nneg (nmul_l (by simpa using h2) _)⟩

omit [Libm F64] [Cfg] in
theorem Same.divL {a a' : F64} (h : Same a' (-a)) (b : F64) : Same (a' / b) (-(a / b)) := by
  rcases h with rfl | ⟨h1, h2⟩
  · exact div_neg_left_same _ _
  · exact Or.inr ⟨ndiv_l h1 _, nneg (ndiv_l (by simpa using h2) _)⟩

theorem j0_neg (x : F64) : j0 (-x) = j0 x := by
  unfold j0 rat
  simp only [ar_abs, abs_neg', mul_neg_neg]

omit [Libm F64] [Cfg] in
/-- the sign fix-up `if x < 0 { -ans } else { ans }` for a non-zero number -/
theorem sign_fix {x a : F64} (hx : x.isNaN = false) (h0 : x.val ≠ 0) :
    (if F64.lt (-x) 0.0 = true then -a else a) = -(if F64.lt x 0.0 = true then -a else a) := by
  have z0 : (0.0 : F64).isNaN = false := by decide +kernel
  rcases lt_or_gt_of_ne h0 with h | h
  · have a1 : F64.lt x 0.0 = true := lt_iff.2 ⟨hx, z0, by rw [Verif.zero_val]; exact h⟩
    have a2 : ¬ F64.lt (-x) 0.0 = true := by
      rw [Bool.not_eq_true, lt_false_iff (by simpa using hx) z0, Verif.zero_val, val_neg]; linarith
    rw [if_pos a1, if_neg a2, neg_neg']
  · have a1 : ¬ F64.lt x 0.0 = true := by
      rw [Bool.not_eq_true, lt_false_iff hx z0, Verif.zero_val]; linarith
    have a2 : F64.lt (-x) 0.0 = true := lt_iff.2 ⟨by simpa using hx, z0, by rw [Verif.zero_val, val_neg]; linarith⟩
    rw [if_neg a1, if_pos a2]

omit [Libm F64] [Cfg] in
theorem ne_zero_of_not_lt {x c : F64} (hx : x.isNaN = false) (hc : F64.lt 0.0 c = true) (h : ¬ F64.lt x.abs c = true) : x.val ≠ 0 := by
  intro h0
  have := lt_iff.1 hc
  rw [Verif.zero_val] at this
  exact h (lt_iff.2 ⟨by simpa using hx, this.2.1, by rw [F64.val_abs, h0, abs_zero]; exact this.2.2⟩)

theorem j1_neg (x : F64) : Same (j1 (-x)) (-(j1 x)) := by
  rcases hn : x.isNaN with _ | _
  · unfold j1 rat
    simp only [ar_abs, ar_lt, abs_neg', mul_neg_neg]
    by_cases h : F64.lt x.abs 8.0 = true
    · rw [if_pos h, if_pos h]
      exact Same.divL (Same.mulL (Same.mulL (mul_neg_left_same _ _) _) _) _
    · rw [if_neg h, if_neg h]
      exact Or.inl (sign_fix hn (ne_zero_of_not_lt hn (by decide +kernel) h))
  · exact Or.inr ⟨j1_nan (by simpa using hn), nneg (j1_nan hn)⟩

theorem i0_neg (x : F64) : i0 (-x) = i0 x := by
  unfold i0
  simp only [ar_abs, abs_neg', mul_neg_neg]

/-- parity of `i1` where it does not use `exp` -/
theorem i1_neg {x : F64} (h : F64.lt x.abs 15.0 = true) : Same (i1 (-x)) (-(i1 x)) := by
  unfold i1
  simp only [ar_abs, ar_lt, abs_neg', mul_neg_neg]
  rw [if_pos h, if_pos h]
  exact Same.divL (mul_neg_left_same _ _) _

omit [Libm F64] [Cfg] in
theorem sign_fix_odd {x a : F64} (n : ℕ) (hx : x.isNaN = false) (h0 : x.val ≠ 0) :
    (if (F64.lt (-x) 0.0 && decide (n % 2 = 1)) = true then -a else a) =
      if n % 2 = 1 then -(if (F64.lt x 0.0 && decide (n % 2 = 1)) = true then -a else a)
      else (if (F64.lt x 0.0 && decide (n % 2 = 1)) = true then -a else a) := by
  by_cases hn : n % 2 = 1
  · simp only [hn, decide_true, Bool.and_true, if_true]
    exact sign_fix hx h0
  · simp [hn]


/-- the unsigned part of `Jn`, a function of the order and `|x|` -/
def jnMag (n : ℕ) (ax : F64) : M F64 :=
  if F64.lt (F64.ofNat n) ax = true then .ok (upMinus (2.0 / ax) (j0 ax) (j1 ax) (n - 1)).2
  else (jnStart F64 n).bind fun m =>
    .ok ((jnDown (2.0 / ax) n m ⟨0.0, 1.0, 0.0, 0.0, false⟩).ans /
      (2.0 * (jnDown (2.0 / ax) n m ⟨0.0, 1.0, 0.0, 0.0, false⟩).sum - (jnDown (2.0 / ax) n m ⟨0.0, 1.0, 0.0, 0.0, false⟩).bj))

theorem Jn_zero (x : F64) : Jn 0 x = .ok (j0 x) := by unfold Jn; exact if_pos rfl
theorem Jn_one (x : F64) : Jn 1 x = .ok (j1 x) := by
  unfold Jn; rw [if_neg (by decide)]; exact if_pos rfl
theorem Jn_tiny {n : ℕ} {x : F64} (hn : 2 ≤ n) (h : F64.le (x * x) (8.0 * Arith.minPos) = true) : Jn n x = .ok 0.0 := by
  unfold Jn; rw [if_neg (by omega), if_neg (by omega)]; exact if_pos h

theorem Jn_main {n : ℕ} {x : F64} (hn : 2 ≤ n) (h : ¬ F64.le (x * x) (8.0 * Arith.minPos) = true) :
    Jn n x = (jnMag n x.abs).bind fun a => .ok (if (F64.lt x 0.0 && decide (n % 2 = 1)) = true then -a else a) := by
  unfold Jn jnMag
  rw [if_neg (by omega), if_neg (by omega)]
  simp only [ar_le, ar_abs, ar_lt, ar_ofNat]
  rw [if_neg h]
  by_cases hl : F64.lt (F64.ofNat n) x.abs = true
  · rw [if_pos hl, if_pos hl]; rfl
  · rw [if_neg hl, if_neg hl]
    cases jnStart F64 n <;> rfl

/-- the unsigned part of `In` -/
def inMag (n : ℕ) (x : F64) : M F64 :=
  (inStart F64 n).bind fun m =>
    .ok ((inDown (2.0 / x.abs) n (m - 1) ⟨0.0, 1.0, 0.0⟩).ans * (i0 x / (inDown (2.0 / x.abs) n (m - 1) ⟨0.0, 1.0, 0.0⟩).bi))

theorem In_zero (x : F64) : In 0 x = .ok (i0 x) := by unfold In; exact if_pos rfl
theorem In_one (x : F64) : In 1 x = .ok (i1 x) := by
  unfold In; rw [if_neg (by decide)]; exact if_pos rfl
theorem In_tiny {n : ℕ} {x : F64} (hn : 2 ≤ n) (h : F64.le (x * x) (8.0 * Arith.minPos) = true) : In n x = .ok 0.0 := by
  unfold In; rw [if_neg (by omega), if_neg (by omega)]; exact if_pos h

theorem In_main {n : ℕ} {x : F64} (hn : 2 ≤ n) (h : ¬ F64.le (x * x) (8.0 * Arith.minPos) = true) :
    In n x = (inMag n x).bind fun a => .ok (if (F64.lt x 0.0 && decide (n % 2 = 1)) = true then -a else a) := by
  unfold In inMag
  rw [if_neg (by omega), if_neg (by omega)]
  simp only [ar_le, ar_abs, ar_lt]
  rw [if_neg h]
  cases inStart F64 n <;> rfl

theorem inMag_neg (n : ℕ) (x : F64) : inMag n (-x) = inMag n x := by
  unfold inMag; rw [abs_neg', i0_neg]

omit [Libm F64] [Cfg] in
theorem ne_zero_of_sq {x : F64} (hx : x.isNaN = false) (h : ¬ F64.le (x * x) (8.0 * Arith.minPos) = true) : x.val ≠ 0 := by
  intro h0
  have hf := isZero_fin (val_eq_zero.1 h0)
  have S := mul_spec hf hf
  apply h
  have hp := lt_iff.1 (by decide +kernel : F64.lt 0.0 (8.0 * Arith.minPos) = true)
  rw [Verif.zero_val] at hp
  exact le_iff.2 ⟨S.1, hp.2.1, by rw [S.2.1, h0, mul_zero, RN_zero]; exact hp.2.2.le⟩

end Verif
