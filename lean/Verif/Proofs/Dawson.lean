import Verif.Model.Dawson
import Verif.SpecFun
import Verif.Proofs.Error
import Verif.Proofs.Inst

/-! # Lemmas about dawson (src/dawson.rs) -/

namespace Verif
open F64 OIv

/-! ## oddness -/

theorem F64.Same.trans {a b c : F64} (h1 : Same a b) (h2 : Same b c) : Same a c := by
  rcases h1 with rfl | ⟨h1, h1'⟩
  · exact h2
  · rcases h2 with rfl | ⟨_, h2'⟩
    · exact Or.inr ⟨h1, h1'⟩
    · exact Or.inr ⟨h1, h2'⟩

theorem mul_neg_right_same (a b : F64) : Same (a * -b) (-(a * b)) := by
  rw [mul_comm' a (-b), mul_comm' a b]; exact mul_neg_left_same b a

theorem same_mul {a b : F64} (h : Same a b) (s : F64) : Same (a * s) (b * s) := by
  rcases h with rfl | ⟨h1, h2⟩
  · exact Or.inl rfl
  · exact Or.inl (by rw [mul_nan_left h1, mul_nan_left h2])

theorem sign_neg_right (a b : F64) : sign a (-b) = -(sign a b) := by
  unfold sign
  show (if (!(!b.neg)) = true then a.abs else -a.abs) = -(if (!b.neg) = true then a.abs else -a.abs)
  cases b.neg
  · rfl
  · show a.abs = - -a.abs
    rw [neg_neg']

section
variable [Libm F64] [Cfg]

theorem dawsonTail_neg (x xx h : F64) (n : ℕ) : Same (dawsonTail (-x) xx h n) (-(dawsonTail x xx h n)) := by
  unfold dawsonTail
  simp only [sign_neg_right]
  exact (same_mul (mul_neg_right_same _ _) _).trans (mul_neg_left_same _ _)

/-! ## branches -/

theorem dawson_small {x : F64} (h : F64.lt x.abs 0.2 = true) :
    dawson x = .ok (x * (1.0 - 2.0 / 3.0 * (x * x) * (1.0 - 0.4 * (x * x) * (1.0 - 2.0 / 7.0 * (x * x))))) := by
  unfold dawson; exact if_pos h

theorem dawson_large {x : F64} (h : F64.lt x.abs 0.2 = false) :
    dawson x = (fun n => dawsonTail x x.abs 0.4 n) <$> wrapU U64_MAX (2 * toUnsigned U64_MAX (0.5 * x.abs / 0.4 + 0.5)) := by
  unfold dawson
  refine (if_neg (ne_true_of_eq_false h)).trans ?_
  simp only [ar_toU, ar_abs]
  cases wrapU U64_MAX (2 * toUnsigned U64_MAX (0.5 * x.abs / 0.4 + 0.5)) <;> rfl

end


/-! ## magnitude bounds -/

/-- `2^-p ≤ a ≤ 2^p` -/
def Bd (a : F64) (p : ℕ) : Prop := ((2:ℝ)^p)⁻¹ ≤ a.val ∧ a.val ≤ 2^p

theorem pow2_le {p : ℕ} (h : p ≤ 600) : (2:ℝ)^p ≤ 10^200 :=
  (pow_le_pow_right₀ (by norm_num) h).trans (by exact_mod_cast (by decide +kernel : 2^600 ≤ 10^200))

theorem fin_pow2 {a : F64} {p : ℕ} (hp : p ≤ 600) (h : |a.val| ≤ 2^p) : a.isFin = true :=
  abs_fin (abs_le.1 h).1 (abs_le.1 h).2 (pow2_le hp)

theorem Bd.pos {a : F64} {p : ℕ} (h : Bd a p) : 0 < a.val := lt_of_lt_of_le (by positivity) h.1
theorem Bd.fin {a : F64} {p : ℕ} (h : Bd a p) (hp : p ≤ 600) : a.isFin = true :=
  fin_pow2 hp (by rw [abs_of_pos h.pos]; exact h.2)

theorem Bd.mul {a b : F64} {p q : ℕ} (ha : Bd a p) (hb : Bd b q) (h : p + q ≤ 600) : Bd (a * b) (p + q) := by
  have S := (Iv.mul_spec' (ha.fin (by omega)) (hb.fin (by omega))).2
  unfold Bd
  rw [S]
  constructor
  · rw [← RN_inv_pow2 (p := p + q) (by omega)]
    refine RN_mono ?_
    rw [pow_add, mul_inv]
    exact mul_le_mul ha.1 hb.1 (by positivity) ha.pos.le
  · rw [← RN_pow2 (p := p + q) (by omega)]
    refine RN_mono ?_
    rw [pow_add]
    exact mul_le_mul ha.2 hb.2 hb.pos.le (by positivity)

theorem abs_RN_le_pow2 {r : ℝ} {p : ℕ} (hp : p ≤ 1020) (h : |r| ≤ 2^p) : |RN r| ≤ 2^p := by
  rw [RN_abs, ← RN_pow2 hp]; exact RN_mono h

theorem mul_bound {a b : F64} {p q : ℕ} (ha : |a.val| ≤ 2^p) (hb : |b.val| ≤ 2^q) (h : p + q ≤ 600) : |(a * b).val| ≤ 2^(p+q) := by
  rw [(Iv.mul_spec' (fin_pow2 (by omega) ha) (fin_pow2 (by omega) hb)).2]
  refine abs_RN_le_pow2 (by omega) ?_
  rw [abs_mul, pow_add]
  exact mul_le_mul ha hb (abs_nonneg _) (by positivity)

theorem add_bound {a b : F64} {p : ℕ} (ha : |a.val| ≤ 2^p) (hb : |b.val| ≤ 2^p) (h : p ≤ 599) : |(a + b).val| ≤ 2^(p+1) := by
  rw [(add_spec (fin_pow2 (by omega) ha) (fin_pow2 (by omega) hb)).2]
  refine abs_RN_le_pow2 (by omega) ((abs_add_le _ _).trans ?_)
  rw [pow_succ]; linarith

/-- dividing by something at least `2^-q` in magnitude -/
theorem div_bound {a b : F64} {p q : ℕ} (ha : |a.val| ≤ 2^p) (hb : ((2:ℝ)^q)⁻¹ ≤ |b.val|) (fb : b.isFin = true) (h : p + q ≤ 600) :
    |(a / b).val| ≤ 2^(p+q) := by
  have hb0 : 0 < |b.val| := lt_of_lt_of_le (by positivity) hb
  rw [(Iv.div_spec' (fin_pow2 (by omega) ha) fb (abs_pos.1 hb0)).2]
  refine abs_RN_le_pow2 (by omega) ?_
  rw [abs_div, pow_add, div_le_iff₀ hb0]
  calc |a.val| ≤ 2^p := ha
    _ = 2^p * 2^q * ((2:ℝ)^q)⁻¹ := by field_simp
    _ ≤ 2^p * 2^q * |b.val| := by gcongr

/-! ## the Rybicki sum -/

section
variable [Libm F64] [Cfg]

/-- the state of the loop after `k` iterations, for `n0 ≤ 2^57` -/
structure DawInv (n0 k : ℕ) (s : F64 × F64 × F64 × F64) : Prop where
  d1a : 1 ≤ s.1.val
  d1b : s.1.val ≤ 2^(58 + k)
  d2 : (s.2.1.val = (((n0:ℤ) - 1 - 2 * k : ℤ) : ℝ) ∧ n0 ≤ 2^52) ∨ ((2:ℝ)^51 - 2 * k ≤ s.2.1.val ∧ s.2.1.val ≤ 2^58)
  e1 : Bd s.2.2.1 (15 + 30 * k)
  sum : |s.2.2.2.val| ≤ 2^(196 + k)

theorem d2_bounds {n0 k : ℕ} (hn : Even n0) (hk : k ≤ 6) {d : F64}
    (h : (d.val = (((n0:ℤ) - 1 - 2 * k : ℤ) : ℝ) ∧ n0 ≤ 2^52) ∨ ((2:ℝ)^51 - 2 * k ≤ d.val ∧ d.val ≤ 2^58)) :
    1 ≤ |d.val| ∧ |d.val| ≤ 2^58 := by
  rcases h with ⟨h, h'⟩ | ⟨h1, h2⟩
  · rw [h]
    obtain ⟨m, hm⟩ := hn
    constructor
    · have : 1 ≤ |(n0:ℤ) - 1 - 2 * k| := by
        apply Int.one_le_abs; omega
      exact_mod_cast this
    · have : |(n0:ℤ) - 1 - 2 * k| ≤ 2^58 := by rw [abs_le]; omega
      exact_mod_cast this
  · have hk' : (k:ℝ) ≤ 6 := by exact_mod_cast hk
    have : 1 ≤ d.val := by
      have : (13:ℝ) ≤ 2^51 := by norm_num
      linarith
    rw [abs_of_pos (by linarith)]
    exact ⟨this, h2⟩


/-- the weights `exp(-((2i+1)h)²)` -/
theorem cval_arg {i : ℕ} (hi : i < 6) :
    (-((2.0 * F64.ofNat i + 1.0) * 0.4 * ((2.0 * F64.ofNat i + 1.0) * 0.4)) : F64).isNaN = false ∧
    (-((2.0 * F64.ofNat i + 1.0) * 0.4 * ((2.0 * F64.ofNat i + 1.0) * 0.4)) : F64).neg = true := by
  have : ∀ i : Fin 6, (-((2.0 * F64.ofNat i + 1.0) * 0.4 * ((2.0 * F64.ofNat i + 1.0) * 0.4)) : F64).isNaN = false ∧
    (-((2.0 * F64.ofNat i + 1.0) * 0.4 * ((2.0 * F64.ofNat i + 1.0) * 0.4)) : F64).neg = true := by decide +kernel
  exact this ⟨i, hi⟩

theorem exp_unit (L : LibmSpec) {x : F64} (hn : x.isNaN = false) (h : x.val ≤ 0) : |(Libm.exp x).val| ≤ 1 := by
  rw [abs_of_nonneg (val_nonneg_of_neg (L.exp_num x hn).2)]; exact L.exp_le_one x hn h

theorem dawson_step (L : LibmSpec) {n0 k : ℕ} (hn : Even n0) (hk : k < 6) {e2 : F64} (he : Bd e2 30) {s : F64 × F64 × F64 × F64}
    (h : DawInv n0 k s) : DawInv n0 (k+1) (dawsonStep 0.4 e2 k s) := by
  obtain ⟨d1, d2, e1, sum⟩ := s
  obtain ⟨h1, h2, h3, h4, h5⟩ := h
  simp only at h1 h2 h3 h4 h5
  unfold dawsonStep
  simp only [ar_ofNat]
  have hc := cval_arg hk
  have hc := exp_unit L hc.1 (val_nonpos_of_neg hc.2)
  set c := Libm.exp (-((2.0 * F64.ofNat k + 1.0) * 0.4 * ((2.0 * F64.ofNat k + 1.0) * 0.4)) : F64) with hcd
  clear_value c
  have f1 : d1.isFin = true := fin_pow2 (p := 58 + k) (by omega) (by rw [abs_of_pos (by linarith)]; exact h2)
  have b2 := d2_bounds hn (by omega) h3
  have f2 : d2.isFin = true := fin_pow2 (p := 58) (by omega) b2.2
  have ftwo : (2.0 : F64).isFin = true := by decide +kernel
  have n1 : (d1 + 2.0).val = RN (d1.val + 2) := by rw [(add_spec f1 ftwo).2, two_val]
  have n2 : (d2 - 2.0).val = RN (d2.val - 2) := by rw [(sub_spec f2 ftwo).2, two_val]
  have g1 : 1 ≤ (d1 + 2.0).val := by
    rw [n1, ← RN_one]; exact RN_mono (by linarith)
  have g1' : (d1 + 2.0).val ≤ 2^(58 + (k+1)) := by
    rw [n1, ← RN_pow2 (p := 58 + (k+1)) (by omega)]
    refine RN_mono ?_
    have : (2:ℝ) ≤ 2^(58 + k) := by
      have : (2:ℝ)^1 ≤ 2^(58+k) := pow_le_pow_right₀ (by norm_num) (by omega)
      simpa using this
    rw [← add_assoc, pow_succ]; linarith
  have g2 : ((d2 - 2.0).val = (((n0:ℤ) - 1 - 2 * (k+1 : ℕ) : ℤ) : ℝ) ∧ n0 ≤ 2^52) ∨
      ((2:ℝ)^51 - 2 * (k+1 : ℕ) ≤ (d2 - 2.0).val ∧ (d2 - 2.0).val ≤ 2^58) := by
    rcases h3 with ⟨h, h'⟩ | ⟨h, h'⟩
    · left
      refine ⟨?_, h'⟩
      rw [n2, h, show ((((n0:ℤ) - 1 - 2 * k : ℤ) : ℝ)) - 2 = (((n0:ℤ) - 1 - 2 * (k+1 : ℕ) : ℤ) : ℝ) by push_cast; ring]
      exact RN_int _ (by rw [abs_le]; omega)
    · right
      rw [n2]
      constructor
      · have e : (2:ℝ)^51 - 2 * (k+1 : ℕ) = (((2^51 - 2 * (k+1) : ℤ)) : ℝ) := by push_cast; ring
        rw [e, ← RN_int (2^51 - 2 * (k+1)) (by rw [abs_le]; omega)]
        refine RN_mono ?_
        rw [← e]; push_cast; linarith
      · rw [← RN_pow2 (p := 58) (by omega)]
        exact RN_mono (by linarith)
  have b2' := d2_bounds hn (by omega) g2
  have f2' : (d2 - 2.0).isFin = true := fin_pow2 (p := 58) (by omega) b2'.2
  have f1' : (d1 + 2.0).isFin = true := fin_pow2 (p := 58 + (k+1)) (by omega) (by rw [abs_of_pos (by linarith)]; exact g1')
  have g3 : Bd (e1 * e2) (15 + 30 * (k+1)) := by
    have := h4.mul he (by omega)
    exact this
  set E := e1 * e2 with hE
  have hb1 : |(E / (d1 + 2.0)).val| ≤ 2^(195 + 0) := by
    refine div_bound ?_ ?_ f1' (by omega)
    · rw [abs_of_pos g3.pos]
      exact g3.2.trans (pow_le_pow_right₀ (by norm_num) (by omega))
    · rw [abs_of_pos (by linarith)]; simpa using g1
  have fE := g3.fin (by omega)
  have hb2 : ((2:ℝ)^195)⁻¹ ≤ |((d2 - 2.0) * E).val| := by
    rw [(Iv.mul_spec' f2' fE).2, RN_abs, ← RN_inv_pow2 (p := 195) (by omega)]
    refine RN_mono ?_
    rw [abs_mul, abs_of_pos g3.pos]
    have l1 : ((2:ℝ)^195)⁻¹ ≤ ((2:ℝ)^(15 + 30 * (k+1)))⁻¹ := inv_anti₀ (by positivity) (pow_le_pow_right₀ (by norm_num) (by omega))
    calc ((2:ℝ)^195)⁻¹ ≤ E.val := l1.trans g3.1
      _ = 1 * E.val := (one_mul _).symm
      _ ≤ |(d2 - 2.0).val| * E.val := by gcongr; exact g3.pos.le; exact b2'.1
  have hb3 : |((d2 - 2.0) * E).val| ≤ 2^(58 + 195) := by
    refine mul_bound b2'.2 ?_ (by omega)
    rw [abs_of_pos g3.pos]
    exact g3.2.trans (pow_le_pow_right₀ (by norm_num) (by omega))
  have hb4 : |(1.0 / ((d2 - 2.0) * E)).val| ≤ 2^(0 + 195) :=
    div_bound (by rw [one_val]; norm_num) hb2 (fin_pow2 (by omega) hb3) (by omega)
  have hb5 := add_bound hb1 (by simpa using hb4) (by omega)
  have hb6 : |(c * (E / (d1 + 2.0) + 1.0 / ((d2 - 2.0) * E))).val| ≤ 2^(0 + (195 + 0 + 1)) := mul_bound (by simpa using hc) hb5 (by omega)
  refine ⟨g1, g1', g2, g3, ?_⟩
  have := add_bound (p := 196 + k) h5 (hb6.trans (pow_le_pow_right₀ (by norm_num) (by omega))) (by omega)
  exact this

theorem dawson_fold (L : LibmSpec) {n0 : ℕ} (hn : Even n0) {e2 : F64} (he : Bd e2 30) {s : F64 × F64 × F64 × F64}
    (h : DawInv n0 0 s) : ∀ k, k ≤ 6 → DawInv n0 k ((List.range k).foldl (fun s i => dawsonStep 0.4 e2 i s) s) := by
  intro k
  induction k with
  | zero => intro _; exact h
  | succ k ih =>
    intro hk
    rw [List.range_succ, List.foldl_append]
    exact dawson_step L hn (by omega) he (ih (by omega))

omit [Libm F64] [Cfg] in
theorem inv_sqrt_pi_unit : |(1.0 / F64.sqrt Arith.pi : F64).val| ≤ 1 := by
  have h : F64.le (1.0 / F64.sqrt Arith.pi : F64) 1.0 = true ∧ (1.0 / F64.sqrt Arith.pi : F64).neg = false := by decide +kernel
  rw [abs_of_nonneg (val_nonneg_of_neg h.2)]
  have := (le_iff.1 h.1).2.2
  rwa [one_val] at this

theorem dawsonTail_fin (L : LibmSpec) {x xx : F64} {n0 : ℕ} (hn : Even n0) (hn2 : n0 ≤ 2^57)
    (hxp : |(xx - F64.ofNat n0 * 0.4).val| ≤ 2^4) (he : Bd (Libm.exp (2.0 * (xx - F64.ofNat n0 * 0.4) * 0.4)) 15) :
    (dawsonTail x xx 0.4 n0).isFin = true := by
  unfold dawsonTail
  simp only [ar_ofNat, ar_sqrt]
  set xp := xx - F64.ofNat n0 * 0.4
  set e1 := Libm.exp (2.0 * xp * 0.4)
  have N := ofNat_spec n0
  have hN1 : (F64.ofNat n0).val ≤ 2^57 := by
    rw [N.2.1, ← RN_pow2 (p := 57) (by omega)]; exact RN_mono (by exact_mod_cast hn2)
  have hN0 : 0 ≤ (F64.ofNat n0).val := by rw [N.2.1]; exact RN_nonneg (by positivity)
  have fN : (F64.ofNat n0).isFin = true := fin_pow2 (p := 57) (by omega) (by rw [abs_of_nonneg hN0]; exact hN1)
  have fone : (1.0 : F64).isFin = true := by decide +kernel
  have ftwo : (2.0 : F64).isFin = true := by decide +kernel
  have D1 : (F64.ofNat n0 + 1.0).val = RN ((F64.ofNat n0).val + 1) := by rw [(add_spec fN fone).2, one_val]
  have a1 : 1 ≤ (F64.ofNat n0 + 1.0).val := by rw [D1, ← RN_one]; exact RN_mono (by rw [RN_one]; linarith)
  have a2 : (F64.ofNat n0 + 1.0).val ≤ 2^58 := by
    rw [D1, ← RN_pow2 (p := 58) (by omega)]; exact RN_mono (by linarith)
  have fD1 : (F64.ofNat n0 + 1.0).isFin = true := fin_pow2 (p := 58) (by omega) (by rw [abs_of_pos (by linarith)]; exact a2)
  have D2 : (F64.ofNat n0 + 1.0 - 2.0).val = RN ((F64.ofNat n0 + 1.0).val - 2) := by rw [(sub_spec fD1 ftwo).2, two_val]
  have inv0 : DawInv n0 0 (F64.ofNat n0 + 1.0, F64.ofNat n0 + 1.0 - 2.0, e1, 0.0) := by
    refine ⟨a1, by simpa using a2, ?_, by simpa using he, ?_⟩
    · simp only
      by_cases hc : n0 ≤ 2^52
      · left
        refine ⟨?_, hc⟩
        rw [D2, D1, N.2.1, RN_nat n0 (by omega), show ((n0:ℝ) + 1) = ((n0 + 1 : ℕ) : ℝ) by push_cast; ring, RN_nat (n0+1) (by omega),
          show (((n0 + 1 : ℕ) : ℝ) - 2) = (((n0:ℤ) - 1 : ℤ) : ℝ) by push_cast; ring, RN_int _ (by rw [abs_le]; omega)]
        push_cast; ring
      · right
        rw [D2]
        have hN2 : (2:ℝ)^52 ≤ (F64.ofNat n0).val := by
          rw [N.2.1, ← RN_pow2 (p := 52) (by omega)]
          exact RN_mono (by have : 2^52 ≤ n0 := by omega
                            exact_mod_cast this)
        have hD : (2:ℝ)^52 ≤ (F64.ofNat n0 + 1.0).val := by
          rw [D1, ← RN_pow2 (p := 52) (by omega)]; exact RN_mono (by linarith)
        constructor
        · have : (2:ℝ)^51 ≤ RN ((F64.ofNat n0 + 1.0).val - 2) := by
            rw [← RN_pow2 (p := 51) (by omega)]; exact RN_mono (by linarith)
          simpa using this
        · rw [← RN_pow2 (p := 58) (by omega)]; exact RN_mono (by linarith)
    · simp only [Verif.zero_val, abs_zero]; positivity
  have inv6 := (dawson_fold L hn (he.mul he (by omega)) inv0 6 (le_refl _)).sum
  set S := ((List.range 6).foldl (fun s i => dawsonStep 0.4 (e1 * e1) i s) (F64.ofNat n0 + 1.0, F64.ofNat n0 + 1.0 - 2.0, e1, 0.0)).2.2.2
  have fxp : xp.isFin = true := fin_pow2 (p := 4) (by omega) hxp
  have hq := mul_spec (a := -xp) (b := xp) (by simpa using fxp) fxp
  have hexp : |(Libm.exp (-xp * xp)).val| ≤ 2^0 := by
    rw [pow_zero]
    refine exp_unit L hq.1 ?_
    rw [hq.2.1, val_neg]
    exact RN_nonpos (by nlinarith [sq_nonneg xp.val])
  have hsg : |(sign (Libm.exp (-xp * xp)) x).val| ≤ 2^0 := by
    have : (sign (Libm.exp (-xp * xp)) x).mag = (Libm.exp (-xp * xp)).mag := by
      unfold sign; split <;> rfl
    rw [abs_val, this, ← abs_val]; exact hexp
  have u := inv_sqrt_pi_unit
  have m1 := mul_bound (p := 0) (by simpa using u) hsg (by omega)
  have m2 := mul_bound m1 inv6 (by omega)
  exact fin_pow2 (by omega) m2


omit [Libm F64] [Cfg] in
theorem rn_e {r B : ℝ} (h : |r| ≤ B) (hB : B ≤ 10^30) : |RN r - r| ≤ B / 2^53 + 1 / 1000 := by
  have hH : |r| < HUGE := lt_of_le_of_lt (h.trans hB) (lt_of_lt_of_le (by norm_num) HUGE_ge)
  have h1 := RN_err' hH
  have h2 : (1:ℝ) / 2^1075 ≤ 1 / 1000 := by
    apply one_div_le_one_div_of_le (by norm_num)
    have : (2:ℝ)^10 ≤ 2^1075 := pow_le_pow_right₀ (by norm_num) (by norm_num)
    exact le_trans (by norm_num) this
  have h3 : |r| / 2^53 ≤ B / 2^53 := by gcongr
  exact h1.trans (add_le_add h3 h2)

omit [Libm F64] [Cfg] in
theorem h_val : (0.3999 : ℝ) ≤ (0.4 : F64).val ∧ (0.4 : F64).val ≤ 0.4001 ∧ (0.4 : F64).isFin = true := by
  have h := val_of_sv (x := (0.4 : F64)) 3602879701896397 9007199254740992 (by norm_num) (by decide +kernel)
  rw [h]
  exact ⟨by norm_num, by norm_num, by decide +kernel⟩

omit [Libm F64] [Cfg] in
/-- the real analysis of the reduction `xp = |x| - n0·h` -/
theorem xp_bound {X H q1 q2 q3 N p xp : ℝ} {n : ℕ} (hX0 : 0 ≤ X) (hX : X ≤ 2^54) (hH : 0.3999 ≤ H) (hH' : H ≤ 0.4001)
    (e1 : q1 = RN (1/2 * X)) (e2 : q2 = RN (q1 / H)) (e3 : q3 = RN (q2 + 1/2)) (e4 : n = ⌊q3⌋₊)
    (e5 : N = RN ((2 * n : ℕ) : ℝ)) (e6 : p = RN (N * H)) (e7 : xp = RN (X - p)) : 2 * n ≤ 2^57 ∧ |xp| ≤ 12 ∧ 0 ≤ q3 ∧ q3 ≤ 2^56 := by
  have Hp : 0 < H := by linarith
  have b1 := rn_e (r := 1/2 * X) (B := 2^53) (by rw [abs_of_nonneg (by positivity)]; linarith) (by norm_num)
  rw [← e1] at b1
  have q1p : 0 ≤ q1 := by rw [e1]; exact RN_nonneg (by positivity)
  have hd : |q1 / H| ≤ 2.51 * 2^53 := by
    rw [abs_of_nonneg (by positivity), div_le_iff₀ Hp]
    rw [abs_le] at b1
    nlinarith
  have b2 := rn_e hd (by norm_num)
  rw [← e2] at b2
  have q2p : 0 ≤ q2 := by rw [e2]; exact RN_nonneg (by positivity)
  have hq2 : |q2 + 1/2| ≤ 2.6 * 2^53 := by
    rw [abs_of_nonneg (by positivity)]
    rw [abs_le] at b2 hd
    have := hd.2; have := b2.2
    norm_num at *; linarith
  have b3 := rn_e hq2 (by norm_num)
  rw [← e3] at b3
  have q3p : 0 ≤ q3 := by rw [e3]; exact RN_nonneg (by positivity)
  have f1 := Nat.floor_le q3p
  have f2 := Nat.lt_floor_add_one q3
  rw [← e4] at f1 f2
  have q3u : q3 ≤ 2.7 * 2^53 := by
    rw [abs_le] at b3 hq2
    have := hq2.2; have := b3.2
    norm_num at *; linarith
  have hn0 : |((2 * n : ℕ) : ℝ)| ≤ 5.4 * 2^53 := by
    rw [abs_of_nonneg (by positivity)]; push_cast
    norm_num at *; linarith
  have b5 := rn_e hn0 (by norm_num)
  rw [← e5] at b5
  -- distance of `n0·H` from `X`
  have dq : |q1 / H * H - X / 2| ≤ 1.1 := by
    rw [div_mul_cancel₀ _ Hp.ne']
    rw [abs_le] at b1 ⊢
    norm_num at *; constructor <;> linarith
  have mulH : ∀ {a b : ℝ}, |a| ≤ b → |a * H| ≤ b * 0.4001 := fun {a b} h => by
    rw [abs_mul, abs_of_pos Hp]
    have : 0 ≤ b := (abs_nonneg _).trans h
    exact mul_le_mul h hH' Hp.le this
  have t2 := mulH b2
  have t3 := mulH b3
  have t5 := mulH b5
  have t4 : |((n:ℝ) - q3) * H| ≤ 1 * 0.4001 := mulH (by rw [abs_le]; constructor <;> linarith)
  have dN : |N * H - X| ≤ 9.8 := by
    have e : N * H - X = (N - ((2 * n : ℕ) : ℝ)) * H + 2 * ((n - q3) * H) + 2 * ((q3 - (q2 + 1/2)) * H) + 2 * ((q2 - q1 / H) * H)
        + H + 2 * (q1 / H * H - X / 2) := by push_cast; ring
    rw [e]
    clear e
    rw [abs_le] at *
    norm_num at *
    constructor <;> linarith
  have hNH : |N * H| ≤ 2^54 + 10 := by
    rw [abs_le] at *; norm_num at *; constructor <;> linarith
  have b6 := rn_e hNH (by norm_num)
  rw [← e6] at b6
  refine ⟨?_, ?_, q3p, ?_⟩
  · have : ((2 * n : ℕ) : ℝ) ≤ 2^57 := by rw [abs_le] at hn0; norm_num at *; linarith
    exact_mod_cast this
  · rw [e7]
    refine RN_abs_le_int 12 (by norm_num) ?_
    rw [abs_le] at *; norm_num at *; constructor <;> linarith
  · norm_num at *; linarith

end

end Verif
