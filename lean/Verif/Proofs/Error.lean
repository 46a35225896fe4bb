import Verif.Proofs.Beta
import Verif.Model.Error

/-! # Lemmas about erf, erfc (src/error.rs) -/

namespace Verif
open F64 OIv
variable [Libm F64]

omit [Libm F64] in
theorem two_val : (2.0 : F64).val = 2 := by
  have := val_of_int (x := (2.0 : F64)) 2 (by decide +kernel); rw [this]; norm_num
omit [Libm F64] in
theorem nn_two : (2.0 : F64).isNaN = false := by decide +kernel

/-- the Clenshaw loop on intervals -/
def clenshawO (ty : OIv) (cs : List F64) : OIv × OIv := cs.foldl (fun s c => (ty * s.1 - s.2 + pt c, s.1)) (pt 0.0, pt 0.0)

omit [Libm F64] in
theorem rel_clenshaw {I : OIv} {ty : F64} (h : Encl I ty) (cs : List F64) :
    Encl (clenshawO I cs).1 (clenshaw ty cs).1 ∧ Encl (clenshawO I cs).2 (clenshaw ty cs).2 := by
  unfold clenshawO clenshaw
  have : ∀ (S : OIv × OIv) (s : F64 × F64), Encl S.1 s.1 → Encl S.2 s.2 →
      Encl (cs.foldl (fun s c => (I * s.1 - s.2 + pt c, s.1)) S).1 (cs.foldl (clenshawStep ty) s).1 ∧
      Encl (cs.foldl (fun s c => (I * s.1 - s.2 + pt c, s.1)) S).2 (cs.foldl (clenshawStep ty) s).2 := by
    induction cs with
    | nil => intro S s h1 h2; exact ⟨h1, h2⟩
    | cons c cs ih => intro S s h1 h2; exact ih _ _ (rel_add (rel_sub (rel_mul h h1) h2) (rel_pt c)) h1
  exact this _ _ (rel_pt _) (rel_pt _)

omit [Libm F64] in
/-- `2/(2+z)` lies in `[0,1]` for `z ≥ 0` -/
theorem cheb_t {z : F64} (hn : z.isNaN = false) (h0 : 0 ≤ z.val) :
    (2.0 / (2.0 + z)).isFin = true ∧ 0 ≤ (2.0 / (2.0 + z)).val ∧ (2.0 / (2.0 + z)).val ≤ 1 := by
  have f2 : (2.0 : F64).isFin = true := by decide +kernel
  have key : (2.0 + z).isInf = true ∨ ((2.0 + z).isFin = true ∧ 2 ≤ (2.0 + z).val) := by
    rcases fin_or_inf hn with h | h
    · have S := add_spec f2 h
      rcases fin_or_inf S.1 with h' | h'
      · right
        refine ⟨h', ?_⟩
        rw [S.2]
        have := le_RN_of_le (x := (2.0 : F64).val + z.val) nn_two (by linarith)
        rwa [two_val] at this ⊢
      · left; exact h'
    · left
      rw [add_inf_right f2 h]; exact h
  rcases key with h | ⟨h, h2⟩
  · rw [div_inf_right f2 h]
    have := szero_val ((2.0 : F64).neg ^^ (2.0 + z).neg)
    refine ⟨szero_isFin _, ?_, ?_⟩
    · rw [show (szero _).val = 0 from szero_val _]
    · rw [show (szero _).val = 0 from szero_val _]; norm_num
  · have D := Iv.div_spec' f2 h (by linarith)
    have b1 : 0 ≤ (2.0 / (2.0 + z)).val := by
      rw [D.2, two_val]; exact RN_nonneg (by positivity)
    have b2 : (2.0 / (2.0 + z)).val ≤ 1 := by
      rw [D.2, two_val]
      have := RN_le_of_le (x := 2 / (2.0 + z).val) nn_one (by rw [one_val, div_le_one (by linarith)]; exact h2)
      rwa [one_val] at this
    exact ⟨abs_fin (b := 1) (by linarith) b2 (by norm_num), b1, b2⟩

/-- the exponent without `-z*z`: the two parts -/
def chebW (t : OIv) : OIv := 0.5 * (pt ((COF : List F64).headD 0.0) + (4.0 * t - 2.0) * (clenshawO (4.0 * t - 2.0) cofRev).1)
def chebD (t : OIv) : OIv := (clenshawO (4.0 * t - 2.0) cofRev).2

omit [Libm F64] in
theorem cheb_bounds {t : F64} (h0 : 0 ≤ t.val) (h1 : t.val ≤ 1) :
    ((0.5 * ((COF : List F64).headD 0.0 + (4.0 * t - 2.0) * (clenshaw (4.0 * t - 2.0) cofRev).1)).isFin = true ∧
     (-3.0 : F64).val ≤ (0.5 * ((COF : List F64).headD 0.0 + (4.0 * t - 2.0) * (clenshaw (4.0 * t - 2.0) cofRev).1)).val ∧
     (0.5 * ((COF : List F64).headD 0.0 + (4.0 * t - 2.0) * (clenshaw (4.0 * t - 2.0) cofRev).1)).val ≤ (0.25 : F64).val) ∧
    ((clenshaw (4.0 * t - 2.0) cofRev).2.isFin = true ∧ (-0.25 : F64).val ≤ (clenshaw (4.0 * t - 2.0) cofRev).2.val ∧
     (clenshaw (4.0 * t - 2.0) cofRev).2.val ≤ (0.25 : F64).val) := by
  have et : Encl (mk2 0.0 1.0) t := rel_mk2 (by rw [zero_val]; exact h0) (by rw [one_val]; exact h1)
  have o4 : Encl 4.0 (4.0 : F64) := rel_lit _ _ _
  have o2 : Encl 2.0 (2.0 : F64) := rel_lit _ _ _
  have o5 : Encl 0.5 (0.5 : F64) := rel_lit _ _ _
  have ey := rel_sub (rel_mul o4 et) o2
  have ec := rel_clenshaw ey (cofRev : List F64)
  have ew := rel_mul o5 (rel_add (rel_pt ((COF : List F64).headD 0.0)) (rel_mul ey ec.1))
  exact ⟨rel_inside ew (by decide +kernel), rel_inside ec.2 (by decide +kernel)⟩

/-- exp of an argument at most 1/2 is in `[0,2]` -/
theorem exp_le_two (A : LibmAcc) {x : F64} (hn : x.isNaN = false) (h : x.val ≤ 1/2) :
    (Libm.exp x).isFin = true ∧ 0 ≤ (Libm.exp x).val ∧ (Libm.exp x).val ≤ 2 := by
  have hp := val_nonneg_of_neg (A.exp_num x hn).2
  have h2 : (Libm.exp x).val ≤ 2 := by
    rcases le_or_gt x.val 0 with h0 | h0
    · linarith [A.exp_le_one x hn h0]
    · have ha := A.exp_acc x (by rw [abs_of_pos h0]; linarith)
      have he : Real.exp x.val ≤ 1.65 := by
        refine (Real.exp_le_exp.2 h).trans ?_
        have h3 : Real.exp (1/2) * Real.exp (1/2) = Real.exp 1 := by rw [← Real.exp_add]; norm_num
        have h4 := Real.exp_one_lt_d9
        have h5 := Real.exp_pos (1/2)
        by_contra hc
        push Not at hc
        have : (1.65:ℝ) * 1.65 < Real.exp (1/2) * Real.exp (1/2) := mul_lt_mul'' hc hc (by norm_num) (by norm_num)
        norm_num at this h4 ⊢
        linarith
      have := (abs_le.1 ha).2
      have : Real.exp x.val / 10^6 ≤ 0.1 := by
        rw [div_le_iff₀ (by norm_num)]; linarith
      linarith
  exact ⟨abs_fin (b := 2) (by linarith) h2 (by norm_num), hp, h2⟩

/-- the value of `erfccheb` lies in `[0, 2]` -/
theorem erfccheb_range (A : LibmAcc) {z : F64} (hn : z.isNaN = false) (h0 : 0 ≤ z.val) :
    ∃ v, erfccheb z = .ok v ∧ v.isFin = true ∧ 0 ≤ v.val ∧ v.val ≤ 2 := by
  have hle : F64.le 0.0 z = true := le_iff.2 ⟨nn_zero, hn, by rw [zero_val]; exact h0⟩
  unfold erfccheb
  simp only [ar_le]
  rw [if_pos hle]
  obtain ⟨ft, t0, t1⟩ := cheb_t hn h0
  refine ⟨_, rfl, ?_⟩
  generalize 2.0 / (2.0 + z) = t at *
  obtain ⟨⟨wf, w1, w2⟩, ⟨df, d1, d2⟩⟩ := cheb_bounds t0 t1
  generalize 0.5 * ((COF : List F64).headD 0.0 + (4.0 * t - 2.0) * (clenshaw (4.0 * t - 2.0) cofRev).1) = W at *
  generalize (clenshaw (4.0 * t - 2.0) cofRev).2 = D at *
  have q : (0.25 : F64).val = 1/4 := by
    have := val_of_sv (x := (0.25 : F64)) 1 4 (by norm_num) (by decide +kernel); rw [this]; norm_num
  have q' : (-0.25 : F64).val = -(1/4) := by rw [val_neg, q]
  rw [q] at w2 d2
  rw [q'] at d1
  have E : (-(z * z) + W - D).isNaN = false ∧ (-(z * z) + W - D).val ≤ 1/2 := by
    have hz : (z * z).isNaN = false ∧ 0 ≤ (z*z).val := by
      rcases fin_or_inf hn with h | h
      · have := Iv.mul_spec' h h
        exact ⟨this.1, by rw [this.2]; exact RN_nonneg (mul_self_nonneg _)⟩
      · rw [F64.mul_inf hn hn (Or.inl h) (notZero_of_inf h) (notZero_of_inf h)]
        refine ⟨sinf_isNaN _, ?_⟩
        rw [bne_self_eq_false]
        exact val_nonneg_of_neg rfl
    rcases fin_or_inf hz.1 with h | h
    · have S := add_spec (a := -(z*z)) (b := W) (by rw [isFin_neg]; exact h) wf
      have sle : (-(z*z) + W).val ≤ 1/4 := by
        rw [S.2, ← q]
        exact RN_le_of_le (by decide +kernel) (by rw [q, val_neg]; linarith [hz.2])
      rcases fin_or_inf S.1 with h' | h'
      · have S' := sub_spec h' df
        refine ⟨S'.1, ?_⟩
        rw [S'.2, ← half_val]
        exact RN_le_of_le (by decide +kernel) (by rw [half_val]; linarith)
      · rw [sub_eq, add_inf_left h' (val_of_neg (isFin_notNaN df)) (fun hc => by rw [isInf_neg, isFin_notInf df] at hc; cases hc)]
        exact ⟨S.1, by linarith⟩
    · have hi : (-(z*z)).isInf = true := by rw [isInf_neg]; exact h
      rw [add_inf_left hi (isFin_notNaN wf) (fun hc => by rw [isFin_notInf wf] at hc; cases hc), sub_eq,
        add_inf_left hi (val_of_neg (isFin_notNaN df)) (fun hc => by rw [isInf_neg, isFin_notInf df] at hc; cases hc)]
      exact ⟨by rw [isNaN_neg]; exact hz.1, by rw [val_neg]; linarith [hz.2]⟩
  obtain ⟨ef, e0, e2⟩ := exp_le_two A E.1 E.2
  generalize Libm.exp (_ : F64) = X at *
  have P := Iv.mul_spec' ft ef
  have b1 : 0 ≤ (t * X).val := by rw [P.2]; exact RN_nonneg (mul_nonneg t0 e0)
  have b2 : (t * X).val ≤ 2 := by
    rw [P.2, ← two_val]
    exact RN_le_of_le nn_two (by rw [two_val]; nlinarith)
  exact ⟨abs_fin (b := 2) (by linarith) b2 (by norm_num), b1, b2⟩

omit [Libm F64] in
theorem sub_fin_small {a b : F64} (ha : a.isFin = true) (hb : b.isFin = true) : (a - b).isNaN = false ∧ (a - b).val = RN (a.val - b.val) :=
  sub_spec ha hb

end Verif
