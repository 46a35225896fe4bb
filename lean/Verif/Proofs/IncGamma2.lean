import Verif.Proofs.IncGamma
import Verif.LibmSpec

/-! # Incomplete gamma: sign of the series, the NaN region, `invgammp` -/

namespace Verif
open F64
variable [Libm F64]

/-! ## sign of `gser` -/

theorem exp_ps (L : LibmSpec) (x : F64) : PS (Libm.exp x) := by
  rcases h : x.isNaN with _ | _
  · exact PN.ps (L.exp_num x h)
  · exact Or.inl (L.exp_nan x h)

omit [Libm F64] in
theorem one_pn : PN (1.0 : F64) := by decide +kernel

omit [Libm F64] in
theorem gserLoop_ps {x : F64} (hx : PS x) : ∀ (n : Nat) (ap del sum : F64), PS ap → PS del → PS sum → PS (gserLoop x n ap del sum) := by
  intro n
  induction n with
  | zero => intro _ _ _ _ _ h; exact h
  | succ n ih =>
    intro ap del sum h1 h2 h3
    have h1' : PS (ap + 1.0) := add_ps h1 one_pn.ps
    have h2' : PS (del * (x / (ap + 1.0))) := mul_ps h2 (div_ps hx h1')
    have h3' := add_ps h3 h2'
    unfold gserLoop
    simp only
    split
    · exact h3'
    · exact ih _ _ _ h1' h2' h3'

theorem gser_ps (L : LibmSpec) {a x : F64} (ha : PN a) (hx : PN x) : PS (gser a x) := by
  have hs : PS (gserLoop x 10000 a (1.0 / a) (1.0 / a)) := gserLoop_ps hx.ps _ _ _ _ ha.ps (div_ps one_pn.ps ha.ps) (div_ps one_pn.ps ha.ps)
  unfold gser
  simp only
  split
  · exact mul_ps hs (Or.inr rfl)
  · split
    · exact Or.inr (by decide +kernel)
    · exact mul_ps hs (exp_ps L _)

/-! ## the region where the quadrature interval has its ends the wrong way round -/

omit [Libm F64] in
theorem nn_of_lit {x : F64} (h : x.isFin = true) : x.isNaN = false := isFin_notNaN h

omit [Libm F64] in
theorem abs_fin {x : F64} {b : ℝ} (h1 : -b ≤ x.val) (h2 : x.val ≤ b) (hb : b ≤ 10^200) : x.isFin = true :=
  isFin_of_abs (abs_le.2 ⟨h1, h2⟩) hb

omit [Libm F64] in
/-- for `100 ≤ a`, `1 ≤ x ≤ a - 1` the end point `xu` is below `x` -/
theorem xu_lt {a x : F64} (h1 : 100 ≤ a.val) (h2 : a.val ≤ 2^52) (hx1 : 1 ≤ x.val) (hx2 : x.val ≤ a.val - 1) :
    let a1 := a - 1.0
    let xu := gammpXu a1 x (F64.sqrt a1)
    xu.isFin = true ∧ 0 ≤ xu.val ∧ xu.val < x.val := by
  have hH : (2:ℝ)^54 ≤ 10^200 := by norm_num
  have fa : a.isFin = true := abs_fin (b := 2^54) (by linarith) (by linarith) hH
  have fx : x.isFin = true := abs_fin (b := 2^54) (by linarith) (by linarith) hH
  obtain ⟨f1, e1⟩ := sub_one_f64 (z := a) (by linarith) (by linarith)
  intro a1 xu
  have e1 : a1.val = a.val - 1 := e1
  have f1 : a1.isFin = true := f1
  obtain ⟨s1, s2, s3⟩ := sqrt_spec f1 (by rw [e1]; linarith)
  have s4 : 9 ≤ (F64.sqrt a1).val := by
    rw [s2]
    have := RN_ge_int (r := Real.sqrt a1.val) 9 (by norm_num) (by
      push_cast
      apply Real.le_sqrt_of_sq_le
      rw [e1]; linarith)
    push_cast at this; exact this
  have s5 : (F64.sqrt a1).val ≤ 2^52 := by
    rw [s2]
    have := RN_le_int (r := Real.sqrt a1.val) (2^52) (by norm_num) (by
      push_cast
      rw [Real.sqrt_le_left (by positivity), e1]
      linarith)
    push_cast at this; linarith
  have fs : (F64.sqrt a1).isFin = true := abs_fin (b := 2^54) (by linarith) (by linarith) hH
  have m75 : (7.5 : F64).isFin = true := by decide +kernel
  have v75 : (7.5 : F64).val = 15/2 := by
    have := val_of_sv (x := (7.5 : F64)) 15 2 (by norm_num) (by decide +kernel); rw [this]; norm_num
  have m5 : (5.0 : F64).isFin = true := by decide +kernel
  have v5 : (5.0 : F64).val = 5 := by
    have := val_of_int (x := (5.0 : F64)) 5 (by decide +kernel); rw [this]; norm_num
  obtain ⟨p1, p2⟩ := Iv.mul_spec' m75 fs
  obtain ⟨q1, q2⟩ := Iv.mul_spec' m5 fs
  have bnd : ∀ r : ℝ, |r| ≤ 2^56 → |RN r| ≤ 2^56 := by
    intro r hr
    rw [RN_abs, ← RN_pow2 (p := 56) (by norm_num)]; exact RN_mono hr
  have hH' : (2:ℝ)^57 ≤ 10^200 := by norm_num
  have fp : (7.5 * F64.sqrt a1).isFin = true :=
    isFin_of_abs (b := 2^56) (by rw [p2, v75]; exact bnd _ (by rw [abs_of_nonneg (by linarith)]; linarith)) (by norm_num)
  have fq : (5.0 * F64.sqrt a1).isFin = true :=
    isFin_of_abs (b := 2^56) (by rw [q2, v5]; exact bnd _ (by rw [abs_of_nonneg (by linarith)]; linarith)) (by norm_num)
  have q3 : 1 ≤ (5.0 * F64.sqrt a1).val := by
    rw [q2, v5]
    have := RN_ge_int (r := 5 * (F64.sqrt a1).val) 1 (by norm_num) (by push_cast; linarith)
    push_cast at this; exact this
  obtain ⟨u1, u2⟩ := sub_spec f1 fp
  obtain ⟨w1, w2⟩ := sub_spec fx fq
  have w3 : (x - 5.0 * F64.sqrt a1).val ≤ x.val - 1 := by
    rw [w2, ← RN_sub_one hx1 (by linarith)]; exact RN_mono (by linarith)
  have hlt : F64.lt a1 x = false := (lt_false_iff (isFin_notNaN f1) (isFin_notNaN fx)).2 (by rw [e1]; exact hx2)
  have hxu : xu = F64.max 0.0 (F64.min (a1 - 7.5 * F64.sqrt a1) (x - 5.0 * F64.sqrt a1)) := by
    show gammpXu a1 x (F64.sqrt a1) = _
    unfold gammpXu
    rw [ar_lt, hlt, if_neg Bool.false_ne_true]; rfl
  obtain ⟨n1, n2⟩ := min_val u1 w1
  obtain ⟨n3, n4⟩ := max_val (nn_of_lit zero_fin) n1
  have hv : xu.val = Max.max 0 (Min.min (a1 - 7.5 * F64.sqrt a1).val (x - 5.0 * F64.sqrt a1).val) := by
    rw [hxu, n4, zero_val, n2]
  have hv0 : 0 ≤ xu.val := by rw [hv]; exact le_max_left _ _
  have hv1 : xu.val < x.val := by
    rw [hv]; refine max_lt (by linarith) (lt_of_le_of_lt (min_le_right _ _) (by linarith))
  exact ⟨abs_fin (b := 2^54) (by linarith) (by linarith) hH, hv0, hv1⟩

theorem gammpapproxAns_nan (L : LibmSpec) {a x : F64} (h1 : 100 ≤ a.val) (h2 : a.val ≤ 2^52) (hx1 : 1 ≤ x.val) (hx2 : x.val ≤ a.val - 1) :
    (gammpapproxAns a x).isNaN = true := by
  obtain ⟨f, h0, hlt⟩ := xu_lt h1 h2 hx1 hx2
  have fx : x.isFin = true := abs_fin (b := 2^54) (by linarith) (by linarith) (by norm_num)
  unfold gammpapproxAns
  simp only [ar_sqrt, ar_lt]
  obtain ⟨g1, g2⟩ := sub_spec f fx
  have hneg : (gammpXu (a - 1.0) x (F64.sqrt (a - 1.0)) - x).val < 0 := by
    rw [g2]
    refine lt_of_le_of_ne (RN_nonpos (by linarith)) ?_
    intro hc
    rw [RN_sub_eq_zero] at hc; linarith
  have hn := L.ln_neg _ g1 hneg
  generalize Libm.ln (gammpXu (a - 1.0) x (F64.sqrt (a - 1.0)) - x) = l at hn
  rw [add_nan_right hn, add_nan_left (a := nan) (by decide)]
  rw [lt_nan_right (by decide), if_neg Bool.false_ne_true, lt_nan_left (by decide), if_neg Bool.false_ne_true]
  exact L.exp_nan _ (by decide)

omit [Libm F64] in
theorem lit_EPS_fin : (EPS : F64).isFin = true := by decide +kernel
omit [Libm F64] in
theorem lit_EPS_val : (EPS : F64).val = 2^(-52:ℤ) := by
  have := val_of_sv (x := (EPS : F64)) 1 (2^52) (by norm_num) (by decide +kernel); rw [this]; norm_num

omit [Libm F64] in
theorem toU_ge {a : F64} (hf : a.isFin = true) (h : 100 ≤ a.val) : 100 ≤ F64.toUnsigned USIZE_MAX a := by
  rw [toUnsigned_spec hf (by linarith)]
  have : 100 ≤ ⌊a.val⌋₊ := Nat.le_floor (by exact_mod_cast h)
  exact Nat.le_min.2 ⟨this, by decide⟩

/-- the regime chosen in the region `100 ≤ a ≤ 2^52`, `a/4 ≤ x ≤ a-1` -/
theorem regime_quad {a x : F64} (h1 : 100 ≤ a.val) (h2 : a.val ≤ 2^52) (hx1 : a.val / 4 ≤ x.val) (hx2 : x.val ≤ a.val - 1) :
    gammp a x = .ok (gammpapproxP a x) ∧ gammq a x = .ok (gammpapproxQ a x) := by
  have hH : (2:ℝ)^54 ≤ 10^200 := by norm_num
  have fa : a.isFin = true := abs_fin (b := 2^54) (by linarith) (by linarith) hH
  have fx : x.isFin = true := abs_fin (b := 2^54) (by linarith) (by linarith) hH
  have hv : (F64.le 0.0 x && F64.lt 0.0 a) = true := valid_iff.2 ⟨⟨isFin_notNaN fx, by linarith⟩, isFin_notNaN fa, by linarith⟩
  have c1 : F64.eq x 0.0 = false := by
    rw [Bool.eq_false_iff]; intro hc; rw [eq_iff, zero_val] at hc; linarith [hc.2.2]
  obtain ⟨m1, m2⟩ := Iv.mul_spec' fa lit_EPS_fin
  have c2 : F64.lt x (a * EPS) = false := by
    rw [lt_false_iff (isFin_notNaN fx) m1, m2, lit_EPS_val]
    have := RN_le_int (r := a.val * 2^(-52:ℤ)) 1 (by norm_num) (by
      push_cast
      rw [zpow_neg, ← div_eq_mul_inv, div_le_one (by positivity)]; exact h2)
    push_cast at this; linarith
  have c3 : F64.lt (a + 20.0 * (F64.sqrt a + 1.0)) x = false := by
    have ff := far_fin fa (by linarith)
    rw [lt_false_iff (isFin_notNaN ff) (isFin_notNaN fx)]
    have : a.val ≤ (a + 20.0 * (F64.sqrt a + 1.0)).val := by
      obtain ⟨s1, s2, s3⟩ := sqrt_spec fa (by linarith)
      have p1 : PN (F64.sqrt a + 1.0) := add_pn ⟨s1, s3⟩ one_pn
      have p2 : PS (20.0 * (F64.sqrt a + 1.0)) := mul_ps (Or.inr (by decide +kernel)) p1.ps
      have h20 : (20.0 * (F64.sqrt a + 1.0)).isFin = true := by
        by_contra hc
        rcases cases3 (20.0 * (F64.sqrt a + 1.0)) with h | h | h
        · rw [add_nan_right h] at ff; simp at ff
        · rw [add_inf_right fa h, isInf_notFin h] at ff; cases ff
        · exact hc h
      rw [(add_spec fa h20).2]
      refine le_RN_of_le (isFin_notNaN fa) ?_
      have := (p2.pn (isFin_notNaN h20)).val
      linarith
    linarith
  have lit02 : (0.2 : F64).isFin = true := by decide +kernel
  have v02 : (0.2 : F64).val ≤ 1/4 := by
    have := val_le_of_sv (x := (0.2 : F64)) 1 4 (by norm_num) (by decide +kernel)
    push_cast at this; exact this
  have c4 : F64.lt x (0.2 * a) = false := by
    obtain ⟨g1, g2⟩ := Iv.mul_spec' lit02 fa
    rw [lt_false_iff (isFin_notNaN fx) g1, g2]
    refine RN_le_of_le (isFin_notNaN fx) ?_
    nlinarith
  have c5 := toU_ge fa h1
  rw [gammp_eq hv, gammq_eq hv, c1, c2, c3, c4]
  simp only [Bool.false_eq_true, if_false, c5, if_true, and_self]

/-! ## `invgammp` -/

theorem invgammp_eq (p a : F64) : invgammp p a =
    if F64.lt 0.0 a then
      if F64.le 1.0 p then .ok (F64.max 100.0 (a + 100.0 * F64.sqrt a))
      else if F64.le p 0.0 then .ok 0.0
      else
        let g := invgammpGuess p a (a - 1.0) (Libm.ln (a - 1.0)) (lnGamma a)
        invgammpLoop p a (a - 1.0) (Libm.ln (a - 1.0)) (lnGamma a) g.2 12 g.1
    else .error .panic := rfl

omit [Libm F64] in
/-- the update of the iterate is non-negative or NaN -/
theorem step_nonneg {x t : F64} (hx : F64.le x 0.0 = false) :
    let y := x - t
    let z := if F64.le y 0.0 then 0.5 * (y + t) else y
    z.isNaN = true ∨ 0 ≤ z.val := by
  intro y z
  rcases hy : F64.le y 0.0 with _ | _
  · have hz : z = y := by show (if F64.le y 0.0 then _ else y) = y; rw [hy]; rfl
    rw [hz]
    rcases hn : y.isNaN with _ | _
    · right
      rw [le_false_iff hn (nn_of_lit zero_fin), zero_val] at hy; exact hy.le
    · exact Or.inl rfl
  · have hz : z = 0.5 * (y + t) := by show (if F64.le y 0.0 then _ else y) = _; rw [hy]; rfl
    rw [hz]
    have hyn := (le_iff.1 hy).1
    have hyv : y.val ≤ 0 := by have := (le_iff.1 hy).2.2; rwa [zero_val] at this
    have htn : t.isNaN = false := by
      rcases h : t.isNaN with _ | _
      · rfl
      · have : y = nan := sub_nan_right h
        rw [this] at hyn; cases hyn
    have hxn : x.isNaN = false := by
      rcases h : x.isNaN with _ | _
      · rfl
      · have : y = nan := sub_nan_left h
        rw [this] at hyn; cases hyn
    rw [le_false_iff hxn (nn_of_lit zero_fin), zero_val] at hx
    have hm : ∀ w : F64, (w.isNaN = true ∨ 0 ≤ w.val) → ((0.5 : F64) * w).isNaN = true ∨ 0 ≤ ((0.5 : F64) * w).val := by
      intro w hw
      rcases cases3 w with h | h | h
      · left; rw [mul_nan_right h]; decide
      · rcases hw with hw | hw
        · left; rw [mul_nan_right hw]; decide
        right
        rw [mul_inf (by decide +kernel) (isInf_notNaN h) (Or.inr h) (by decide +kernel) (notZero_of_inf h)]
        have hwn : w.neg = false := by
          have h3 := isInf_iff_val.1 h
          rw [abs_of_nonneg hw] at h3
          exact neg_of_val_pos (by rw [h3]; exact HUGE_pos)
        rw [hwn]; exact val_nonneg_of_neg (by decide +kernel)
      · right
        rw [(Iv.mul_spec' (a := 0.5) (by decide +kernel) h).2]
        apply RN_nonneg
        rcases hw with hw | hw
        · rw [isFin_notNaN h] at hw; cases hw
        · have : 0 ≤ (0.5 : F64).val := val_nonneg_of_neg (by decide +kernel)
          positivity
    apply hm
    rcases fin_or_inf htn with ft | ft
    · rcases fin_or_inf hxn with fx | fx
      · have e := sub_spec fx ft
        have hge : -t.val ≤ y.val := by
          show -t.val ≤ (x - t).val
          rw [e.2, ← val_neg]
          exact le_RN_of_le (val_of_neg htn) (by rw [val_neg]; linarith)
        rcases fin_or_inf hyn with fy | fy
        · right
          rw [(add_spec fy ft).2]; exact RN_nonneg (by linarith)
        · exfalso
          have h3 := isInf_iff_val.1 fy
          rw [abs_of_nonpos hyv] at h3
          have := fin_lt ft
          linarith
      · exfalso
        have : y = x := by
          show x + -t = x
          exact add_inf_left fx (val_of_neg htn) (fun h => by rw [isInf_iff] at h; have := isFin_iff.1 ft; exact absurd h this.ne)
        rw [this] at hyv; linarith
    · rcases fin_or_inf hxn with fx | fx
      · have e : y = -t := by
          show x + -t = -t
          exact add_inf_right fx (by rw [isInf_iff] at ft ⊢; exact ft)
        left
        rw [e, add_inf_nan (by rw [isInf_iff] at ft ⊢; exact ft) ft (by show (!t.neg) ≠ t.neg; cases t.neg <;> decide)]
        decide
      · exfalso
        have hxneg : x.neg = false := neg_of_val_pos hx
        by_cases h : x.neg = (-t).neg
        · have : y = x := by
            show x + -t = x
            exact add_inf_left fx (val_of_neg htn) (fun _ => h)
          rw [this] at hyv; linarith
        · have : y = nan := by
            show x + -t = nan
            exact add_inf_nan fx (by rw [isInf_iff] at ft ⊢; exact ft) h
          rw [this] at hyn; cases hyn

omit [Libm F64] in
theorem ite_ok {c : Bool} {z v : F64} {m : M F64} (h : (if c = true then .ok z else m) = (.ok v : M F64)) : z = v ∨ m = .ok v := by
  cases c
  · exact Or.inr h
  · left; cases h; rfl

theorem invgammpLoop_nonneg (p a a1 lna1 gln afac : F64) : ∀ (n : Nat) (x v : F64),
    (n = 0 → x.isNaN = true ∨ 0 ≤ x.val) → invgammpLoop p a a1 lna1 gln afac n x = .ok v → v.isNaN = true ∨ 0 ≤ v.val := by
  intro n
  induction n with
  | zero => intro x v h hv; cases hv; exact h rfl
  | succ n ih =>
    intro x v _ hv
    unfold invgammpLoop at hv
    simp only [ar_le, ar_lt, ar_abs, ar_max, ar_min] at hv
    rcases hx : F64.le x 0.0 with _ | _
    · rw [hx, if_neg Bool.false_ne_true] at hv
      rcases hg : gammp a x with e | g
      · rw [hg] at hv; cases hv
      · rw [hg] at hv
        simp only [bind, Except.bind] at hv
        rcases ite_ok hv with h | h
        · rw [← h]; exact step_nonneg hx
        · exact ih _ _ (fun _ => step_nonneg hx) h
    · rw [hx, if_pos rfl] at hv; cases hv; right; rw [zero_val]

end Verif
