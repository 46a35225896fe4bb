import Verif.Proofs.Beta

/-!
# `betai` with two equal large parameters at 1/2
-/

namespace Verif
open F64 OIv

def betaBreaks : List F64 :=
  [6000.0, 12000.0, 24000.0, 48000.0, 96000.0, 192000.0, 384000.0, 768000.0, 1536000.0, 3072000.0, 6144000.0, 12288000.0, 24576000.0, 49152000.0, 98304000.0, 196608000.0, 393216000.0, 786432000.0, 1572864000.0, 3145728000.0, 6291456000.0, 12582912000.0, 25165824000.0, 50331648000.0, 100663296000.0, 201326592000.0, 402653184000.0, 805306368000.0, 1610612736000.0, 3221225472000.0, 6442450944000.0, 12884901888000.0, 25769803776000.0, 51539607552000.0, 103079215104000.0, 206158430208000.0, 412316860416000.0, 824633720832000.0, 1649267441664000.0]

def betaQ (I : OIv) : OIv := I * I / ((I + I) * (I + I) * (I + I + 1.0))
def betaE (I : OIv) : OIv := (I - 1.0) * (mk2 (-1.1) (-0.693145) - mk2 (-0.693149) (-0.693145)) + (I - 1.0) * mk2 (-0.7) (-0.34) - mk2 (-0.693149) (-0.693145)

theorem betaQ_cover : cover (fun l h => (betaQ (mk2 l h)).inside 1e-18 1.7e-4 && (betaE (mk2 l h)).inside (-1e18) (-750.0)) (3000.0 :: betaBreaks) = true := by
  decide +kernel

theorem lit_le {a b : F64} (h : F64.le a b = true) : a.val ≤ b.val := (le_iff.1 h).2.2

theorem beta_fold [Libm F64] (x xu a1 b1 lnmu lnmuc : F64) : ∀ l : List (F64 × F64), (∀ yw ∈ l, yw.2 * 0.0 = (0.0 : F64) ∧
      Libm.exp (a1 * (Libm.ln (x + (xu - x) * yw.1) - lnmu) + b1 * Libm.ln (1.0 - (x + (xu - x) * yw.1)) - lnmuc) = 0.0) →
    l.foldl (fun sum yw => sum + yw.2 * Libm.exp (a1 * (Libm.ln (x + (xu - x) * yw.1) - lnmu) + b1 * Libm.ln (1.0 - (x + (xu - x) * yw.1)) - lnmuc)) (0.0 : F64) = 0.0 := by
  intro l
  induction l with
  | nil => intro _; rfl
  | cons yw l ih =>
    intro h
    rw [List.foldl_cons]
    obtain ⟨h1, h2⟩ := h yw (List.mem_cons_self ..)
    rw [h2, h1]
    have : (0.0 : F64) + 0.0 = 0.0 := by decide +kernel
    rw [this]
    exact ih (fun z hz => h z (List.mem_cons_of_mem _ hz))

theorem quadW_zero : (List.zip (quadY : List F64) quadW).all (fun yw => decide (yw.2 * 0.0 = (0.0 : F64))) = true := by decide +kernel

variable [Libm F64]

theorem betaiapprox_eq (a b x : F64) : betaiapprox a b x =
  let a1 := a - 1.0
  let b1 := b - 1.0
  let mu := a / (a + b)
  let lnmu := Libm.ln mu
  let lnmuc := Libm.ln (1.0 - mu)
  let t := F64.sqrt (a * b / ((a + b) * (a + b) * (a + b + 1.0)))
  let fin := fun (xu : F64) =>
    let sum := (List.zip quadY quadW).foldl (fun sum yw =>
      sum + yw.2 * Libm.exp (a1 * (Libm.ln (x + (xu - x) * yw.1) - lnmu) + b1 * Libm.ln (1.0 - (x + (xu - x) * yw.1)) - lnmuc)) 0.0
    let ans := sum * (xu - x) *
      Libm.exp (a1 * lnmu - lnGamma a + b1 * lnmuc - lnGamma b + lnGamma (a + b))
    if F64.lt 0.0 ans then 1.0 - ans else -ans
  if F64.lt (a / (a + b)) x then
    if F64.le 1.0 x then 1.0
    else fin (F64.min 1.0 (F64.max (mu + 10.0 * t) (x + 5.0 * t)))
  else
    if F64.le x 0.0 then 0.0
    else fin (F64.max 0.0 (F64.min (mu - 10.0 * t) (x - 5.0 * t))) := by
  unfold betaiapprox
  simp only [ar_sqrt, ar_lt, ar_le, ar_min, ar_max]

omit [Libm F64] in
theorem half_eq : (0.5 : F64).isFin = true := by decide +kernel

theorem rel_ln_half (A : LibmAcc) : Encl (mk2 (-0.693149) (-0.693145)) (Libm.ln (0.5 : F64)) := by
  have h := A.ln_acc 0.5 half_eq (by rw [half_val]; norm_num)
  rw [half_val, one_div, Real.log_inv, abs_neg, abs_of_pos (Real.log_pos (by norm_num))] at h
  have l1 := Real.log_two_gt_d9
  have l2 := Real.log_two_lt_d9
  have h1 := (abs_le.1 h).1
  have h2 := (abs_le.1 h).2
  have v1 := val_le_of_sv (x := (-0.693149 : F64)) (-6931489) 10000000 (by norm_num) (by decide +kernel)
  have v2 := le_val_of_sv (x := (-0.693145 : F64)) (-6931451) 10000000 (by norm_num) (by decide +kernel)
  push_cast at v1 v2
  norm_num at h1 h2 l1 l2 v1 v2
  exact rel_mk2 (by rw [val_neg]; linarith) (by rw [val_neg]; linarith)

theorem beta_half_zero (A : LibmAcc) {a : F64} (h1 : 3000 < a.val) (h2 : a.val ≤ 2^50) :
    (betaiapprox a a 0.5).isNaN = true ∨ (betaiapprox a a 0.5).isZero = true := by
  have L := A.toLibmSpec
  have v3000 : (3000.0 : F64).val = 3000 := by have := val_of_int (x := (3000.0 : F64)) 3000 (by decide +kernel); rw [this]; norm_num
  have hlast : a.val ≤ (1649267441664000.0 : F64).val := by
    have := val_of_int (x := (1649267441664000.0 : F64)) 1649267441664000 (by decide +kernel); rw [this]; push_cast; linarith
  obtain ⟨lo, hi, hT, hlo, hhi⟩ := cover_two betaQ_cover (x := a) (by rw [v3000]; exact h1.le) hlast
  rw [Bool.and_eq_true] at hT
  have fa : a.isFin = true := abs_fin (b := 2^50) (by linarith) h2 (by norm_num)
  have ra : Encl (mk2 lo hi) a := rel_mk2 hlo hhi
  have o1 : Encl 1.0 (1.0 : F64) := rel_lit _ _ _
  have rq : Encl (betaQ (mk2 lo hi)) (a * a / ((a + a) * (a + a) * (a + a + 1.0))) :=
    rel_div (rel_mul ra ra) (rel_mul (rel_mul (rel_add ra ra) (rel_add ra ra)) (rel_add (rel_add ra ra) o1))
  have Q := rel_inside rq hT.1
  -- mu = 1/2
  have S := add_spec fa fa
  have e2 : RN (a.val + a.val) = 2 * a.val := by
    obtain ⟨m, e, g1, g2, g3, g4⟩ := norm_of_ge_one (a := a) (by linarith)
    have e1 : a.val + a.val = ((m:ℤ):ℝ) * 2^(e+1) := by rw [g1, zpow_add₀ (by norm_num)]; push_cast; rw [zpow_one]; ring
    have e3 : RN (a.val + a.val) = a.val + a.val := by
      rw [e1]
      refine RN_dyadic _ _ (by rw [abs_le]; constructor <;> omega) (by omega) ?_
      rw [← e1, abs_of_nonneg (by linarith)]
      have := HUGE_ge
      have h2 : (2:ℝ)^51 ≤ 10^200 := by norm_num
      linarith
    rw [e3]; ring
  rw [e2] at S
  have fs : (a + a).isFin = true := abs_fin (b := 2^51) (by rw [S.2]; linarith) (by rw [S.2]; linarith) (by norm_num)
  have D := Iv.div_spec' fa fs (by rw [S.2]; linarith)
  have mv : (a / (a + a)).val = 1/2 := by
    rw [D.2, S.2]
    have : a.val / (2 * a.val) = ((1:ℤ):ℝ)/2 := by
      have : a.val ≠ 0 := by linarith
      field_simp; push_cast; ring
    rw [this, RN_half 1 (by norm_num)]; norm_num
  have mu : a / (a + a) = 0.5 := eq_of_val_ne (by rw [mv, half_val]) (by rw [mv]; norm_num)
  have c1 : F64.lt (0.5 : F64) 0.5 = false := by decide +kernel
  have c2 : F64.le (0.5 : F64) 0.0 = false := by decide +kernel
  have c3 : (1.0 : F64) - 0.5 = 0.5 := by decide +kernel
  rw [betaiapprox_eq]
  simp only [mu, c1, c2, c3, Bool.false_eq_true, if_false]
  -- standard deviation
  generalize a * a / ((a + a) * (a + a) * (a + a + 1.0)) = q at *
  have q0 : 0 < q.val := by
    have := (lt_iff.1 (by decide +kernel : F64.lt 0.0 (1e-18 : F64) = true)).2.2
    rw [zero_val] at this; linarith [Q.2.1]
  obtain ⟨s1, s2, s3⟩ := sqrt_spec Q.1 q0
  have sb : (F64.sqrt q).val ≤ (0.0131 : F64).val := by
    rw [s2]
    apply RN_le_of_le (by decide +kernel)
    have v1 := val_le_of_sv (x := (1.7e-4 : F64)) 171 1000000 (by norm_num) (by decide +kernel)
    have v2 := le_val_of_sv (x := (0.0131 : F64)) 13099 1000000 (by norm_num) (by decide +kernel)
    push_cast at v1 v2
    refine le_trans ?_ v2
    rw [Real.sqrt_le_left (by norm_num)]
    refine (Q.2.2.trans v1).trans ?_
    norm_num
  have sn : 0 ≤ (F64.sqrt q).val := by rw [s2]; exact RN_nonneg (Real.sqrt_nonneg _)
  have rs : Encl (mk2 0.0 0.0131) (F64.sqrt q) := rel_mk2 (by rw [zero_val]; exact sn) sb
  generalize F64.sqrt q = s at *
  have r5 : Encl 0.5 (0.5 : F64) := rel_lit _ _ _
  have o10 : Encl 10.0 (10.0 : F64) := rel_lit _ _ _
  have o5 : Encl 5.0 (5.0 : F64) := rel_lit _ _ _
  have u1 := rel_inside (l := 0.36) (h := 0.5) (rel_sub r5 (rel_mul o10 rs)) (by decide +kernel)
  have u2 := rel_inside (l := 0.36) (h := 0.5) (rel_sub r5 (rel_mul o5 rs)) (by decide +kernel)
  obtain ⟨n1, n2⟩ := min_val (isFin_notNaN u1.1) (isFin_notNaN u2.1)
  obtain ⟨n3, n4⟩ := max_val nn_zero n1
  have p36 : 0 < (0.36 : F64).val := by
    have := (lt_iff.1 (by decide +kernel : F64.lt 0.0 (0.36 : F64) = true)).2.2; rwa [zero_val] at this
  have x1 : (0.36 : F64).val ≤ (F64.max 0.0 (F64.min (0.5 - 10.0 * s) (0.5 - 5.0 * s))).val := by
    rw [n4, n2]; exact le_max_of_le_right (le_min u1.2.1 u2.2.1)
  have x2 : (F64.max 0.0 (F64.min (0.5 - 10.0 * s) (0.5 - 5.0 * s))).val ≤ (0.5 : F64).val := by
    rw [n4, n2]; exact max_le (by rw [zero_val, half_val]; norm_num) ((min_le_left _ _).trans u1.2.2)
  generalize F64.max 0.0 (F64.min (0.5 - 10.0 * s) (0.5 - 5.0 * s)) = xu at *
  have rxu : Encl (mk2 0.36 0.5) xu := rel_mk2 x1 x2
  have rlh := rel_ln_half A
  -- the sum vanishes
  rw [beta_fold]
  · have fd := (rel_inside (l := -1.0) (h := 1.0) (rel_sub rxu r5) (by decide +kernel)).1
    generalize Libm.exp (_ : F64) = E
    generalize xu - 0.5 = d at *
    have z1 : ((0.0 : F64) * d).isZero = true := by
      rw [← val_eq_zero, (Iv.mul_spec' zero_fin fd).2, zero_val, zero_mul, RN_zero]
    generalize (0.0 : F64) * d = w at *
    have z2 : (w * E).isNaN = true ∨ (w * E).isZero = true := by
      rcases cases3 E with h | h | h
      · left; rw [mul_nan_right h]; decide
      · left; rw [mul_inf_zero (Or.inr ⟨z1, h⟩)]; decide
      · right
        rw [← val_eq_zero, (Iv.mul_spec' (isZero_fin z1) h).2, val_eq_zero.2 z1, zero_mul, RN_zero]
    generalize w * E = v at *
    have z3 : F64.lt 0.0 v = false := by
      rw [Bool.eq_false_iff]; intro hc
      have := lt_iff.1 hc
      rcases z2 with h | h
      · rw [h] at this; cases this.2.1
      · rw [val_eq_zero.2 h, zero_val] at this; exact lt_irrefl _ this.2.2
    rw [z3, if_neg Bool.false_ne_true]
    rcases z2 with h | h
    · left; rw [isNaN_iff] at h ⊢; exact h
    · right; rw [isZero_iff] at h ⊢; exact h
  · rintro ⟨y, w⟩ hm
    refine ⟨by have := List.all_eq_true.1 quadW_zero _ hm; exact of_decide_eq_true this, ?_⟩
    have T := List.all_eq_true.1 quad_tables.1 _ hm
    simp only [Bool.and_eq_true] at T
    obtain ⟨⟨⟨⟨t1, t2⟩, t3⟩, t4⟩, t5⟩ := T
    have ry : Encl (mk2 0.0 1.0) y := rel_mk2 (le_iff.1 t2).2.2 (le_iff.1 t3).2.2
    have rt := rel_add r5 (rel_mul (rel_sub rxu r5) ry)
    have T1 := rel_inside (l := 0.35) (h := 0.5) rt (by decide +kernel)
    have T2 := rel_inside (l := 0.5) (h := 0.65) (rel_sub o1 rt) (by decide +kernel)
    simp only
    generalize (0.5 : F64) + (xu - 0.5) * y = t at *
    have v35 := le_val_of_sv (x := (0.35 : F64)) 349 1000 (by norm_num) (by decide +kernel)
    have v65 := val_le_of_sv (x := (0.65 : F64)) 651 1000 (by norm_num) (by decide +kernel)
    push_cast at v35 v65
    have t0 : 0 < t.val := by linarith [T1.2.1]
    have thalf : t.val ≤ 1/2 := by rw [← half_val]; exact T1.2.2
    have l1 := Real.log_two_gt_d9
    have l2 := Real.log_two_lt_d9
    have lnt : Encl (mk2 (-1.1) (-0.693145)) (Libm.ln t) := by
      have hu : Real.log t.val ≤ -Real.log 2 := by
        have := Real.log_le_log t0 thalf
        rwa [one_div, Real.log_inv] at this
      have hl : -(106/100) ≤ Real.log t.val := by
        have h3 : ((-(106/100) : ℝ)) ≤ Real.log (349/1000) := by
          have h4 := log_upper (v := (1000/349 : ℝ)) (by norm_num) 106 (d := 100) (by norm_num) (by norm_num)
          have h5 : Real.log (349/1000) = - Real.log (1000/349) := by rw [← Real.log_inv]; norm_num
          rw [h5]; push_cast at h4; linarith
        exact h3.trans (Real.log_le_log (by norm_num) (by linarith [T1.2.1]))
      have h := A.ln_acc t T1.1 t0
      have ha : |Real.log t.val| ≤ 106/100 := by rw [abs_le]; constructor <;> linarith
      have g1 := (abs_le.1 h).1
      have g2 := (abs_le.1 h).2
      have w1 := val_le_of_sv (x := (-1.1 : F64)) (-1099) 1000 (by norm_num) (by decide +kernel)
      have w2 := le_val_of_sv (x := (-0.693145 : F64)) (-6931451) 10000000 (by norm_num) (by decide +kernel)
      push_cast at w1 w2
      generalize |Real.log t.val| = B at *
      norm_num at *
      exact rel_mk2 (by rw [val_neg]; linarith) (by rw [val_neg]; linarith)
    have lnu : Encl (mk2 (-0.7) (-0.34)) (Libm.ln (1.0 - t)) := by
      have T2a := T2.2.1
      rw [half_val] at T2a
      have T2b := T2.2.2.trans v65
      generalize (1.0 : F64) - t = u at *
      have u0 : 0 < u.val := by linarith
      have hl : -Real.log 2 ≤ Real.log u.val := by
        have := Real.log_le_log (by norm_num) T2a
        rwa [one_div, Real.log_inv] at this
      have hu : Real.log u.val ≤ u.val - 1 := Real.log_le_sub_one_of_pos u0
      have h := A.ln_acc u T2.1 u0
      have ha : |Real.log u.val| ≤ 7/10 := by rw [abs_le]; constructor <;> linarith
      have g1 := (abs_le.1 h).1
      have g2 := (abs_le.1 h).2
      have w1 := val_le_of_sv (x := (-0.7 : F64)) (-699) 1000 (by norm_num) (by decide +kernel)
      have w2 := le_val_of_sv (x := (-0.34 : F64)) (-341) 1000 (by norm_num) (by decide +kernel)
      push_cast at w1 w2
      generalize |Real.log u.val| = B at *
      norm_num at *
      exact rel_mk2 (by rw [val_neg]; linarith) (by rw [val_neg]; linarith)
    generalize Libm.ln t = lt at *
    generalize Libm.ln (1.0 - t) = lu at *
    generalize Libm.ln (0.5 : F64) = lh at *
    have rE : Encl (betaE (mk2 lo hi)) ((a - 1.0) * (lt - lh) + (a - 1.0) * lu - lh) :=
      rel_sub (rel_add (rel_mul (rel_sub ra o1) (rel_sub lnt rlh)) (rel_mul (rel_sub ra o1) lnu)) rlh
    have E := rel_inside rE hT.2
    apply A.exp_under _ (isFin_notNaN E.1)
    have v750 : (-750.0 : F64).val = -750 := by have := val_of_int (x := (-750.0 : F64)) (-750) (by decide +kernel); rw [this]; norm_num
    rw [← v750]; exact E.2.2

end Verif
