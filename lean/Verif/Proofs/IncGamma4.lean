import Verif.Proofs.Gcf

/-! # `gcf` and the quadrature return numbers -/

namespace Verif
open F64 OIv

theorem RN_near {r : ℝ} (h : |r| ≤ 2^10) : |RN r - r| ≤ 1/8 := by
  have b := RN_err' (x := r) (lt_of_le_of_lt h (by
      have := HUGE_ge
      have h2 : (2:ℝ)^11 ≤ 10^200 := by norm_num
      have h3 : (2:ℝ)^10 < 2^11 := by norm_num
      linarith))
  refine b.trans ((add_le_add_right small_1075 _).trans ?_)
  clear b
  have : |r| / 2^53 ≤ 2^10 / 2^53 := div_le_div_of_nonneg_right h (by positivity)
  refine (add_le_add_left this _).trans ?_
  norm_num

theorem gcf_init {a x : F64} (ha0 : 0 < a.val) (ha1 : a.val ≤ 100) (hx : (a + 1.0).val ≤ x.val) (hx2 : x.val ≤ 400) :
    GcfInv 1 (x + 1.0 - a) (1.0 / FPMIN) (1.0 / (x + 1.0 - a)) (1.0 / (x + 1.0 - a)) := by
  have fa : a.isFin = true := abs_fin (b := 100) (by linarith) ha1 (by norm_num)
  have A := add_spec fa one_fin
  rw [one_val] at A
  have n1 := abs_le.1 (RN_near (r := a.val + 1) (by rw [abs_of_pos (by linarith)]; linarith))
  rw [← A.2] at n1
  have fx : x.isFin = true := abs_fin (b := 400) (by linarith) hx2 (by norm_num)
  have X := add_spec fx one_fin
  rw [one_val] at X
  have n2 := abs_le.1 (RN_near (r := x.val + 1) (by rw [abs_of_pos (by linarith)]; linarith))
  rw [← X.2] at n2
  have fX : (x + 1.0).isFin = true := abs_fin (b := 500) (by linarith) (by linarith) (by norm_num)
  have B := sub_spec fX fa
  have n3 := abs_le.1 (RN_near (r := (x + 1.0).val - a.val) (by rw [abs_of_pos (by linarith)]; linarith))
  rw [← B.2] at n3
  have fB : (x + 1.0 - a).isFin = true := abs_fin (b := 500) (by linarith) (by linarith) (by norm_num)
  have b1 : 3/2 ≤ (x + 1.0 - a).val := by linarith
  have b2 : (x + 1.0 - a).val ≤ 402 := by linarith
  have D := Iv.div_spec' one_fin fB (by linarith)
  rw [one_val] at D
  have d1 : (1:ℝ) / 402 ≤ 1 / (x + 1.0 - a).val := one_div_le_one_div_of_le (by linarith) b2
  have d2 : 1 / (x + 1.0 - a).val ≤ 1 := by rw [div_le_one (by linarith)]; linarith
  have d3 : (1.0 / (x + 1.0 - a)).val ≤ 1 := by
    rw [D.2]; have := RN_le_int (r := 1 / (x + 1.0 - a).val) 1 (by norm_num) (by push_cast; exact d2); push_cast at this; exact this
  have d4 : 0 < (1.0 / (x + 1.0 - a)).val := by
    rw [D.2]
    have h3 : RN (1 / 2^30) ≤ RN (1 / (x + 1.0 - a).val) := by
      apply RN_mono
      exact le_trans (by norm_num) d1
    rw [one_div, RN_inv_pow2 (by norm_num)] at h3
    exact lt_of_lt_of_le (by positivity) h3
  have fD : (1.0 / (x + 1.0 - a)).isFin = true := abs_fin (b := 1) (by linarith) d3 (by norm_num)
  have c1 : (0.5 : F64).val ≤ ((1.0 : F64) / FPMIN).val := (le_iff.1 (by decide +kernel : F64.le 0.5 ((1.0 : F64) / FPMIN) = true)).2.2
  have v5 : (0.5 : F64).val = 1/2 := by
    have := val_of_sv (x := (0.5 : F64)) 1 2 (by norm_num) (by decide +kernel); rw [this]; norm_num
  refine ⟨fB, by push_cast; linarith, by push_cast; linarith, by decide +kernel, by push_cast; linarith, fD, d4, by push_cast; linarith, by linarith, pn_of_pos (isFin_notNaN fD) d4⟩

variable [Libm F64]

omit [Libm F64] in
theorem exp_lo : (2.718281828:ℝ) ≤ Real.exp 1 := by have := Real.exp_one_gt_d9; linarith
omit [Libm F64] in
theorem exp_hi : Real.exp 1 ≤ (2.718281829:ℝ) := by have := Real.exp_one_lt_d9; linarith

omit [Libm F64] in
theorem log_upper {v : ℝ} (h0 : 0 < v) (n : ℕ) {d : ℕ} (hd : d ≠ 0) (h : v^d ≤ (2.718281828:ℝ)^n) : Real.log v ≤ n / d := by
  have h1 : v^d ≤ Real.exp 1 ^ n := h.trans (pow_le_pow_left₀ (by norm_num) exp_lo n)
  have h2 := Real.log_le_log (by positivity) h1
  rw [Real.log_pow, Real.log_pow, Real.log_exp, mul_one] at h2
  rw [le_div_iff₀ (by positivity)]; linarith

omit [Libm F64] in
theorem log_lower {v : ℝ} (h0 : 0 < v) (n : ℕ) {d : ℕ} (hd : d ≠ 0) (h : (2.718281829:ℝ)^n ≤ v^d) : (n:ℝ) / d ≤ Real.log v := by
  have h1 : Real.exp 1 ^ n ≤ v^d := (pow_le_pow_left₀ (Real.exp_pos 1).le exp_hi n).trans h
  have h2 := Real.log_le_log (by positivity) h1
  rw [Real.log_pow, Real.log_pow, Real.log_exp, mul_one] at h2
  rw [div_le_iff₀ (by positivity)]; linarith

/-- upper bound for the libm logarithm -/
theorem ln_upper (A : LibmAcc) {x : F64} {u : ℝ} (hf : x.isFin = true) (h0 : 0 < x.val) (hu0 : 0 ≤ u) (hu : Real.log x.val ≤ u) :
    (Libm.ln x).val ≤ u + (1 + u) / 10^6 := by
  have h := A.ln_acc x hf h0
  rw [abs_le] at h
  rcases le_or_gt 0 (Real.log x.val) with hs | hs
  · rw [abs_of_nonneg hs] at h; norm_num at h ⊢; linarith
  · have := (abs_le.1 (A.ln_num x hf h0).2)
    rcases le_or_gt x.val 1 with h1 | h1
    · have := A.ln_le x hf h0 h1
      have : 0 ≤ (1 + u) / 10^6 := by positivity
      linarith
    · have := Real.log_pos h1; linarith

theorem ln_lower (A : LibmAcc) {x : F64} {l : ℝ} (hf : x.isFin = true) (h0 : 0 < x.val) (hl : l ≤ Real.log x.val) :
    l - (1 + |l|) / 10^6 ≤ (Libm.ln x).val := by
  have h := (abs_le.1 (A.ln_acc x hf h0)).1
  have h1 : Real.log x.val - |Real.log x.val| / 10^6 ≥ l - |l| / 10^6 := by
    rcases abs_cases l with ⟨e, c⟩ | ⟨e, c⟩ <;> rcases abs_cases (Real.log x.val) with ⟨e', c'⟩ | ⟨e', c'⟩ <;> rw [e, e'] <;> norm_num <;> linarith
  rw [add_div] at h ⊢
  linarith

/-- the exponent of `gcf` does not exceed 700 -/
theorem gcf_logResult (A : LibmAcc) {a x : F64} (ha : (5.551115123125784e-17 : F64).val ≤ a.val) (ha2 : a.val ≤ 100) (hx : 1 ≤ x.val) (hx2 : x.val ≤ 330) :
    (-x + a * Libm.ln x - lnGamma a).isFin = true ∧ (-x + a * Libm.ln x - lnGamma a).val ≤ 700 := by
  have v100 : (100.0 : F64).val = 100 := by have := val_of_int (x := (100.0 : F64)) 100 (by decide +kernel); rw [this]; norm_num
  have v1 : (1e300 : F64).val ≥ (100.0 : F64).val := (le_iff.1 (by decide +kernel : F64.le 100.0 (1e300 : F64) = true)).2.2
  have v330 : (330.0 : F64).val = 330 := by have := val_of_int (x := (330.0 : F64)) 330 (by decide +kernel); rw [this]; norm_num
  have v0 : 0 < (5.551115123125784e-17 : F64).val := by
    have := (lt_iff.1 (by decide +kernel : F64.lt 0.0 (5.551115123125784e-17 : F64) = true)).2.2
    rwa [zero_val] at this
  obtain ⟨s1, s2, s3⟩ := lan_bounds ha (by linarith)
  have hp := half_pos
  have fx : x.isFin = true := abs_fin (b := 330) (by linarith) hx2 (by norm_num)
  have v5 : (0.5 : F64).val = 1/2 := by
    have := val_of_sv (x := (0.5 : F64)) 1 2 (by norm_num) (by decide +kernel); rw [this]; norm_num
  have q : ∀ x : F64, x = F64.sqrt (2.0 * Arith.pi) → x.isFin = true ∧ 1 ≤ x.val := by
    intro x hx
    subst hx
    refine ⟨by decide +kernel, ?_⟩
    have : F64.le 1.0 (F64.sqrt (2.0 * Arith.pi)) = true := by decide +kernel
    have := (le_iff.1 this).2.2
    rwa [one_val] at this
  obtain ⟨q1, q2⟩ := q _ rfl
  -- logarithms
  have rx : Encl (mk2 0.0 5.8125) (Libm.ln x) := by
    have v6 : (5.8125 : F64).val = 93/16 := by
      have := val_of_sv (x := (5.8125 : F64)) 93 16 (by norm_num) (by decide +kernel); rw [this]; norm_num
    refine rel_mk2 ?_ ?_
    · rw [zero_val]; exact A.ln_ge x fx hx
    · have h1 : Real.log x.val ≤ (29:ℕ) / (5:ℕ) := by
        refine log_upper (by linarith) 29 (by norm_num) ?_
        refine (pow_le_pow_left₀ (by linarith) hx2 5).trans ?_
        norm_num
      have := ln_upper A fx (by linarith) (by positivity) h1
      rw [v6]; refine this.trans ?_; norm_num
  have r1 : Encl (mk2 0.0 746.0) (Libm.ln (F64.sqrt (2.0 * Arith.pi))) := by
    have e := rel_inside (l := -746.0) (h := 746.0) (rel_ln A.toLibmSpec q1 (by linarith)) (by decide +kernel)
    exact rel_mk2 (by rw [zero_val]; exact A.ln_ge _ q1 q2) e.2.2
  have r2 : Encl (mk2 (-1.0) 746.0) (Libm.ln (lanczosSum (a - 1.0) + lg5n7Head)) := by
    have e := rel_inside (l := -746.0) (h := 746.0) (rel_ln A.toLibmSpec s1 (by linarith)) (by decide +kernel)
    refine rel_mk2 ?_ e.2.2
    have h1 : -(3/4 : ℝ) ≤ Real.log (lanczosSum (a - 1.0) + lg5n7Head).val := by
      have h2 := Real.log_le_log (by norm_num : (0:ℝ) < 1/2) (by rw [← v5]; exact s2 : (1:ℝ)/2 ≤ (lanczosSum (a - 1.0) + lg5n7Head).val)
      rw [one_div, Real.log_inv] at h2
      have := Real.log_two_lt_d9
      linarith
    have h3 := ln_lower A s1 (by linarith) h1
    rw [val_neg, one_val]
    refine le_trans ?_ h3
    rw [abs_neg, abs_of_pos (by norm_num)]; norm_num
  have e : lnGamma a = Libm.ln (F64.sqrt (2.0 * Arith.pi)) + Libm.ln (lanczosSum (a - 1.0) + lg5n7Head) - (a - 1.0 + 5.0 + 0.5)
      + Libm.ln (a - 1.0 + 5.0 + 0.5) * (a - 1.0 + 0.5) := by unfold lnGamma; rw [ar_sqrt]
  have hX : Encl (mk2 1.0 330.0) x := rel_mk2 (by rw [one_val]; exact hx) (by rw [v330]; exact hx2)
  -- the two ranges of `a`
  have main : ∀ l h : F64, l.val ≤ a.val → a.val ≤ h.val →
      inside (mk2 l h - 1.0 + 5.0 + 0.5) 1.0 200.0 = true →
      inside (-(mk2 1.0 330.0) + mk2 l h * mk2 0.0 5.8125 - (mk2 0.0 746.0 + mk2 (-1.0) 746.0 - (mk2 l h - 1.0 + 5.0 + 0.5) + mk2 0.0 746.0 * (mk2 l h - 1.0 + 0.5))) (-1e6) 700.0 = true →
      (-x + a * Libm.ln x - lnGamma a).isFin = true ∧ (-x + a * Libm.ln x - lnGamma a).val ≤ 700 := by
    intro l h h1 h2 c1 c2
    have rz : Encl (mk2 l h - 1.0) (a - 1.0) := rel_sub (rel_mk2 h1 h2) (rel_lit _ _ _)
    have r5 : Encl 0.5 (0.5 : F64) := rel_lit _ _ _
    have rb : Encl (mk2 l h - 1.0 + 5.0 + 0.5) (a - 1.0 + 5.0 + 0.5) := rel_add (rel_add rz (rel_lit _ _ _)) r5
    obtain ⟨b1, b2, b3⟩ := rel_inside rb c1
    rw [one_val] at b2
    have r3 : Encl (mk2 0.0 746.0) (Libm.ln (a - 1.0 + 5.0 + 0.5)) := by
      have e := rel_inside (l := -746.0) (h := 746.0) (rel_ln A.toLibmSpec b1 (by linarith)) (by decide +kernel)
      exact rel_mk2 (by rw [zero_val]; exact A.ln_ge _ b1 b2) e.2.2
    rw [e]
    generalize Libm.ln (F64.sqrt (2.0 * Arith.pi)) = l1 at *
    generalize Libm.ln (lanczosSum (a - 1.0) + lg5n7Head) = l2 at *
    generalize Libm.ln (a - 1.0 + 5.0 + 0.5) = l3 at *
    generalize Libm.ln x = l4 at *
    have r := rel_sub (rel_add (rel_neg hX) (rel_mul (rel_mk2 h1 h2) rx)) (rel_add (rel_sub (rel_add r1 r2) rb) (rel_mul r3 (rel_add rz r5)))
    have := rel_inside r c2
    rw [lit700.2] at this
    exact ⟨this.1, this.2.2⟩
  rcases le_or_gt a.val (0.5 : F64).val with h | h
  · exact main 5.551115123125784e-17 0.5 ha h (by decide +kernel) (by decide +kernel)
  · exact main 0.5 100.0 h.le (by rw [v100]; exact ha2) (by decide +kernel) (by decide +kernel)

theorem gcf_num (A : LibmAcc) {a x : F64} (ha : 0 < a.val) (ha2 : a.val ≤ 100) (hx : (a + 1.0).val ≤ x.val) (hx2 : x.val ≤ 330) : PN (gcf a x) := by
  have fa : a.isFin = true := abs_fin (b := 100) (by linarith) ha2 (by norm_num)
  obtain ⟨b1, b2, b3⟩ := add_one_fin fa ha.le
  have hh : PN (gcfLoop a 10000 1 (x + 1.0 - a) (1.0 / FPMIN) (1.0 / (x + 1.0 - a)) (1.0 / (x + 1.0 - a))) :=
    gcfLoop_num ha ha2 _ _ _ _ _ _ le_rfl le_rfl (gcf_init ha ha2 hx (by linarith))
  have hl : gcf a x = if F64.lt 700.0 (-x + a * Libm.ln x - lnGamma a) then gcfLoop a 10000 1 (x + 1.0 - a) (1.0 / FPMIN) (1.0 / (x + 1.0 - a)) (1.0 / (x + 1.0 - a)) * inf
      else if F64.lt (-x + a * Libm.ln x - lnGamma a) (-700.0) then 0.0
      else Libm.exp (-x + a * Libm.ln x - lnGamma a) * gcfLoop a 10000 1 (x + 1.0 - a) (1.0 / FPMIN) (1.0 / (x + 1.0 - a)) (1.0 / (x + 1.0 - a)) := by
    unfold gcf; simp only [ar_lt, ar_inf]
  rw [hl]
  generalize gcfLoop a 10000 1 (x + 1.0 - a) (1.0 / FPMIN) (1.0 / (x + 1.0 - a)) (1.0 / (x + 1.0 - a)) = h at *
  have z0 : PN (0.0 : F64) := by decide +kernel
  rcases le_or_gt a.val (5.551115123125783e-17 : F64).val with ht | ht
  · have v1 : (1e300 : F64).val ≥ (330.0 : F64).val := (le_iff.1 (by decide +kernel : F64.le 330.0 (1e300 : F64) = true)).2.2
    have v2 : (1e301 : F64).val ≥ (330.0 : F64).val := (le_iff.1 (by decide +kernel : F64.le 330.0 (1e301 : F64) = true)).2.2
    have v330 : (330.0 : F64).val = 330 := by have := val_of_int (x := (330.0 : F64)) 330 (by decide +kernel); rw [this]; norm_num
    rw [(logResult_num A.toLibmSpec ha (by linarith) (by linarith) (by linarith)).2 ht]
    have e1 : F64.lt 700.0 ninf = false := by decide +kernel
    have e2 : F64.lt ninf (-700.0) = true := by decide +kernel
    rw [e1, e2, if_neg Bool.false_ne_true, if_pos rfl]
    exact z0
  · obtain ⟨l1, l2⟩ := gcf_logResult A (tiny_succ ht) ha2 (by linarith) hx2
    generalize -x + a * Libm.ln x - lnGamma a = l at *
    have e1 : F64.lt 700.0 l = false := by rw [lt_false_iff (isFin_notNaN lit700.1) (isFin_notNaN l1), lit700.2]; exact l2
    rw [e1, if_neg Bool.false_ne_true]
    split
    · exact z0
    · rename_i h2
      rw [Bool.not_eq_true, lt_false_iff (isFin_notNaN l1) (by decide +kernel), val_neg, lit700.2] at h2
      obtain ⟨e1, e2⟩ := A.exp_mid l (abs_le.2 ⟨h2, l2⟩)
      exact mul_pn (A.exp_num l (isFin_notNaN l1)) hh (fun h => by rw [isFin_notInf e1] at h; cases h) (fun _ => e2)

end Verif
