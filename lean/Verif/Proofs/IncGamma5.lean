import Verif.Proofs.IncGamma4

/-! # The quadrature of the incomplete gamma functions: a number for `x > a - 1` -/

namespace Verif
open F64 OIv

theorem maxFold : ∀ (l : List F64) (m0 : F64), m0.isNaN = false → (∀ v ∈ l, v.isFin = true) →
    (l.foldl F64.max m0).isNaN = false ∧ m0.val ≤ (l.foldl F64.max m0).val ∧ (∀ v ∈ l, v.val ≤ (l.foldl F64.max m0).val) ∧
    ((l.foldl F64.max m0).val = m0.val ∨ ∃ v ∈ l, v.val = (l.foldl F64.max m0).val) := by
  intro l
  induction l with
  | nil => intro m0 h _; exact ⟨h, le_rfl, by simp, Or.inl rfl⟩
  | cons a l ih =>
    intro m0 h hl
    obtain ⟨h1, h2⟩ := max_val h (isFin_notNaN (hl a (by simp)))
    obtain ⟨i1, i2, i3, i4⟩ := ih (F64.max m0 a) h1 (fun v hv => hl v (by simp [hv]))
    rw [List.foldl_cons]
    have b1 : m0.val ≤ (F64.max m0 a).val := by rw [h2]; exact le_max_left _ _
    have b2 : a.val ≤ (F64.max m0 a).val := by rw [h2]; exact le_max_right _ _
    refine ⟨i1, b1.trans i2, ?_, ?_⟩
    · intro v hv
      rcases List.mem_cons.1 hv with rfl | hv
      · exact b2.trans i2
      · exact i3 v hv
    · rcases i4 with i4 | ⟨v, hv, e⟩
      · rw [i4, h2]
        rcases max_choice m0.val a.val with e | e
        · left; exact e
        · right; exact ⟨a, by simp, e.symm⟩
      · right; exact ⟨v, by simp [hv], e⟩

theorem maxFold_ninf {l : List F64} (hne : l ≠ []) (hl : ∀ v ∈ l, v.isFin = true) :
    (l.foldl F64.max (-inf)).isFin = true ∧ (∀ v ∈ l, v.val ≤ (l.foldl F64.max (-inf)).val) ∧
    ∃ v ∈ l, v.val = (l.foldl F64.max (-inf)).val := by
  obtain ⟨i1, i2, i3, i4⟩ := maxFold l (-inf) (by decide) hl
  obtain ⟨v0, hv0⟩ := List.exists_mem_of_ne_nil l hne
  have h0 := i3 v0 hv0
  have h1 := (abs_lt.1 (isFin_iff_val.1 (hl v0 hv0))).1
  have e : ∃ v ∈ l, v.val = (l.foldl F64.max (-inf)).val := by
    rcases i4 with h | h
    · rw [val_neg, inf_val] at h; rw [h] at h0; exact absurd h1 (not_lt.2 h0)
    · exact h
  obtain ⟨v, hv, ev⟩ := e
  refine ⟨?_, i3, v, hv, ev⟩
  rw [isFin_iff_val, ← ev]; exact isFin_iff_val.1 (hl v hv)

variable [Libm F64]

theorem sumFold (L : LibmSpec) {m : F64} (hm : m.isFin = true) : ∀ (l : List F64) (s : F64) (k : ℕ), (∀ v ∈ l, v.isFin = true ∧ v.val ≤ m.val) →
    PN s → s.val ≤ k → k + l.length ≤ 2^53 →
    let r := l.foldl (fun sum lv => if F64.lt (-700.0) (lv - m) then sum + Libm.exp (lv - m) else sum) s
    PN r ∧ s.val ≤ r.val ∧ r.val ≤ (k + l.length : ℕ) ∧ ((∃ v ∈ l, v.val = m.val) → 1 ≤ r.val) := by
  intro l
  induction l with
  | nil => intro s k _ h hk _; exact ⟨h, le_rfl, by simpa using hk, by simp⟩
  | cons a l ih =>
    intro s k hl hs hk hkl
    obtain ⟨fa, ha⟩ := hl a (by simp)
    have S := sub_spec fa hm
    have sle : (a - m).val ≤ 0 := by rw [S.2]; exact RN_nonpos (by linarith)
    have E := L.exp_num _ S.1
    have E1 := L.exp_le_one _ S.1 sle
    have p1 : PN (s + Libm.exp (a - m)) := add_pn hs E
    have ge := add_pn_ge hs E
    have fs : s.isFin = true := by
      have := hs.val
      have hk' : (k:ℝ) ≤ 2^53 := by exact_mod_cast (by omega : k ≤ 2^53)
      exact abs_fin (b := 2^53) (by linarith) (by linarith) (by norm_num)
    have fe : (Libm.exp (a - m)).isFin = true := by
      have := PN.val E
      exact abs_fin (b := 1) (by linarith) E1 (by norm_num)
    have A := add_spec fs fe
    have le1 : (s + Libm.exp (a - m)).val ≤ ((k+1 : ℕ) : ℝ) := by
      rw [A.2]
      have := RN_le_int (r := s.val + (Libm.exp (a - m)).val) ((k:ℤ)+1) (by
        rw [abs_of_nonneg (by positivity)]; simp only [List.length_cons] at hkl; omega) (by push_cast; linarith)
      push_cast at this ⊢; exact this
    intro r
    have hr : r = l.foldl (fun sum lv => if F64.lt (-700.0) (lv - m) then sum + Libm.exp (lv - m) else sum)
        (if F64.lt (-700.0) (a - m) then s + Libm.exp (a - m) else s) := rfl
    clear_value r
    rw [List.length_cons]
    have hl' : ∀ v ∈ l, v.isFin = true ∧ v.val ≤ m.val := fun v hv => hl v (by simp [hv])
    rcases hc : F64.lt (-700.0) (a - m) with _ | _
    · rw [hc, if_neg Bool.false_ne_true] at hr
      obtain ⟨i1, i2, i3, i4⟩ := ih s k hl' hs hk (by simp only [List.length_cons] at hkl; omega)
      rw [← hr] at i1 i2 i3 i4
      refine ⟨i1, i2, i3.trans (by push_cast; linarith), ?_⟩
      rintro ⟨v, hv, e⟩
      rcases List.mem_cons.1 hv with rfl | hv
      · exfalso
        have h0 : (v - m).val = 0 := by rw [S.2, e, sub_self, RN_zero]
        rw [lt_false_iff (by decide +kernel) S.1, h0, val_neg, lit700.2] at hc
        linarith
      · exact i4 ⟨v, hv, e⟩
    · rw [hc, if_pos rfl] at hr
      obtain ⟨i1, i2, i3, i4⟩ := ih _ (k+1) hl' p1 le1 (by simp only [List.length_cons] at hkl; omega)
      rw [← hr] at i1 i2 i3 i4
      refine ⟨i1, ge.trans i2, i3.trans (by push_cast; linarith), ?_⟩
      rintro ⟨v, hv, e⟩
      rcases List.mem_cons.1 hv with rfl | hv
      · have h0 : (v - m).val = 0 := by rw [S.2, e, sub_self, RN_zero]
        have h1 := L.exp_ge_one _ S.1 h0.ge
        have h2 := hs.val
        have h3 : 1 ≤ (s + Libm.exp (v - m)).val := by
          rw [A.2, ← one_val]; exact le_RN_of_le (isFin_notNaN one_fin) (by rw [one_val]; linarith)
        linarith
      · exact i4 ⟨v, hv, e⟩

theorem lnGamma_encl (L : LibmSpec) {z : F64} (h1 : (99.0 : F64).val ≤ z.val) (h2 : z.val ≤ (1e16 : F64).val) :
    Encl (mk2 (-1e20) 1e20) (lnGamma z) := by
  have t1 : (5.551115123125784e-17 : F64).val ≤ (99.0 : F64).val := (le_iff.1 (by decide +kernel : F64.le 5.551115123125784e-17 (99.0 : F64) = true)).2.2
  have t2 : (1e16 : F64).val ≤ (1e300 : F64).val := (le_iff.1 (by decide +kernel : F64.le 1e16 (1e300 : F64) = true)).2.2
  obtain ⟨s1, s2, s3⟩ := lan_bounds (t1.trans h1) (h2.trans t2)
  have hp := half_pos
  have rz : Encl (mk2 99.0 1e16 - 1.0) (z - 1.0) := rel_sub (rel_mk2 h1 h2) (rel_lit _ _ _)
  have r5 : Encl 0.5 (0.5 : F64) := rel_lit _ _ _
  have rb : Encl (mk2 99.0 1e16 - 1.0 + 5.0 + 0.5) (z - 1.0 + 5.0 + 0.5) :=
    rel_add (rel_add rz (rel_lit _ _ _)) r5
  obtain ⟨b1, b2, b3⟩ := rel_inside (l := 0.5) (h := 2e300) rb (by decide +kernel)
  have q : ∀ x : F64, x = F64.sqrt (2.0 * Arith.pi) → x.isFin = true ∧ 0 < x.val := by
    intro x hx
    subst hx
    refine ⟨by decide +kernel, ?_⟩
    have : F64.lt 0.0 (F64.sqrt (2.0 * Arith.pi)) = true := by decide +kernel
    have := (lt_iff.1 this).2.2
    rwa [zero_val] at this
  obtain ⟨q1, q2⟩ := q _ rfl
  have e : lnGamma z = Libm.ln (F64.sqrt (2.0 * Arith.pi)) + Libm.ln (lanczosSum (z - 1.0) + lg5n7Head) - (z - 1.0 + 5.0 + 0.5)
      + Libm.ln (z - 1.0 + 5.0 + 0.5) * (z - 1.0 + 0.5) := by unfold lnGamma; rw [ar_sqrt]
  rw [e]
  have r1 := rel_ln L q1 q2
  have r2 := rel_ln L s1 (by linarith)
  have r3 := rel_ln L b1 (by linarith)
  generalize Libm.ln (F64.sqrt (2.0 * Arith.pi)) = l1 at *
  generalize Libm.ln (lanczosSum (z - 1.0) + lg5n7Head) = l2 at *
  have r := rel_add (rel_sub (rel_add r1 r2) rb) (rel_mul r3 (rel_add rz r5))
  have := rel_inside (l := -1e20) (h := 1e20) r (by decide +kernel)
  exact rel_mk2 this.2.1 this.2.2

omit [Libm F64] in
theorem quad_tables : (List.zip (quadY : List F64) quadW).all (fun yw => yw.1.isFin && F64.le 0.0 yw.1 && F64.le yw.1 1.0 && yw.2.isFin && F64.lt 0.0 yw.2) = true ∧
    (List.zip (quadY : List F64) quadW).length = 18 := by decide +kernel

omit [Libm F64] in
theorem quad_xu {a x : F64} (h1 : 100 ≤ a.val) (h2 : a.val ≤ 2^52) (hx1 : a.val - 1 < x.val) (hx2 : x.val ≤ 2^53) :
    let xu := gammpXu (a - 1.0) x (F64.sqrt (a - 1.0))
    (xu - x).isFin = true ∧ 0 < (xu - x).val ∧ (xu - x).val ≤ 2^57 := by
  have hH : (2:ℝ)^54 ≤ 10^200 := by norm_num
  have fx : x.isFin = true := abs_fin (b := 2^54) (by linarith) (by linarith) hH
  obtain ⟨f1, e1⟩ := sub_one_f64 (z := a) (by linarith) (by linarith)
  have hlt : F64.lt (a - 1.0) x = true := lt_iff.2 ⟨isFin_notNaN f1, isFin_notNaN fx, by rw [e1]; exact hx1⟩
  generalize a - 1.0 = a1 at *
  intro xu
  have hxu : xu = F64.max (a1 + 11.5 * F64.sqrt a1) (x + 6.0 * F64.sqrt a1) := by
    show gammpXu a1 x (F64.sqrt a1) = _
    unfold gammpXu
    rw [ar_lt, hlt, if_pos rfl]; rfl
  clear_value xu
  obtain ⟨s1, s2, s3⟩ := sqrt_spec f1 (by rw [e1]; linarith)
  have s4 : 9 ≤ (F64.sqrt a1).val := by
    rw [s2]
    have := RN_ge_int (r := Real.sqrt a1.val) 9 (by norm_num) (by
      push_cast
      apply Real.le_sqrt_of_sq_le
      rw [e1]; linarith)
    push_cast at this; exact this
  have s5 : (F64.sqrt a1).val ≤ 2^52 := by
    rw [s2]
    have := RN_le_int (r := Real.sqrt a1.val) (2^52) (by norm_num) (by
      push_cast
      rw [Real.sqrt_le_left (by positivity), e1]
      linarith)
    push_cast at this; linarith
  generalize F64.sqrt a1 = s at *
  have fs : s.isFin = true := abs_fin (b := 2^54) (by linarith) (by linarith) hH
  have m115 : (11.5 : F64).isFin = true := by decide +kernel
  have v115 : (11.5 : F64).val = 23/2 := by
    have := val_of_sv (x := (11.5 : F64)) 23 2 (by norm_num) (by decide +kernel); rw [this]; norm_num
  have m6 : (6.0 : F64).isFin = true := by decide +kernel
  have v6 : (6.0 : F64).val = 6 := by
    have := val_of_int (x := (6.0 : F64)) 6 (by decide +kernel); rw [this]; norm_num
  have bnd : ∀ r : ℝ, |r| ≤ 2^56 → |RN r| ≤ 2^56 := by
    intro r hr
    rw [RN_abs, ← RN_pow2 (p := 56) (by norm_num)]; exact RN_mono hr
  obtain ⟨p1, p2⟩ := Iv.mul_spec' m115 fs
  obtain ⟨q1, q2⟩ := Iv.mul_spec' m6 fs
  have pb : |(11.5 * s).val| ≤ 2^56 := by rw [p2, v115]; exact bnd _ (by rw [abs_of_nonneg (by linarith)]; linarith)
  have qb : |(6.0 * s).val| ≤ 2^56 := by rw [q2, v6]; exact bnd _ (by rw [abs_of_nonneg (by linarith)]; linarith)
  have q3 : 50 ≤ (6.0 * s).val := by
    rw [q2, v6]
    have := RN_ge_int (r := 6 * s.val) 50 (by norm_num) (by push_cast; linarith)
    push_cast at this; exact this
  have q4 : (6.0 * s).val ≤ 2^55 := by
    rw [q2, v6, ← RN_pow2 (p := 55) (by norm_num)]; exact RN_mono (by linarith)
  have p4 : (11.5 * s).val ≤ 2^56 := le_of_abs_le pb
  have p5 : 0 ≤ (11.5 * s).val := by rw [p2, v115]; exact RN_nonneg (by linarith)
  have fp : (11.5 * s).isFin = true := isFin_of_abs (b := 2^56) pb (by norm_num)
  have fq : (6.0 * s).isFin = true := isFin_of_abs (b := 2^56) qb (by norm_num)
  have U := add_spec f1 fp
  have W := add_spec fx fq
  have bnd2 : ∀ r : ℝ, r ≤ 2^57 → RN r ≤ 2^57 := by
    intro r hr
    rw [← RN_pow2 (p := 57) (by norm_num)]; exact RN_mono hr
  have u2 : (a1 + 11.5 * s).val ≤ 2^57 := by rw [U.2]; exact bnd2 _ (by linarith)
  have w2 : (x + 6.0 * s).val ≤ 2^57 := by rw [W.2]; exact bnd2 _ (by linarith)
  have w3 : x.val < (x + 6.0 * s).val := by
    rw [W.2]
    have h := RN_mono (by linarith : x.val + 50 ≤ x.val + (6.0 * s).val)
    have b := RN_err' (x := x.val + 50) (by
      rw [abs_of_pos (by linarith)]
      have := HUGE_ge
      have h2 : (2:ℝ)^54 ≤ 10^200 := by norm_num
      linarith)
    have b' := (abs_le.1 (b.trans (add_le_add_right small_1075 _))).1
    rw [abs_of_pos (by linarith)] at b'
    clear b
    have h3 : (x.val + 50) / 2^53 ≤ 2 := by rw [div_le_iff₀ (by positivity)]; linarith
    have h4 : (1:ℝ) / 2^53 ≤ 1 := by norm_num
    linarith
  obtain ⟨n1, n2⟩ := max_val U.1 W.1
  rw [← hxu] at n1 n2
  have x1 : x.val < xu.val := lt_of_lt_of_le w3 (by rw [n2]; exact le_max_right _ _)
  have x2 : xu.val ≤ 2^57 := by rw [n2]; exact max_le u2 w2
  have fu : xu.isFin = true := abs_fin (b := 2^57) (by linarith) x2 (by norm_num)
  have S := sub_spec fu fx
  have z1 : 0 < (xu - x).val := by
    rw [S.2]
    refine lt_of_le_of_ne (RN_nonneg (by linarith)) ?_
    intro hc
    have := RN_sub_eq_zero.1 hc.symm; linarith
  have z2 : (xu - x).val ≤ 2^57 := by rw [S.2]; exact bnd2 _ (by linarith)
  exact ⟨abs_fin (b := 2^57) (by linarith) z2 (by norm_num), z1, z2⟩

omit [Libm F64] in
theorem pow_lits : (9007199254740992.0 : F64).val = 2^53 ∧ (1.44115188075855872e17 : F64).val = 2^57 ∧ (99.0 : F64).val = 99 := by
  refine ⟨?_, ?_, ?_⟩
  · have := val_of_int (x := (9007199254740992.0 : F64)) (2^53) (by decide +kernel); rw [this]; norm_num
  · have := val_of_int (x := (1.44115188075855872e17 : F64)) (2^57) (by decide +kernel); rw [this]; norm_num
  · have := val_of_int (x := (99.0 : F64)) 99 (by decide +kernel); rw [this]; norm_num

theorem quad_ans_eq (a x : F64) : gammpapproxAns a x =
    let a1 := a - 1.0
    let lna1 := Libm.ln a1
    let gln := lnGamma a
    let xu := gammpXu a1 x (F64.sqrt a1)
    let logValues : List F64 := (List.zip quadY quadW).map fun yw =>
      Libm.ln yw.2 + (-(x + (xu - x) * yw.1 - a1) + a1 * (Libm.ln (x + (xu - x) * yw.1) - lna1))
    let logMax := logValues.foldl F64.max (-inf)
    let sum := logValues.foldl (fun sum lv => if F64.lt (-700.0) (lv - logMax) then sum + Libm.exp (lv - logMax) else sum) 0.0
    let logAns := logMax + Libm.ln sum + Libm.ln (xu - x) + (a1 * (lna1 - 1.0) - gln)
    if F64.lt 700.0 logAns then inf
    else if F64.lt logAns (-700.0) then 0.0
    else Libm.exp logAns := by
  unfold gammpapproxAns
  simp only [ar_sqrt, ar_lt, ar_inf]
  rfl

theorem quad_num (L : LibmSpec) {a x : F64} (h1 : 100 ≤ a.val) (h2 : a.val ≤ 2^52) (hx1 : a.val - 1 < x.val) (hx2 : x.val ≤ 2^53) :
    PN (gammpapproxAns a x) := by
  obtain ⟨z1, z2, z3⟩ := quad_xu h1 h2 hx1 hx2
  obtain ⟨f1, e1⟩ := sub_one_f64 (z := a) (by linarith) (by linarith)
  obtain ⟨p53, p57, p99⟩ := pow_lits
  have fx : x.isFin = true := abs_fin (b := 2^54) (by linarith) (by linarith) (by norm_num)
  rw [quad_ans_eq]
  have t16 : (9007199254740992.0 : F64).val ≤ (1e16 : F64).val := (le_iff.1 (by decide +kernel : F64.le 9007199254740992.0 (1e16 : F64) = true)).2.2
  have rg := lnGamma_encl L (z := a) (by linarith) (by linarith)
  have ra1 : Encl (mk2 99.0 9007199254740992.0) (a - 1.0) := rel_mk2 (by rw [p99, e1]; linarith) (by rw [p53, e1]; linarith)
  have rla := rel_ln L f1 (by linarith)
  have rxu : Encl (mk2 0.0 1.44115188075855872e17) (gammpXu (a - 1.0) x (F64.sqrt (a - 1.0)) - x) := rel_mk2 (by rw [zero_val]; exact z2.le) (by rw [p57]; exact z3)
  have rlxu := rel_ln L z1 z2
  have rx : Encl (mk2 99.0 9007199254740992.0) x := rel_mk2 (by rw [p99]; linarith) (by rw [p53]; linarith)
  simp only
  generalize gammpXu (a - 1.0) x (F64.sqrt (a - 1.0)) - x = dx at *
  generalize a - 1.0 = a1 at *
  generalize Libm.ln a1 = lna1 at *
  generalize Libm.ln dx = ldx at *
  generalize lnGamma a = gln at *
  obtain ⟨lv, hlv⟩ : ∃ lv : List F64, lv = (List.zip (quadY : List F64) quadW).map fun yw =>
      Libm.ln yw.2 + (-(x + dx * yw.1 - a1) + a1 * (Libm.ln (x + dx * yw.1) - lna1)) := ⟨_, rfl⟩
  simp only [← hlv]
  have hb : ∀ v ∈ lv, v.isFin = true ∧ (-1e30 : F64).val ≤ v.val ∧ v.val ≤ (1e30 : F64).val := by
    intro v hv
    rw [hlv, List.mem_map] at hv
    obtain ⟨⟨y, w⟩, hm, rfl⟩ := hv
    have T := List.all_eq_true.1 quad_tables.1 _ hm
    simp only [Bool.and_eq_true] at T
    obtain ⟨⟨⟨⟨t1, t2⟩, t3⟩, t4⟩, t5⟩ := T
    have ry : Encl (mk2 0.0 1.0) y := rel_mk2 (le_iff.1 t2).2.2 (le_iff.1 t3).2.2
    have hw : 0 < w.val := by have := (lt_iff.1 t5).2.2; rwa [zero_val] at this
    have rlw := rel_ln L t4 hw
    have rt : Encl (mk2 99.0 9007199254740992.0 + mk2 0.0 1.44115188075855872e17 * mk2 0.0 1.0) (x + dx * y) := rel_add rx (rel_mul rxu ry)
    have T := rel_inside (l := 99.0) (h := 1e18) rt (by decide +kernel)
    have rlt := rel_ln L T.1 (by linarith)
    simp only
    generalize Libm.ln w = lw at *
    generalize Libm.ln (x + dx * y) = lt at *
    have r := rel_add rlw (rel_add (rel_neg (rel_sub rt ra1)) (rel_mul ra1 (rel_sub rlt rla)))
    exact rel_inside r (by decide +kernel)
  have hlen : lv.length = 18 := by rw [hlv, List.length_map]; exact quad_tables.2
  have hne : lv ≠ [] := by
    intro hc
    rw [hc] at hlen
    exact absurd hlen (by decide)
  obtain ⟨m1, m2, v0, m3, m4⟩ := maxFold_ninf hne (fun v hv => (hb v hv).1)
  clear hlv
  generalize lv.foldl F64.max (-inf) = m at *
  have rm : Encl (mk2 (-1e30) 1e30) m := rel_mk2 (by rw [← m4]; exact (hb v0 m3).2.1) (by rw [← m4]; exact (hb v0 m3).2.2)
  obtain ⟨i1, i2, i3, i4⟩ := sumFold L m1 lv 0.0 0 (fun v hv => ⟨(hb v hv).1, m2 v hv⟩) (by decide +kernel) (by rw [zero_val]; simp) (by rw [hlen]; norm_num)
  have i5 := i4 ⟨v0, m3, m4⟩
  clear i4
  generalize lv.foldl _ (0.0 : F64) = sm at *
  rw [hlen] at i3
  have fsm : sm.isFin = true := abs_fin (b := 18) (by linarith) (by push_cast at i3; linarith) (by norm_num)
  have rls := rel_ln L fsm (by linarith)
  generalize Libm.ln sm = ls at *
  have o1 : Encl 1.0 (1.0 : F64) := rel_lit _ _ _
  have r := rel_add (rel_add (rel_add rm rls) rlxu) (rel_sub (rel_mul ra1 (rel_sub rla o1)) rg)
  have ff := (rel_inside (l := -1e40) (h := 1e40) r (by decide +kernel)).1
  have : ∀ l : F64, l.isNaN = false → PN (if F64.lt 700.0 l then inf else if F64.lt l (-700.0) then 0.0 else Libm.exp l) := by
    intro l hl
    split
    · decide
    · split
      · exact (by decide +kernel : PN (0.0 : F64))
      · exact L.exp_num l hl
  exact this _ (isFin_notNaN ff)

omit [Libm F64] in
theorem far_bound {a : F64} (fa : a.isFin = true) (h0 : 0 < a.val) {r h : F64} (hr : Real.sqrt a.val ≤ r.val) (hrn : r.isNaN = false)
    (hh : a.val ≤ h.val) {u : F64} (hc : inside (mk2 0.0 h + 20.0 * (mk2 0.0 r + 1.0)) 0.0 u = true) :
    (a + 20.0 * (F64.sqrt a + 1.0)).val ≤ u.val := by
  obtain ⟨s1, s2, s3⟩ := sqrt_spec fa h0
  have e : Encl (mk2 0.0 r) (F64.sqrt a) := rel_mk2 (by rw [zero_val, s2]; exact RN_nonneg (Real.sqrt_nonneg _)) (by rw [s2]; exact RN_le_of_le hrn hr)
  have r1 : Encl (mk2 0.0 h + 20.0 * (mk2 0.0 r + 1.0)) (a + 20.0 * (F64.sqrt a + 1.0)) :=
    rel_add (rel_mk2 (by rw [zero_val]; exact h0.le) hh) (rel_mul (rel_lit _ _ _) (rel_add e (rel_lit _ _ _)))
  exact (rel_inside r1 hc).2.2

omit [Libm F64] in
theorem far_ge {a : F64} (fa : a.isFin = true) (h0 : 0 < a.val) : a.val ≤ (a + 20.0 * (F64.sqrt a + 1.0)).val := by
  have ff := far_fin fa h0
  obtain ⟨s1, s2, s3⟩ := sqrt_spec fa h0
  have p1 : PN (F64.sqrt a + 1.0) := add_pn ⟨s1, s3⟩ one_pn
  have p2 : PS (20.0 * (F64.sqrt a + 1.0)) := mul_ps (Or.inr (by decide +kernel)) p1.ps
  have h20 : (20.0 * (F64.sqrt a + 1.0)).isFin = true := by
    by_contra hc
    rcases cases3 (20.0 * (F64.sqrt a + 1.0)) with h | h | h
    · rw [add_nan_right h] at ff; simp at ff
    · rw [add_inf_right fa h, isInf_notFin h] at ff; cases ff
    · exact hc h
  rw [(add_spec fa h20).2]
  refine le_RN_of_le (isFin_notNaN fa) ?_
  have := (p2.pn (isFin_notNaN h20)).val
  linarith

omit [Libm F64] in
theorem isCompl_nan_iff {p q : F64} (h : IsCompl p q) : p.isNaN = true ↔ q.isNaN = true := by
  rcases h with ⟨a, b⟩ | ⟨a, b, _⟩ <;> rw [a, b]

/-- exactly where `gammp` is NaN, for `a ≤ 2^52` -/
theorem gammp_nan_iff' (A : LibmAcc) {a x : F64} (hx : x.isNaN = false ∧ 0 ≤ x.val) (ha0 : 0 < a.val) (ha : a.val ≤ 2^52) :
    ∃ p, gammp a x = .ok p ∧ (p.isNaN = true ↔ 100 ≤ a.val ∧ F64.lt x (0.2 * a) = false ∧ x.val ≤ a.val - 1) := by
  have fa : a.isFin = true := abs_fin (b := 2^52) (by linarith) ha (by norm_num)
  have L := A.toLibmSpec
  obtain ⟨p53, p57, p99⟩ := pow_lits
  have a300 : a.val ≤ (1e300 : F64).val := by
    have : (9007199254740992.0 : F64).val ≤ (1e300 : F64).val := (le_iff.1 (by decide +kernel : F64.le 9007199254740992.0 (1e300 : F64) = true)).2.2
    linarith
  have lit02 : (0.2 : F64).isFin = true := by decide +kernel
  have v02 : (0.2 : F64).val ≤ 1/4 := by
    have := val_le_of_sv (x := (0.2 : F64)) 1 4 (by norm_num) (by decide +kernel)
    push_cast at this; exact this
  have v02' : (1/5:ℝ) ≤ (0.2 : F64).val := by
    have := le_val_of_sv (x := (0.2 : F64)) 1 5 (by norm_num) (by decide +kernel)
    push_cast at this; exact this
  obtain ⟨g1, g2⟩ := Iv.mul_spec' lit02 fa
  have g3 : (0.2 * a).val ≤ a.val := by rw [g2]; exact RN_le_of_le (isFin_notNaN fa) (by nlinarith)
  obtain ⟨m1, m2⟩ := Iv.mul_spec' fa lit_EPS_fin
  have g4 : (a * EPS).val ≤ (0.2 * a).val := by
    rw [g2, m2, lit_EPS_val]
    apply RN_mono
    have : (2:ℝ)^(-52:ℤ) ≤ 1/5 := by norm_num
    nlinarith
  have g5 : 100 ≤ a.val → 1 ≤ (0.2 * a).val := by
    intro h
    rw [g2, ← one_val]
    exact le_RN_of_le (isFin_notNaN one_fin) (by rw [one_val]; nlinarith)
  obtain ⟨ao1, ao2, ao3⟩ := add_one_fin fa ha0.le
  have num : ∀ p : F64, p.isNaN = false → ¬ (100 ≤ a.val ∧ F64.lt x (0.2 * a) = false ∧ x.val ≤ a.val - 1) →
      ∃ p', (.ok p : M F64) = .ok p' ∧ (p'.isNaN = true ↔ 100 ≤ a.val ∧ F64.lt x (0.2 * a) = false ∧ x.val ≤ a.val - 1) := by
    intro p h1 h2
    exact ⟨p, rfl, by simp only [h2, h1, iff_false]; decide⟩
  rw [gammp_eq (valid_iff.2 ⟨hx, isFin_notNaN fa, ha0⟩)]
  rcases c1 : F64.eq x 0.0 with _ | _
  swap
  · rw [if_pos rfl]
    refine num _ (by decide +kernel) ?_
    rintro ⟨h1, h2, h3⟩
    rw [lt_false_iff hx.1 g1] at h2
    have := (eq_iff.1 c1).2.2; rw [zero_val] at this
    have := g5 h1; linarith
  rw [if_neg Bool.false_ne_true]
  have x0 : 0 < x.val := by
    refine lt_of_le_of_ne hx.2 (fun h => ?_)
    rw [← Bool.not_eq_true, eq_zero_iff, ← val_eq_zero] at c1
    exact c1 h.symm
  rcases c2 : F64.lt x (a * EPS) with _ | _
  swap
  · rw [if_pos rfl]
    refine num _ (by decide +kernel) ?_
    rintro ⟨h1, h2, h3⟩
    rw [lt_false_iff hx.1 g1] at h2
    have := (lt_iff.1 c2).2.2; linarith
  rw [if_neg Bool.false_ne_true]
  have ff := far_fin fa ha0
  rcases c3 : F64.lt (a + 20.0 * (F64.sqrt a + 1.0)) x with _ | _
  swap
  · rw [if_pos rfl]
    refine num _ (by decide +kernel) ?_
    rintro ⟨h1, h2, h3⟩
    have := (lt_iff.1 c3).2.2
    have := far_ge fa ha0; linarith
  rw [if_neg Bool.false_ne_true]
  rw [lt_false_iff (isFin_notNaN ff) hx.1] at c3
  by_cases c4 : 100 ≤ F64.toUnsigned USIZE_MAX a
  · rw [if_pos c4]
    have h100 : 100 ≤ a.val := by
      rw [toUnsigned_spec fa ha0.le] at c4
      have h1 : 100 ≤ ⌊a.val⌋₊ := c4.trans (Nat.min_le_left _ _)
      have := (Nat.le_floor_iff ha0.le).1 h1
      exact_mod_cast this
    rcases c5 : F64.lt x (0.2 * a) with _ | _
    · rw [if_neg Bool.false_ne_true]
      have h2 := (lt_false_iff hx.1 g1).1 c5
      have h3 := g5 h100
      by_cases c6 : x.val ≤ a.val - 1
      · refine ⟨_, rfl, ?_⟩
        simp only [h100, c6, and_self, iff_true]
        unfold gammpapproxP
        rw [sub_nan_right (gammpapproxAns_nan L h100 ha (by linarith) c6), clamp01_nan (by decide)]; decide
      · have hx53 : x.val ≤ 2^53 := by
          have v26 : (67108864.0 : F64).val = 2^26 := by
            have := val_of_int (x := (67108864.0 : F64)) (2^26) (by decide +kernel); rw [this]; norm_num
          have v52 : (4503599627370496.0 : F64).val = 2^52 := by
            have := val_of_int (x := (4503599627370496.0 : F64)) (2^52) (by decide +kernel); rw [this]; norm_num
          have := far_bound fa ha0 (r := 67108864.0) (h := 4503599627370496.0) (u := 9007199254740992.0)
            (by rw [v26, Real.sqrt_le_left (by positivity)]; linarith) (by decide +kernel) (by rw [v52]; exact ha) (by decide +kernel)
          linarith
        have hq := quad_num L h100 ha (by linarith) hx53
        have hc := one_sub_clamp hq.1
        refine ⟨_, rfl, ?_⟩
        have hn : (gammpapproxP a x).isNaN = false := by
          unfold gammpapproxP
          have := isCompl_nan_iff hc
          rw [hq.1] at this
          simpa using this
        rw [hn]; simp [c6]
    · rw [if_pos rfl]
      have h2 := (lt_iff.1 c5).2.2
      refine ⟨_, rfl, ?_⟩
      rw [(gser_num L ha0 a300 x0 (by linarith)).1]; simp
  · rw [if_neg c4]
    have h100 : a.val < 100 := by
      by_contra hc; exact c4 (toU_ge fa (not_lt.1 hc))
    rcases c5 : F64.lt x (a + 1.0) with _ | _
    · rw [if_neg Bool.false_ne_true]
      have h2 := (lt_false_iff hx.1 (isFin_notNaN ao1)).1 c5
      have v10 : (10.0 : F64).val = 10 := by
        have := val_of_int (x := (10.0 : F64)) 10 (by decide +kernel); rw [this]; norm_num
      have v100 : (100.0 : F64).val = 100 := by
        have := val_of_int (x := (100.0 : F64)) 100 (by decide +kernel); rw [this]; norm_num
      have v330 : (330.0 : F64).val = 330 := by
        have := val_of_int (x := (330.0 : F64)) 330 (by decide +kernel); rw [this]; norm_num
      have hx330 : x.val ≤ 330 := by
        have := far_bound fa ha0 (r := 10.0) (h := 100.0) (u := 330.0)
          (by rw [v10, Real.sqrt_le_left (by norm_num)]; linarith) (by decide +kernel) (by rw [v100]; exact h100.le) (by decide +kernel)
        linarith
      have hq := gcf_num A ha0 h100.le h2 hx330
      have hc := one_sub_clamp hq.1
      refine num _ ?_ (by rintro ⟨h, _⟩; linarith)
      have := isCompl_nan_iff hc
      rw [hq.1] at this
      simpa using this
    · rw [if_pos rfl]
      have h2 := (lt_iff.1 c5).2.2
      exact num _ (gser_num L ha0 a300 x0 (by linarith)).1 (by rintro ⟨h, _⟩; linarith)

end Verif
