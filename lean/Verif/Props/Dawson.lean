import Verif.Proofs.Dawson2

/-!
# Properties of `dawson` (C35, C36, C63)
-/

namespace Verif
open F64 OIv
variable [Libm F64] [Cfg]

/-! ## C35 -/

/-- C35: `dawson(-x) = -dawson(x)`, bit for bit (or both are NaN), for every `x` on which `dawson` returns. -/
theorem dawson_odd (x v : F64) (h : Returns (dawson x) v) : ∃ w, Returns (dawson (-x)) w ∧ Same w (-v) := by
  unfold Returns at *
  rcases hs : F64.lt x.abs 0.2 with _ | _
  · rw [dawson_large hs] at h
    rw [dawson_large (x := -x) (by rw [abs_neg']; exact hs), abs_neg']
    cases hw : wrapU U64_MAX (2 * toUnsigned U64_MAX (0.5 * x.abs / 0.4 + 0.5)) with
    | error e => rw [hw] at h; cases h
    | ok n =>
      rw [hw] at h
      injection h with h
      subst h
      exact ⟨dawsonTail (-x) x.abs 0.4 n, rfl, dawsonTail_neg _ _ _ _⟩
  · rw [dawson_small hs] at h
    rw [dawson_small (x := -x) (by rw [abs_neg']; exact hs), mul_neg_neg]
    injection h with h
    subst h
    exact ⟨_, rfl, mul_neg_left_same _ _⟩

/-- … and `dawson(-x)` panics exactly when `dawson(x)` does. -/
theorem dawson_odd_panics (x : F64) : Panics (dawson (-x)) ↔ Panics (dawson x) := by
  rcases hs : F64.lt x.abs 0.2 with _ | _
  · rw [dawson_large hs, dawson_large (x := -x) (by rw [abs_neg']; exact hs), abs_neg']
    cases wrapU U64_MAX (2 * toUnsigned U64_MAX (0.5 * x.abs / 0.4 + 0.5)) with
    | error e => exact Iff.rfl
    | ok n => exact ⟨(fun h => by cases h), (fun h => by cases h)⟩
  · rw [dawson_small hs, dawson_small (x := -x) (by rw [abs_neg']; exact hs)]
    exact ⟨(fun h => by cases h), (fun h => by cases h)⟩

example (A : LibmAcc) : ∃ v, Returns (dawson (1.0 : F64)) v := ⟨_, by
  rw [dawson_large (x := 1.0) (by decide +kernel)]
  rw [show wrapU U64_MAX (2 * toUnsigned U64_MAX (0.5 * (1.0 : F64).abs / 0.4 + 0.5)) = .ok 2 by
    rw [show 2 * toUnsigned U64_MAX (0.5 * (1.0 : F64).abs / 0.4 + 0.5) = 2 by decide +kernel]; exact if_pos (by decide)]; rfl⟩

/-! ## C36 -/

/-- C36 for `|x| ≤ 2^54`: `dawson` returns a finite number.  Missing: larger finite `x`, where the claim is false
(`dawson_nan`, `dawson_overflow`). -/
theorem dawson_total_partial (A : LibmAcc) (x : F64) (hx : |x.val| ≤ 2^54) : ∃ v, Returns (dawson x) v ∧ v.isFin = true := by
  rcases hs : F64.lt x.abs 0.2 with _ | _
  · obtain ⟨h1, h2, h3⟩ := dawson_reduce A hx
    rw [dawson_large hs]
    have hw : wrapU U64_MAX (2 * toUnsigned U64_MAX (0.5 * x.abs / 0.4 + 0.5)) = .ok (2 * toUnsigned U64_MAX (0.5 * x.abs / 0.4 + 0.5)) :=
      if_pos (h1.trans (by decide))
    rw [hw]
    exact ⟨_, rfl, dawsonTail_fin A.toLibmSpec (even_two_mul _) h1 h2 h3⟩
  · rw [dawson_small hs]
    refine ⟨_, rfl, ?_⟩
    have h := (lt_iff.1 hs).2.2
    rw [F64.val_abs] at h
    have v02 : (0.2 : F64).val = 3602879701896397 / 18014398509481984 := by
      have := val_of_sv (x := (0.2 : F64)) 3602879701896397 18014398509481984 (by norm_num) (by decide +kernel)
      rw [this]; norm_num
    rw [v02] at h
    have hb := small_bracket (x := x) (h.le.trans (by norm_num))
    exact fin_pow2 (p := 0) (by omega) (mul_bound (p := 0) (q := 0) (h.le.trans (by norm_num))
      (by rw [abs_of_nonneg hb.lo]; simpa using hb.hi) (by omega))

example : |(123.0 : F64).val| ≤ 2^54 := by
  have := val_of_int (x := (123.0 : F64)) 123 (by decide +kernel); rw [this]; norm_num

omit [Libm F64] [Cfg] in
theorem toU_huge {q : F64} (hn : q.isNaN = false) (h : (2:ℝ)^63 ≤ q.val) : 2^63 ≤ toUnsigned U64_MAX q := by
  have hneg : q.neg = false := neg_of_val_pos (lt_of_lt_of_le (by positivity) h)
  rcases fin_or_inf hn with hf | hi
  · rw [toUnsigned_spec hf (le_trans (by positivity) h)]
    refine le_min ?_ (by decide)
    apply Nat.le_floor; exact le_trans (by norm_num) h
  · unfold toUnsigned
    rw [hn, hneg, hi]; exact (by decide : 2^63 ≤ U64_MAX)

omit [Libm F64] [Cfg] in
theorem dawson_arg_huge {x : F64} (hn : x.isNaN = false) (hx : 7.4 * 10^18 ≤ |x.val|) :
    (0.5 * x.abs / 0.4 + 0.5 : F64).isNaN = false ∧ (2:ℝ)^63 ≤ (0.5 * x.abs / 0.4 + 0.5 : F64).val := by
  obtain ⟨hH, hH', fH⟩ := h_val
  have hHv : (0.4 : F64).val = 3602879701896397 / 9007199254740992 := by
    have := val_of_sv (x := (0.4 : F64)) 3602879701896397 9007199254740992 (by norm_num) (by decide +kernel)
    rw [this]; norm_num
  have fh : (0.5 : F64).isFin = true := by decide +kernel
  have pinf : ∀ q : F64, q = inf → (q + 0.5).isNaN = false ∧ (2:ℝ)^63 ≤ (q + 0.5).val := by
    intro q hq
    rw [hq, show (inf + 0.5 : F64) = inf by decide +kernel, inf_val]
    exact ⟨by decide, le_trans (by norm_num) HUGE_ge⟩
  rcases fin_or_inf hn with hf | hi
  · have fa : x.abs.isFin = true := by simpa using hf
    have s1 := Iv.mul_spec' fh fa
    rw [half_val, F64.val_abs] at s1
    have lt := fin_lt hf
    have hb1 : RN (1/2 * |x.val|) ≤ |x.val| := by
      have h := RN_val (a := x.abs) (isFin_notNaN fa)
      rw [F64.val_abs] at h
      rw [← h]
      exact RN_mono (by rw [h]; linarith [abs_nonneg x.val])
    have f1 : (0.5 * x.abs : F64).isFin = true := by
      rw [isFin_iff_val, s1.2, abs_of_nonneg (RN_nonneg (by positivity))]
      refine lt_of_le_of_lt hb1 ?_
      have := isFin_iff_val.1 hf
      exact this
    have s2 := Iv.div_spec' f1 fH (by linarith)
    have l1 : (3699999 * 10^12 : ℝ) ≤ (0.5 * x.abs : F64).val := by
      rw [s1.2]
      have e : RN ((3699999 * 10^12 : ℕ) : ℝ) = ((3699999 * 10^12 : ℕ) : ℝ) := by
        have := RN_dyadic (3699999 * 5^12) 12 (by norm_num) (by norm_num) (by
          rw [abs_of_nonneg (by positivity)]; exact le_trans (by norm_num) HUGE_ge)
        rw [show ((3699999 * 10^12 : ℕ) : ℝ) = ((3699999 * 5^12 : ℤ) : ℝ) * 2^(12:ℤ) by norm_num]
        exact this
      have e2 : ((3699999 * 10^12 : ℕ) : ℝ) = 3699999 * 10^12 := by norm_num
      rw [← e2, ← e]
      refine RN_mono ?_
      rw [e2]; norm_num at *; linarith
    have l2 : (2:ℝ)^63 ≤ (0.5 * x.abs / 0.4 : F64).val := by
      rw [s2.2, ← RN_pow2 (p := 63) (by omega)]
      refine RN_mono ?_
      rw [le_div_iff₀ (by linarith), hHv]
      norm_num at *; linarith
    rcases fin_or_inf s2.1 with f2 | i2
    · have s3 := add_spec f2 fh
      refine ⟨s3.1, ?_⟩
      rw [s3.2, half_val, ← RN_pow2 (p := 63) (by omega)]
      exact RN_mono (by linarith)
    · exact pinf _ (by rw [isInf_cases i2, neg_of_val_pos (lt_of_lt_of_le (by positivity) l2)]; rfl)
  · have : x.abs = inf := by
      have h1 : x.abs.isInf = true := by simpa using hi
      rw [isInf_cases h1]; rfl
    rw [this]
    exact pinf _ (by decide +kernel)

/-- C36 is false: with overflow checks (debug builds) every `|x| ≥ 7.4e18` panics. -/
theorem dawson_overflow (hc : Cfg.checks = true) (x : F64) (hn : x.isNaN = false) (hx : 7.4 * 10^18 ≤ |x.val|) :
    Panics (dawson x) := by
  have hs : F64.lt x.abs 0.2 = false := by
    rw [lt_false_iff (by simpa using hn) (by decide +kernel), F64.val_abs]
    have v02 : (0.2 : F64).val ≤ 1 := by
      have := val_of_sv (x := (0.2 : F64)) 3602879701896397 18014398509481984 (by norm_num) (by decide +kernel)
      rw [this]; norm_num
    exact v02.trans (le_trans (by norm_num) hx)
  rw [dawson_large hs]
  have h := dawson_arg_huge hn hx
  have h2 := toU_huge h.1 h.2
  have hw : wrapU U64_MAX (2 * toUnsigned U64_MAX (0.5 * x.abs / 0.4 + 0.5)) = .error .panic := by
    unfold wrapU
    rw [if_neg (not_le.2 (lt_of_lt_of_le (by decide : U64_MAX < 2 * 2^63) (Nat.mul_le_mul_left 2 h2))), if_pos hc]
  rw [hw]; rfl

example : (1e19 : F64).isNaN = false ∧ (1e19 : F64).val = 10^19 := by
  refine ⟨by decide +kernel, ?_⟩
  have := val_of_int (x := (1e19 : F64)) (10^19) (by decide +kernel); rw [this]; norm_num

theorem daw_nan_step (L : LibmSpec) {i : ℕ} (hi : i < 6) {e sum : F64} (he : e.isNaN = false) (hz : e.isZero = false) (hneg : e.neg = false)
    (hs : sum = 0.0 ∨ sum = inf) : dawsonStep 0.4 inf i (11137030094674278400.0, 11137030094674278400.0, e, sum) =
      (11137030094674278400.0, 11137030094674278400.0, inf, inf) := by
  unfold dawsonStep
  simp only [ar_ofNat]
  have hc := cval_arg hi
  have hb : |(-((2.0 * F64.ofNat i + 1.0) * 0.4 * ((2.0 * F64.ofNat i + 1.0) * 0.4)) : F64).val| ≤ 700 := by
    have : ∀ i : Fin 6, F64.le ((2.0 * F64.ofNat i + 1.0) * 0.4 * ((2.0 * F64.ofNat i + 1.0) * 0.4)) 700.0 = true := by decide +kernel
    have h := (le_iff.1 (this ⟨i, hi⟩)).2.2
    rw [val_neg, abs_neg, abs_of_nonneg]
    · have h7 : (700.0 : F64).val = 700 := by have := val_of_int (x := (700.0 : F64)) 700 (by decide +kernel); rw [this]; norm_num
      rwa [h7] at h
    · have := val_nonpos_of_neg hc.2
      rw [val_neg] at this; linarith
  obtain ⟨cf, cp⟩ := L.exp_mid _ hb
  set c := Libm.exp (-((2.0 * F64.ofNat i + 1.0) * 0.4 * ((2.0 * F64.ofNat i + 1.0) * 0.4)) : F64)
  have e1 : e * inf = inf := by
    rw [mul_inf he (by decide) (Or.inr (by decide)) hz (by decide), hneg]; rfl
  have e2 : c * inf = inf := by
    rw [mul_inf (isFin_notNaN cf) (by decide) (Or.inr (by decide)) (val_ne_zero.1 cp.ne') (by decide), neg_of_val_pos cp]; rfl
  rw [e1, show (11137030094674278400.0 + 2.0 : F64) = 11137030094674278400.0 by decide +kernel,
    show (11137030094674278400.0 - 2.0 : F64) = 11137030094674278400.0 by decide +kernel,
    show (inf / 11137030094674278400.0 + 1.0 / (11137030094674278400.0 * inf) : F64) = inf by decide +kernel, e2]
  rcases hs with rfl | rfl
  · rw [show (0.0 + inf : F64) = inf by decide +kernel]
  · rw [show (inf + inf : F64) = inf by decide +kernel]

/-- C36 is false also without overflow checks: `dawson(4454812037869711872)` is NaN. -/
theorem dawson_nan (A : LibmAcc) : ∃ v, Returns (dawson (4454812037869711872.0 : F64)) v ∧ v.isNaN = true := by
  rw [dawson_large (by decide +kernel),
    show wrapU U64_MAX (2 * toUnsigned U64_MAX (0.5 * (4454812037869711872.0 : F64).abs / 0.4 + 0.5)) = .ok 11137030094674278400 by
      rw [show 2 * toUnsigned U64_MAX (0.5 * (4454812037869711872.0 : F64).abs / 0.4 + 0.5) = 11137030094674278400 by decide +kernel]; exact if_pos (by decide)]
  refine ⟨dawsonTail 4454812037869711872.0 (4454812037869711872.0 : F64).abs 0.4 11137030094674278400, rfl, ?_⟩
  unfold dawsonTail
  simp only [ar_ofNat, ar_sqrt]
  rw [show ((4454812037869711872.0 : F64).abs - F64.ofNat 11137030094674278400 * 0.4) = 512.0 by decide +kernel,
    show (F64.ofNat 11137030094674278400 + 1.0 : F64) = 11137030094674278400.0 by decide +kernel,
    show (11137030094674278400.0 - 2.0 : F64) = 11137030094674278400.0 by decide +kernel]
  have h1 : |(2.0 * 512.0 * 0.4 : F64).val| ≤ 700 ∧ 400 ≤ (2.0 * 512.0 * 0.4 : F64).val := by
    have h : F64.le (2.0 * 512.0 * 0.4 : F64) 700.0 = true ∧ F64.le 400.0 (2.0 * 512.0 * 0.4 : F64) = true := by decide +kernel
    have a := (le_iff.1 h.1).2.2
    have b := (le_iff.1 h.2).2.2
    have h7 : (700.0 : F64).val = 700 := by have := val_of_int (x := (700.0 : F64)) 700 (by decide +kernel); rw [this]; norm_num
    have h4 : (400.0 : F64).val = 400 := by have := val_of_int (x := (400.0 : F64)) 400 (by decide +kernel); rw [this]; norm_num
    rw [h7] at a; rw [h4] at b
    exact ⟨by rw [abs_of_pos (by linarith)]; exact a, b⟩
  have hm := A.exp_mid _ h1.1
  have ha := A.exp_acc _ h1.1
  set e1 := Libm.exp (2.0 * 512.0 * 0.4 : F64) with he1
  have hbig : (2:ℝ)^569 ≤ e1.val := by
    have g1 : Real.exp 400 ≤ Real.exp (2.0 * 512.0 * 0.4 : F64).val := Real.exp_le_exp.2 h1.2
    have g2 : (2:ℝ)^570 ≤ Real.exp 400 := by
      have : Real.exp 400 = Real.exp 1 ^ 400 := by rw [← Real.exp_nat_mul]; norm_num
      rw [this]
      have g3 : ((27:ℝ)/10)^400 ≤ Real.exp 1 ^ 400 := pow_le_pow_left₀ (by norm_num) (by have := Real.exp_one_gt_d9; norm_num at *; linarith) _
      refine le_trans ?_ g3
      rw [div_pow, le_div_iff₀ (by positivity)]
      exact_mod_cast (by decide +kernel : 2^570 * 10^400 ≤ 27^400)
    have g4 := g2.trans g1
    generalize Real.exp (2.0 * 512.0 * 0.4 : F64).val = E at *
    rw [show (2:ℝ)^570 = 2^569 * 2 from pow_succ _ _] at g4
    have p : (0:ℝ) < 2^569 := by positivity
    generalize (2:ℝ)^569 = P at *
    rw [abs_le] at ha
    have ha := ha.1
    clear g1 g2 he1 h1
    generalize e1.val = v at *
    norm_num at ha
    linarith
  have hsq : e1 * e1 = inf := by
    have S := mul_spec hm.1 hm.1
    have hv : HUGE ≤ (e1 * e1).val := by
      rw [S.2.1]
      have : RN HUGE = HUGE := by rw [← inf_val]; exact RN_val (by decide)
      rw [← this]
      refine RN_mono ?_
      rw [HUGE_eq]
      calc (2:ℝ)^1024 ≤ 2^(569 + 569) := pow_le_pow_right₀ (by norm_num) (by norm_num)
        _ = 2^569 * 2^569 := pow_add _ _ _
        _ ≤ e1.val * e1.val := mul_le_mul hbig hbig (by positivity) hm.2.le
    have hp : 0 < (e1 * e1).val := lt_of_lt_of_le (lt_of_lt_of_le (by positivity) HUGE_ge) hv
    have hi : (e1 * e1).isInf = true := by
      rcases fin_or_inf S.1 with f | i
      · exact absurd (isFin_iff_val.1 f) (by rw [abs_of_pos hp]; exact not_lt.2 hv)
      · exact i
    rw [isInf_cases hi, neg_of_val_pos hp]; rfl
  rw [hsq]
  have f6 : (List.range 6).foldl (fun s i => dawsonStep 0.4 inf i s) (11137030094674278400.0, 11137030094674278400.0, e1, 0.0) =
      (11137030094674278400.0, 11137030094674278400.0, inf, (inf : F64)) := by
    show dawsonStep 0.4 inf 5 (dawsonStep 0.4 inf 4 (dawsonStep 0.4 inf 3 (dawsonStep 0.4 inf 2 (dawsonStep 0.4 inf 1 (dawsonStep 0.4 inf 0 _))))) = _
    rw [daw_nan_step A.toLibmSpec (by norm_num) (isFin_notNaN hm.1) (val_ne_zero.1 hm.2.ne') (neg_of_val_pos hm.2) (Or.inl rfl)]
    have st : ∀ i, i < 6 → dawsonStep 0.4 inf i (11137030094674278400.0, 11137030094674278400.0, inf, inf) =
      (11137030094674278400.0, 11137030094674278400.0, inf, (inf : F64)) := fun i hi =>
        daw_nan_step A.toLibmSpec hi (by decide) (by decide) (by decide) (Or.inr rfl)
    rw [st 1 (by norm_num), st 2 (by norm_num), st 3 (by norm_num), st 4 (by norm_num), st 5 (by norm_num)]
  rw [f6]
  have hu : Libm.exp (-512.0 * 512.0 : F64) = 0.0 := by
    refine A.exp_under _ (by decide +kernel) ?_
    have := val_of_int (x := (-512.0 * 512.0 : F64)) (-262144) (by decide +kernel); rw [this]; norm_num
  rw [hu]
  show (1.0 / F64.sqrt Arith.pi * sign (0.0 : F64) 4454812037869711872.0 * inf : F64).isNaN = true
  decide +kernel

/-! ## C63 -/

/-- C63 for `|x| < 0.2`: the result is within `1e-7·|x|` (plus the smallest subnormal) of Dawson's integral.  Missing: `|x| ≥ 0.2`, where the
claim is false (`dawson_wrong`). -/
theorem dawson_accurate_partial (x : F64) (hx : |x.val| < (0.2 : F64).val) :
    ∃ v, Returns (dawson x) v ∧ |v.val - dawsonR x.val| ≤ |x.val| / 10^7 + 1 / 2^1074 := by
  have v02 : (0.2 : F64).val = 3602879701896397 / 18014398509481984 := by
    have := val_of_sv (x := (0.2 : F64)) 3602879701896397 18014398509481984 (by norm_num) (by decide +kernel)
    rw [this]; norm_num
  have hx' : |x.val| ≤ 1/5 + 1/10^10 := by rw [v02] at hx; exact hx.le.trans (by norm_num)
  have fx : x.isFin = true := fin_pow2 (p := 0) (by omega) (hx'.trans (by norm_num))
  have hs : F64.lt x.abs 0.2 = true := by
    rw [lt_iff]; exact ⟨by simpa using isFin_notNaN fx, by decide +kernel, by rw [F64.val_abs]; exact hx⟩
  rw [dawson_small hs]
  refine ⟨_, rfl, ?_⟩
  have hb := small_bracket hx'
  have S := (Iv.mul_spec' fx hb.fin).2
  generalize (1.0 - 2.0 / 3.0 * (x * x) * (1.0 - 0.4 * (x * x) * (1.0 - 2.0 / 7.0 * (x * x))) : F64) = c at *
  rw [S]
  have hP : |dawsonP x.val - dawsonR x.val| ≤ |x.val| / (2 * 10^7) := by
    have key : ∀ y : ℝ, 0 ≤ y → y ≤ 1/5 + 1/10^10 → |dawsonP y - dawsonR y| ≤ y / (2 * 10^7) := fun y h0 h1 => dawsonP_err h0 (h1.trans (by norm_num))
    rcases le_total 0 x.val with h | h
    · rw [abs_of_nonneg h] at hx' ⊢; exact key _ h hx'
    · rw [abs_of_nonpos h] at hx' ⊢
      have := key (-x.val) (by linarith) hx'
      have e : dawsonP (-x.val) = -dawsonP x.val := by unfold dawsonP; ring
      rw [e, dawsonR_neg, show -dawsonP x.val - -dawsonR x.val = -(dawsonP x.val - dawsonR x.val) by ring, abs_neg] at this
      exact this
  have hxc : |x.val * c.val| ≤ |x.val| := by
    rw [abs_mul, abs_of_nonneg hb.lo]; exact mul_le_of_le_one_right (abs_nonneg _) hb.hi
  have r := RN_err' (x := x.val * c.val) (lt_of_le_of_lt (hxc.trans hx') (lt_of_lt_of_le (by norm_num) HUGE_ge))
  have e1 : |x.val * c.val - dawsonP x.val| ≤ |x.val| / 10^13 := by
    unfold dawsonP
    rw [← mul_sub, abs_mul]
    refine (mul_le_mul_of_nonneg_left hb.err (abs_nonneg _)).trans (le_of_eq ?_)
    ring
  have t : (1:ℝ) / 2^1075 ≤ 1 / 2^1074 := one_div_le_one_div_of_le (by positivity) (pow_le_pow_right₀ (by norm_num) (by norm_num))
  generalize (1:ℝ) / 2^1075 = u at *
  generalize (1:ℝ) / 2^1074 = w at *
  have r2 : |x.val * c.val| / 2^53 ≤ |x.val| / 2^53 := by gcongr
  have e2 : RN (x.val * c.val) - dawsonR x.val = (RN (x.val * c.val) - x.val * c.val) + (x.val * c.val - dawsonP x.val) + (dawsonP x.val - dawsonR x.val) := by ring
  rw [e2]
  have tri := abs_add_three (RN (x.val * c.val) - x.val * c.val) (x.val * c.val - dawsonP x.val) (dawsonP x.val - dawsonR x.val)
  have px := abs_nonneg x.val
  generalize |x.val| = X at *
  norm_num at *
  linarith


/-- on `0 < x < 0.2` the result is positive -/
theorem dawson_small_pos (x : F64) (h0 : 0 < x.val) (hx : x.val < (0.2 : F64).val) : ∃ v, Returns (dawson x) v ∧ 0 < v.val := by
  have v02 : (0.2 : F64).val = 3602879701896397 / 18014398509481984 := by
    have := val_of_sv (x := (0.2 : F64)) 3602879701896397 18014398509481984 (by norm_num) (by decide +kernel)
    rw [this]; norm_num
  have hx' : |x.val| ≤ 1/5 + 1/10^10 := by rw [abs_of_pos h0]; rw [v02] at hx; exact hx.le.trans (by norm_num)
  have fx : x.isFin = true := fin_pow2 (p := 0) (by omega) (hx'.trans (by norm_num))
  have hs : F64.lt x.abs 0.2 = true := by
    rw [lt_iff]; exact ⟨by simpa using isFin_notNaN fx, by decide +kernel, by rw [F64.val_abs, abs_of_pos h0]; exact hx⟩
  rw [dawson_small hs]
  refine ⟨_, rfl, ?_⟩
  have hb := small_bracket hx'
  have S := (Iv.mul_spec' fx hb.fin).2
  generalize (1.0 - 2.0 / 3.0 * (x * x) * (1.0 - 0.4 * (x * x) * (1.0 - 2.0 / 7.0 * (x * x))) : F64) = c at *
  rw [S]
  have hc : (9/10 : ℝ) ≤ c.val := by
    have h1 := (abs_le.1 hb.err).1
    rw [abs_of_pos h0] at hx'
    have h2 : x.val^2 ≤ 1/24 := by nlinarith
    have h3 : 0 ≤ x.val^2 := sq_nonneg _
    generalize x.val^2 = q at *
    have h4 : 0 ≤ 1 - 2/7 * q := by linarith
    have h5 : 1 - 2/5 * q * (1 - 2/7 * q) ≤ 1 := by nlinarith
    have h6 : 2/3 * q * (1 - 2/5 * q * (1 - 2/7 * q)) ≤ 2/3 * q := by nlinarith
    norm_num at *
    linarith
  have hge : x.val * (9/10) ≤ x.val * c.val := mul_le_mul_of_nonneg_left hc h0.le
  have hle : x.val * c.val ≤ x.val := mul_le_of_le_one_right h0.le hb.hi
  have hp : 0 < x.val * c.val := lt_of_lt_of_le (by positivity) hge
  have hsub : (1:ℝ) / 2^1074 ≤ x.val := by
    have hf := val_pos_form (neg_of_val_pos h0)
    rw [hf] at h0 ⊢
    apply div_le_div_of_nonneg_right _ (by positivity)
    have h3 : 0 < (iv x.mag : ℝ) := by
      by_contra hc
      exact absurd h0 (not_lt.2 (div_nonpos_of_nonpos_of_nonneg (not_lt.1 hc) (by positivity)))
    have h4 : 0 < iv x.mag := by exact_mod_cast h3
    exact_mod_cast h4
  have r := RN_err (x := x.val * c.val) (by
    rw [abs_of_pos hp]
    rw [abs_of_pos h0] at hx'
    exact lt_of_le_of_lt (hle.trans hx') (lt_of_lt_of_le (by norm_num) HUGE_ge))
  rw [abs_of_pos hp] at r
  have e : (1:ℝ) / 2^1075 = 1 / 2^1074 / 2 := by rw [div_div, ← pow_succ]
  rw [e] at r
  generalize (1:ℝ) / 2^1074 = w at *
  clear e
  have m : Max.max (x.val * c.val / 2^53) (w / 2) < x.val * c.val := by
    apply max_lt
    · exact div_lt_self hp (by norm_num)
    · linarith
  have := (abs_le.1 r).1
  linarith

example : 0 < (0.1 : F64).val ∧ (0.1 : F64).val < (0.2 : F64).val := by
  have a := (lt_iff.1 (by decide +kernel : F64.lt 0.0 0.1 = true)).2.2
  rw [Verif.zero_val] at a
  exact ⟨a, (lt_iff.1 (by decide +kernel : F64.lt 0.1 0.2 = true)).2.2⟩

/-- one step of the Rybicki sum on intervals; `c` encloses the weight -/
def dawStepO (e2 : OIv) (c : OIv) (s : OIv × OIv × OIv × OIv) : OIv × OIv × OIv × OIv :=
  (s.1 + 2.0, s.2.1 - 2.0, s.2.2.1 * e2, s.2.2.2 + c * (s.2.2.1 * e2 / (s.1 + 2.0) + 1.0 / ((s.2.1 - 2.0) * (s.2.2.1 * e2))))

theorem rel_dawStep {E C : OIv} {e2 : F64} {i : ℕ} {S : OIv × OIv × OIv × OIv} {s : F64 × F64 × F64 × F64} (hE : Encl E e2)
    (hC : Encl C (Libm.exp (-((2.0 * F64.ofNat i + 1.0) * 0.4 * ((2.0 * F64.ofNat i + 1.0) * 0.4)) : F64)))
    (h : Encl S.1 s.1 ∧ Encl S.2.1 s.2.1 ∧ Encl S.2.2.1 s.2.2.1 ∧ Encl S.2.2.2 s.2.2.2) :
    Encl (dawStepO E C S).1 (dawsonStep 0.4 e2 i s).1 ∧ Encl (dawStepO E C S).2.1 (dawsonStep 0.4 e2 i s).2.1 ∧
    Encl (dawStepO E C S).2.2.1 (dawsonStep 0.4 e2 i s).2.2.1 ∧ Encl (dawStepO E C S).2.2.2 (dawsonStep 0.4 e2 i s).2.2.2 := by
  obtain ⟨h1, h2, h3, h4⟩ := h
  have l2 : Encl (2.0 : OIv) (2.0 : F64) := rel_lit _ _ _
  have l1 : Encl (1.0 : OIv) (1.0 : F64) := rel_lit _ _ _
  have a := rel_add h1 l2
  have b := rel_sub h2 l2
  have c := rel_mul h3 hE
  unfold dawStepO dawsonStep
  simp only [ar_ofNat]
  refine ⟨a, b, c, rel_add h4 (rel_mul hC (rel_add (rel_div c a) (rel_div l1 (rel_mul b c))))⟩

/-- C63 is false for `|x| ≥ 0.2`: `dawson(0.5)` is below `-0.4`, while Dawson's integral is positive (its value at 0.5 is 0.4244…). -/
theorem dawson_wrong (A : LibmAcc) : ∃ v, Returns (dawson (0.5 : F64)) v ∧ v.val ≤ -(2/5) ∧ 0 < dawsonR (0.5 : F64).val := by
  rw [dawson_large (by decide +kernel),
    show wrapU U64_MAX (2 * toUnsigned U64_MAX (0.5 * (0.5 : F64).abs / 0.4 + 0.5)) = .ok 2 by
      rw [show 2 * toUnsigned U64_MAX (0.5 * (0.5 : F64).abs / 0.4 + 0.5) = 2 by decide +kernel]; exact if_pos (by decide)]
  refine ⟨dawsonTail 0.5 (0.5 : F64).abs 0.4 2, rfl, ?_, dawsonR_pos (by rw [half_val]; norm_num)⟩
  have val_lit : ∀ (x : F64) (n : ℤ) (d : ℕ), 0 < d → x.sv * d = n * 2^1074 → x.val = n / d := fun x n d h1 h2 => val_of_sv n d h1 h2
  unfold dawsonTail
  simp only [ar_ofNat, ar_sqrt]
  have bnd : ∀ {x : F64} (l u : ℝ), l ≤ x.val → x.val ≤ u → -700 ≤ l → u ≤ 0 →
      (1 + l) * (1 - 1/10^6) ≤ (Libm.exp x).val ∧ (Libm.exp x).val ≤ 1 / (1 - u) * (1 + 1/10^6) := by
    intro x l u h1 h2 h3 h4
    have a := A.exp_acc x (by rw [abs_le]; constructor <;> linarith)
    have m1 := Real.add_one_le_exp x.val
    have m2 : Real.exp x.val ≤ 1 / (1 - u) := by
      have := Real.add_one_le_exp (-x.val)
      rw [Real.exp_neg] at this
      have hp := Real.exp_pos x.val
      rw [le_div_iff₀ (by linarith)]
      have h5 : 1 - u ≤ (Real.exp x.val)⁻¹ := by linarith
      calc Real.exp x.val * (1 - u) ≤ Real.exp x.val * (Real.exp x.val)⁻¹ := by gcongr
        _ = 1 := mul_inv_cancel₀ hp.ne'
    rw [abs_le] at a
    have hp := Real.exp_pos x.val
    generalize Real.exp x.val = E at *
    generalize 1 / (1 - u) = U at *
    constructor <;> nlinarith
  have ble : ∀ {x : F64} {a b : F64}, F64.le a x = true → F64.le x b = true → a.val ≤ x.val ∧ x.val ≤ b.val := fun h1 h2 =>
    ⟨(le_iff.1 h1).2.2, (le_iff.1 h2).2.2⟩
  have v25 : (-0.25 : F64).val = -(1/4) := by have := val_lit (-0.25) (-1) 4 (by norm_num) (by decide +kernel); rw [this]; norm_num
  have v125 : (-0.125 : F64).val = -(1/8) := by have := val_lit (-0.125) (-1) 8 (by norm_num) (by decide +kernel); rw [this]; norm_num
  have v1875 : (-0.1875 : F64).val = -(3/16) := by have := val_lit (-0.1875) (-3) 16 (by norm_num) (by decide +kernel); rw [this]; norm_num
  have v74 : (0.74 : F64).val ≤ 0.741 := by
    have := val_le_of_sv (x := (0.74 : F64)) 741 1000 (by norm_num) (by decide +kernel); norm_num at *; exact this
  have v81 : 0.849 ≤ (0.85 : F64).val := by
    have := le_val_of_sv (x := (0.85 : F64)) 849 1000 (by norm_num) (by decide +kernel); norm_num at *; exact this
  have v87 : (0.87 : F64).val ≤ 0.871 := by
    have := val_le_of_sv (x := (0.87 : F64)) 871 1000 (by norm_num) (by decide +kernel); norm_num at *; exact this
  have hE1 : Encl (mk2 0.74 0.85) (Libm.exp (2.0 * ((0.5 : F64).abs - F64.ofNat 2 * 0.4) * 0.4)) := by
    have h := ble (x := 2.0 * ((0.5 : F64).abs - F64.ofNat 2 * 0.4) * 0.4) (a := -0.25) (b := -0.1875) (by decide +kernel) (by decide +kernel)
    rw [v25, v1875] at h
    have := bnd _ _ h.1 h.2 (by norm_num) (by norm_num)
    norm_num at this v74 v81
    exact rel_mk2 (by linarith) (by linarith)
  have hC0 : Encl (mk2 0.74 1.0) (Libm.exp (-((2.0 * F64.ofNat 0 + 1.0) * 0.4 * ((2.0 * F64.ofNat 0 + 1.0) * 0.4)) : F64)) := by
    have h := ble (x := (-((2.0 * F64.ofNat 0 + 1.0) * 0.4 * ((2.0 * F64.ofNat 0 + 1.0) * 0.4)) : F64)) (a := -0.25) (b := -0.125)
      (by decide +kernel) (by decide +kernel)
    rw [v25, v125] at h
    have := bnd _ _ h.1 h.2 (by norm_num) (by norm_num)
    norm_num at this v74
    exact rel_mk2 (by linarith) (by rw [one_val]; linarith)
  have hC : ∀ i, i < 6 → Encl (mk2 0.0 1.0) (Libm.exp (-((2.0 * F64.ofNat i + 1.0) * 0.4 * ((2.0 * F64.ofNat i + 1.0) * 0.4)) : F64)) := by
    intro i hi
    have hc := cval_arg hi
    exact rel_mk2 (by rw [Verif.zero_val]; exact val_nonneg_of_neg (A.exp_num _ hc.1).2)
      (by rw [one_val]; exact A.exp_le_one _ hc.1 (val_nonpos_of_neg hc.2))
  have hX : Encl (mk2 0.87 1.0) (Libm.exp (-((0.5 : F64).abs - F64.ofNat 2 * 0.4) * ((0.5 : F64).abs - F64.ofNat 2 * 0.4))) := by
    have h := ble (x := -((0.5 : F64).abs - F64.ofNat 2 * 0.4) * ((0.5 : F64).abs - F64.ofNat 2 * 0.4)) (a := -0.125) (b := -0.0625)
      (by decide +kernel) (by decide +kernel)
    rw [v125, show (-0.0625 : F64).val = -(1/16) by have := val_lit (-0.0625) (-1) 16 (by norm_num) (by decide +kernel); rw [this]; norm_num] at h
    have := bnd _ _ h.1 h.2 (by norm_num) (by norm_num)
    norm_num at this v87
    exact rel_mk2 (by linarith) (by rw [one_val]; linarith)
  set e1 := Libm.exp (2.0 * ((0.5 : F64).abs - F64.ofNat 2 * 0.4) * 0.4)
  have hE2 := rel_mul hE1 hE1
  have st : Encl (pt 3.0) (F64.ofNat 2 + 1.0) ∧ Encl (pt 1.0) (F64.ofNat 2 + 1.0 - 2.0) := by
    rw [show (F64.ofNat 2 + 1.0 : F64) = 3.0 by decide +kernel, show (3.0 - 2.0 : F64) = 1.0 by decide +kernel]
    exact ⟨rel_pt _, rel_pt _⟩
  have r1 := rel_dawStep hE2 hC0 (S := (pt 3.0, pt 1.0, mk2 0.74 0.85, pt 0.0)) (s := (F64.ofNat 2 + 1.0, F64.ofNat 2 + 1.0 - 2.0, e1, 0.0))
    ⟨st.1, st.2, hE1, rel_pt _⟩
  have r2 := rel_dawStep hE2 (hC 1 (by norm_num)) r1
  have r3 := rel_dawStep hE2 (hC 2 (by norm_num)) r2
  have r4 := rel_dawStep hE2 (hC 3 (by norm_num)) r3
  have r5 := rel_dawStep hE2 (hC 4 (by norm_num)) r4
  have r6 := (rel_dawStep hE2 (hC 5 (by norm_num)) r5).2.2.2
  have hs : sign (Libm.exp (-((0.5 : F64).abs - F64.ofNat 2 * 0.4) * ((0.5 : F64).abs - F64.ofNat 2 * 0.4))) (0.5 : F64) =
      Libm.exp (-((0.5 : F64).abs - F64.ofNat 2 * 0.4) * ((0.5 : F64).abs - F64.ofNat 2 * 0.4)) := by
    have hn := (A.exp_num (-((0.5 : F64).abs - F64.ofNat 2 * 0.4) * ((0.5 : F64).abs - F64.ofNat 2 * 0.4)) (by decide +kernel)).2
    generalize Libm.exp (-((0.5 : F64).abs - F64.ofNat 2 * 0.4) * ((0.5 : F64).abs - F64.ofNat 2 * 0.4)) = y at *
    show (if Arith.signPos (0.5 : F64) = true then y.abs else -y.abs) = y
    rw [if_pos (by decide +kernel)]
    apply ext'
    · show false = y.neg; rw [hn]
    · rfl
  rw [hs]
  have r := rel_mul (rel_mul (rel_pt (1.0 / F64.sqrt Arith.pi : F64)) hX) r6
  have q := rel_inside (l := -100000.0) (h := -0.40625) r (by decide +kernel)
  refine le_trans q.2.2 ?_
  have := val_lit (-0.40625) (-13) 32 (by norm_num) (by decide +kernel); rw [this]; norm_num

end Verif
