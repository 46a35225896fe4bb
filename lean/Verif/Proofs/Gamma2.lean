import Verif.Proofs.Gamma

/-! What `gamma` returns, by class of argument. -/

namespace Verif
open F64

/-- a finite non-zero positive factor keeps class and sign -/
theorem mul_core {c w : F64} (hc : c.isFin = true) (hc1 : 1 ≤ c.val) (hw : w.isNaN = false) :
    (c * w).isNaN = false ∧ (c * w).neg = w.neg ∧ ∀ b : F64, b.isNaN = false → 0 ≤ b.val → b.val ≤ w.val → b.val ≤ (c * w).val := by
  have hcn : c.neg = false := neg_of_val_pos (by linarith)
  rcases fin_or_inf hw with h | h
  · obtain ⟨m1, m2, m3⟩ := mul_spec hc h
    refine ⟨m1, by rw [m3, hcn]; cases w.neg <;> rfl, ?_⟩
    intro b hb hb0 hbw
    rw [m2]
    apply le_RN_of_le hb
    nlinarith
  · have hz : c.isZero = false := val_ne_zero.1 (by linarith)
    have hwz := notZero_of_inf h
    rw [mul_inf (isFin_notNaN hc) hw (Or.inr h) hz hwz, hcn]
    have e : (false != w.neg) = w.neg := by cases w.neg <;> rfl
    rw [e, ← isInf_cases h]
    exact ⟨hw, rfl, fun b _ _ hb => hb⟩

theorem lit64inv_val : (0.015625 : F64).val = 1/64 := by
  rw [val_of_sv (x := (0.015625 : F64)) 1 64 (by norm_num) (by decide +kernel)]; norm_num

theorem one_neg : (1.0 : F64).neg = false := by decide +kernel

theorem inv_f {f : F64} (hf : f.isFin = true) :
    (1.0 / f).isNaN = false ∧ (1.0 / f).neg = f.neg ∧ (f.neg = false → f.val ≤ 64 → (1:ℝ)/64 ≤ (1.0 / f).val) := by
  cases hz : f.isZero
  · have h0 : f.val ≠ 0 := val_ne_zero.2 hz
    obtain ⟨d1, d2, d3⟩ := div_spec one_fin hf h0
    refine ⟨d1, by rw [d3, one_neg]; cases f.neg <;> rfl, ?_⟩
    intro hn hle
    rw [d2, ← lit64inv_val]
    apply le_RN_of_le (by decide +kernel)
    have hp : 0 < f.val := lt_of_le_of_ne (val_nonneg_of_neg hn) h0.symm
    rw [lit64inv_val, one_val]
    exact one_div_le_one_div_of_le hp hle
  · have := div_zero_pos one_fin (by decide +kernel) hz
    rw [this, one_neg]
    refine ⟨by cases f.neg <;> decide, by cases f.neg <;> rfl, ?_⟩
    intro hn _
    rw [hn]
    show _ ≤ inf.val
    rw [inf_val]
    have := HUGE_ge
    have h2 : (1:ℝ)/64 ≤ 10^200 := by norm_num
    linarith

/-- `GAMMA_MAX_INPUT` -/
theorem gmax_val_le : (GAMMA_MAX_INPUT : F64).val < 172 := by
  have h : F64.lt (GAMMA_MAX_INPUT : F64) 172.0 = true := by decide +kernel
  have h2 := (lt_iff.1 h).2.2
  have h3 : (172.0 : F64).val = 172 := by rw [val_of_int (x := (172.0 : F64)) 172 (by decide +kernel)]; norm_num
  rwa [h3] at h2
theorem gmax_nn : (GAMMA_MAX_INPUT : F64).isNaN = false := by decide +kernel
theorem gmax_ge : (171:ℝ) < (GAMMA_MAX_INPUT : F64).val := by
  have h : F64.lt 171.0 (GAMMA_MAX_INPUT : F64) = true := by decide +kernel
  have h2 := (lt_iff.1 h).2.2
  have h3 : (171.0 : F64).val = 171 := by rw [val_of_int (x := (171.0 : F64)) 171 (by decide +kernel)]; norm_num
  rwa [h3] at h2

variable [Cfg]

theorem gamma_big {z : F64} (hz : z.isNaN = false) (h : (GAMMA_MAX_INPUT : F64).val < z.val) : gamma z = .ok inf := by
  unfold gamma
  rw [ar_lt, lt_iff.2 ⟨gmax_nn, hz, h⟩]; rfl

theorem gamma_lt_false {z : F64} (h : z.isNaN = true ∨ z.val ≤ (GAMMA_MAX_INPUT : F64).val) :
    F64.lt GAMMA_MAX_INPUT z = false := by
  rcases hn : z.isNaN with _ | _
  · rw [lt_false_iff gmax_nn hn]
    rcases h with h | h
    · rw [hn] at h; cases h
    · exact h
  · exact lt_nan_right hn

theorem gamma_zero {z : F64} (hz : z.isZero = true) : gamma z = .ok (sinf z.neg) := by
  unfold gamma
  have h1 : F64.lt GAMMA_MAX_INPUT z = false := gamma_lt_false (Or.inr (by
    rw [val_eq_zero.2 hz]; linarith [gmax_ge]))
  rw [ar_lt, ar_eq, h1, eq_zero_iff.2 hz]; rfl

theorem gamma_nan {z : F64} (hz : z.isNaN = true) : gamma z = .ok nan := by
  unfold gamma
  rw [ar_lt, ar_eq, ar_eq, ar_eq, ar_fract, gamma_lt_false (Or.inl hz), eq_nan_left hz, eq_nan_left hz]
  have : F64.eq (F64.fract z) 0.0 = false := by
    rw [Bool.eq_false_iff]; intro h
    have := isFin_notNaN (fract_eq_zero.1 h).1
    rw [hz] at this; cases this
  rw [this, ar_isNaN, hz]; rfl

theorem gamma_negint {z : F64} (hz : z.IsInt) (h0 : z.val < 0) : gamma z = .ok nan := by
  unfold gamma
  have h1 : F64.lt GAMMA_MAX_INPUT z = false := gamma_lt_false (Or.inr (by linarith [gmax_ge]))
  have h2 : F64.eq z 0.0 = false := by
    rw [Bool.eq_false_iff]; intro h
    have := val_eq_zero.2 (eq_zero_iff.1 h); linarith
  have h3 : F64.lt z 0.0 = true := by
    rw [lt_iff, zero_val]; exact ⟨isFin_notNaN hz.1, isFin_notNaN zero_fin, h0⟩
  rw [ar_lt, ar_eq, ar_eq, ar_fract, h1, h2, fract_eq_zero.2 hz, ar_lt, h3]; rfl

theorem gamma_ninf : gamma ninf = .ok nan := by
  unfold gamma
  have h1 : F64.lt GAMMA_MAX_INPUT ninf = false := by decide +kernel
  have h2 : F64.eq ninf 0.0 = false := by decide +kernel
  have h3 : F64.eq (fract ninf) 0.0 = false := by decide +kernel
  have h4 : F64.eq ninf (-inf) = true := by decide +kernel
  rw [ar_lt, ar_eq, ar_eq, ar_eq, ar_fract, ar_inf, h1, h2, h3, h4]; rfl

theorem gamma_posint {z : F64} (k : ℕ) (hk : 1 ≤ k) (hk2 : k ≤ 171) (hz : z.val = k) : gamma z = factorial (α := F64) (k - 1) := by
  have hkr : (1:ℝ) ≤ k := by exact_mod_cast hk
  have hkr2 : (k:ℝ) ≤ 171 := by exact_mod_cast hk2
  have hfin : z.isFin = true := isFin_of_abs (b := 171) (by rw [hz, abs_of_nonneg (by linarith)]; exact hkr2) (by norm_num)
  unfold gamma
  have h1 : F64.lt GAMMA_MAX_INPUT z = false := gamma_lt_false (Or.inr (by linarith [gmax_ge]))
  have h2 : F64.eq z 0.0 = false := by
    rw [Bool.eq_false_iff]; intro h
    have := val_eq_zero.2 (eq_zero_iff.1 h); linarith
  have h3 : F64.lt z 0.0 = false := by
    rw [lt_false_iff (isFin_notNaN hfin) (isFin_notNaN zero_fin), zero_val]; linarith
  have h4 : F64.eq (fract z) 0.0 = true := fract_eq_zero.2 ⟨hfin, k, by rw [hz]; simp⟩
  rw [ar_lt, ar_eq, ar_eq, ar_fract, h1, h2, h4, ar_lt, h3]
  simp only [Bool.false_eq_true, if_false, if_true]
  have hu : (Arith.toU USIZE_MAX z) = k := by
    rw [ar_toU, toUnsigned_spec hfin (by linarith), hz, Nat.floor_natCast]
    exact Nat.min_eq_left (by have : (171:ℕ) ≤ USIZE_MAX := by decide
                              omega)
  rw [hu, if_neg (by omega)]
  rfl

/-- the remaining arguments: finite, not an integer, at most `GAMMA_MAX_INPUT` -/
theorem gamma_main {z : F64} (hfin : z.isFin = true) (hi : ¬ z.IsInt) (hle : z.val ≤ (GAMMA_MAX_INPUT : F64).val) :
    gamma z = (if F64.lt 3.5 z then (do
        let (z, f) ← gammaDown gammaFuel z 1.0
        pure (gammaCore z * f))
      else if F64.lt z 2.5 then (do
        match ← gammaUp gammaFuel z 1.0 with
        | none => pure 0.0
        | some (z, f) => pure (gammaCore z * (1.0 / f)))
      else pure (gammaCore z * 1.0)) := by
  conv_lhs => unfold gamma
  have h2 : F64.eq z 0.0 = false := by
    rw [Bool.eq_false_iff]; intro h
    exact hi ⟨hfin, 0, by rw [val_eq_zero.2 (eq_zero_iff.1 h)]; simp⟩
  have h4 : F64.eq (fract z) 0.0 = false := by
    rw [Bool.eq_false_iff]; intro h; exact hi (fract_eq_zero.1 h)
  have h5 : F64.eq z (-inf) = false := by
    rw [Bool.eq_false_iff]; intro h
    have := (eq_iff.1 h).2.2
    rw [val_neg, inf_val] at this
    have := fin_gt hfin; linarith
  rw [ar_lt, ar_eq, ar_eq, ar_eq, ar_fract, ar_inf, gamma_lt_false (Or.inr hle), h2, h4, h5, ar_isNaN, isFin_notNaN hfin]
  simp only [Bool.false_eq_true, if_false, ar_lt]
  rcases gammaUp gammaFuel z 1.0 with e | (_ | ⟨a, b⟩) <;> rfl

/-- positive non-integers -/
theorem gamma_pos_nonint {z : F64} (hfin : z.isFin = true) (hi : ¬ z.IsInt) (h0 : 0 < z.val) (hle : z.val ≤ (GAMMA_MAX_INPUT : F64).val) :
    ∃ v, gamma z = .ok v ∧ v.isNaN = false ∧ 0 < v.val := by
  have hnn := isFin_notNaN hfin
  rw [gamma_main hfin hi hle]
  have hmax := gmax_val_le
  rcases lt_or_ge (7/2) z.val with h1 | h1
  · have : F64.lt 3.5 z = true := by rw [lt_iff, lit35_val]; exact ⟨lit35_nn, hnn, h1⟩
    rw [this]
    obtain ⟨z', f', e, r1, r2, r3, r4⟩ := gammaDown_spec 169 gammaFuel z 1.0 (by norm_num) (by linarith) (by push_cast; linarith)
      (by norm_num; linarith) one_nn (by rw [one_val])
    obtain ⟨c1, c2, c3⟩ := gammaCore_range r1 r2.le
    obtain ⟨m1, m2, m3⟩ := mul_ge_one (isFin_notNaN c1) r3 c2 r4
    refine ⟨gammaCore z' * f', ?_, m1, by linarith⟩
    rw [if_pos rfl, e]; rfl
  · have hf1 : F64.lt 3.5 z = false := by rw [lt_false_iff lit35_nn hnn, lit35_val]; exact h1
    rw [hf1, if_neg (by decide)]
    rcases lt_or_ge z.val (5/2) with h2 | h2
    · have : F64.lt z 2.5 = true := by rw [lt_iff, lit25_val]; exact ⟨hnn, lit25_nn, h2⟩
      rw [this, if_pos rfl]
      obtain ⟨z', f', e, r1, r2, r3, r4, r5⟩ := gammaUp_pos' 3 gammaFuel z 1.0 (by norm_num) (by norm_num) (by push_cast; linarith) h0
        (by linarith) one_nn one_neg (by rw [one_val]; norm_num)
      obtain ⟨c1, c2, c3⟩ := gammaCore_range r1 r2
      obtain ⟨i1, i2, i3⟩ := inv_f r3
      obtain ⟨m1, m2, m3⟩ := mul_core c1 c2 i1
      refine ⟨gammaCore z' * (1.0 / f'), by rw [e]; rfl, m1, ?_⟩
      have := m3 0.015625 (by decide +kernel) (by rw [lit64inv_val]; norm_num) (by rw [lit64inv_val]; exact i3 r4 r5)
      rw [lit64inv_val] at this
      have h64 : (0:ℝ) < 1/64 := by norm_num
      linarith
    · have : F64.lt z 2.5 = false := by rw [lt_false_iff hnn lit25_nn, lit25_val]; exact h2
      rw [this, if_neg (by decide)]
      obtain ⟨c1, c2, c3⟩ := gammaCore_range h2 h1
      obtain ⟨m1, m2, m3⟩ := mul_ge_one (isFin_notNaN c1) one_nn c2 (by rw [one_val])
      exact ⟨_, rfl, m1, by linarith⟩

/-- negative non-integers -/
theorem gamma_neg_nonint {z : F64} (hfin : z.isFin = true) (hi : ¬ z.IsInt) (h0 : z.val < 0) :
    ∃ v, gamma z = .ok v ∧ v.isNaN = false ∧ (v.isZero = true ∨ v.neg = decide (⌈|z.val|⌉₊ % 2 = 1)) := by
  have hnn := isFin_notNaN hfin
  rw [gamma_main hfin hi (by linarith [gmax_ge])]
  have hf1 : F64.lt 3.5 z = false := by rw [lt_false_iff lit35_nn hnn, lit35_val]; linarith
  have hf2 : F64.lt z 2.5 = true := by rw [lt_iff, lit25_val]; exact ⟨hnn, lit25_nn, by linarith⟩
  rw [hf1, if_neg (by decide), hf2, if_pos rfl]
  rcases le_or_gt z.val (-(64 + ((170:ℕ):ℝ))) with hfar | hnear
  · have := gammaUp_far 170 gammaFuel z 1.0 (by norm_num) (by norm_num) hfin hfar one_fin (by rw [one_val]; norm_num)
    rw [this]
    exact ⟨0.0, rfl, by decide +kernel, Or.inl (by decide +kernel)⟩
  · push_cast at hnear
    -- n = ⌈|z|⌉₊ - 1
    have hc1 : |z.val| ≤ (⌈|z.val|⌉₊ : ℝ) := Nat.le_ceil _
    have hpos : 0 < ⌈|z.val|⌉₊ := Nat.ceil_pos.2 (abs_pos.2 (by linarith))
    obtain ⟨n, hn⟩ : ∃ n, ⌈|z.val|⌉₊ = n + 1 := ⟨⌈|z.val|⌉₊ - 1, by omega⟩
    have hc2 : (n:ℝ) < |z.val| := by
      have : n < ⌈|z.val|⌉₊ := by omega
      exact Nat.lt_ceil.1 this
    rw [hn] at hc1
    push_cast at hc1
    rw [abs_of_neg h0] at hc1 hc2
    have hc3 : -z.val ≠ n + 1 := by
      intro h
      exact hi ⟨hfin, -((n:ℤ)+1), by push_cast; linarith⟩
    have hc4 : -z.val < n + 1 := lt_of_le_of_ne hc1 hc3
    have hnb : n < 234 := by
      have : (n:ℝ) < 234 := by linarith
      exact_mod_cast this
    rcases gammaUp_neg n gammaFuel z 1.0 (by show n + 5 ≤ 250; omega) (by have : (234:ℕ) ≤ 2^52 := by norm_num
                                                                          omega) (by linarith) (by linarith) one_fin with h | ⟨z', f', e, r1, r2, r3, r4⟩
    · rw [h]
      exact ⟨0.0, rfl, by decide +kernel, Or.inl (by decide +kernel)⟩
    · rw [e]
      obtain ⟨c1, c2, c3⟩ := gammaCore_range r1 r2
      obtain ⟨i1, i2, i3⟩ := inv_f r3
      obtain ⟨m1, m2, m3⟩ := mul_core c1 c2 i1
      refine ⟨_, rfl, m1, Or.inr ?_⟩
      rw [m2, i2, r4, one_neg, hn]
      cases decide ((n+1) % 2 = 1) <;> rfl

end Verif
