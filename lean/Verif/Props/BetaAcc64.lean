import Verif.Proofs.BetaCfI
import Verif.Props.BetaAcc

/-!
# Accuracy of `betai` in binary64 (src/beta.rs): C78

The specification is `regBeta` of `Verif/SpecIncBeta.lean`.
-/

namespace Verif
open F64 Bcf

/-- the branch point of the code -/
theorem branch_sr {a b : F64} (ha : 1 / 10^5 ≤ a.val) (ha1 : a.val ≤ 1000) (hb : 1 / 10^5 ≤ b.val) (hb1 : b.val ≤ 1000) :
    SR ((a + 1.0) / (a + b * 2.0)) ((a.val + 1) / (a.val + 2 * b.val)) 4 := by
  have a0 : 0 < a.val := lt_of_lt_of_le (by norm_num) ha
  have b0 : 0 < b.val := lt_of_lt_of_le (by norm_num) hb
  have fa : a.isFin = true := isFin_of_abs (b := 1000) (by rw [abs_of_pos a0]; exact ha1) (by norm_num)
  have fb : b.isFin = true := isFin_of_abs (b := 1000) (by rw [abs_of_pos b0]; exact hb1) (by norm_num)
  have sm : ∀ {A : ℝ}, 1 / 10^9 ≤ A → A ≤ 10^9 → Rng A := fun h1 h2 => rng_n (by norm_num at h1 ⊢; linarith) (by norm_num at h2 ⊢; linarith)
  have u := sr_add (sr_self fa) one_sr a0.le (by norm_num) (sm (by norm_num; linarith) (by norm_num; linarith)) le_rfl (by norm_num)
  have v := sr_mul (sr_self fb) two_sr (sm (by norm_num at hb ⊢; linarith) (by norm_num; linarith)) le_rfl le_rfl (by norm_num) (by norm_num)
  have w := sr_add ((sr_self fa).mono (show (0:ℝ) ≤ 0 + 0 + 1 by norm_num)) v a0.le (by linarith) (sm (by norm_num at ha ⊢; linarith) (by norm_num; linarith)) (by norm_num) (by norm_num)
  rw [mul_comm b.val] at w
  have dp : 0 < a.val + 2 * b.val := by linarith
  exact (sr_div u w dp (sm (by rw [le_div_iff₀ dp]; norm_num; linarith) (by rw [div_le_iff₀ dp]; norm_num at ha hb ⊢; linarith)) (by norm_num) (by norm_num) (by norm_num) (by norm_num)).mono (by norm_num)

/-- the direct branch -/
theorem betai_direct [Libm F64] (L : LibmUlp) {a b x : F64} (ha : 1 / 10^5 ≤ a.val) (ha1 : a.val ≤ 1000) (hb : 1 / 10^5 ≤ b.val) (hb1 : b.val ≤ 1)
    (h0 : 1 / 10^270 ≤ x.val) (h1 : x.val ≤ 999 / 1000) (hc : F64.lt x ((a + 1.0) / (a + b * 2.0)) = true) :
    ∃ v, Returns (betai a b x) v ∧ v.isFin = true ∧ |v.val - regBeta a.val b.val x.val| ≤
      (2.3 / 10^8 + 1.3 / 10^10 * (1 / (1 - x.val)) + 1.1 / 10^12 * (1 / a.val + 1 / b.val)) * regBeta a.val b.val x.val + 1 / 10^300 := by
  have a0 : 0 < a.val := lt_of_lt_of_le (by norm_num) ha
  have b0 : 0 < b.val := lt_of_lt_of_le (by norm_num) hb
  have x0 : 0 < x.val := lt_of_lt_of_le (by positivity) h0
  have x1 : x.val < 1 := lt_of_le_of_lt h1 (by norm_num)
  have fx : x.isFin = true := isFin_of_abs (b := 1) (by rw [abs_of_pos x0]; exact x1.le) (by norm_num)
  have H : Ctx a b x x.val := ⟨ha, ha1, hb, hb1, (sr_self fx).mono (by norm_num), h0, h1⟩
  have br := betai_branch H.fa H.fb fx a0 b0 (Or.inl (by linarith)) x0 x1
  rw [if_pos hc] at br
  obtain ⟨f1, f2⟩ := front_f64 L ha ha1 hb (by linarith) h0 x1
  obtain ⟨d1, d2⟩ := dir_f64 H f1 f2
  exact ⟨_, br, d1, d2⟩

/-- the mirrored branch -/
theorem betai_mirrored [Libm F64] (L : LibmUlp) {a b x : F64} (ha : 1 / 10^5 ≤ a.val) (ha1 : a.val ≤ 1) (hb : 1 / 10^5 ≤ b.val) (hb1 : b.val ≤ 1000)
    (h0 : 1 / 1000 ≤ x.val) (h1 : x.val < 1) (hc : ¬ F64.lt x ((a + 1.0) / (a + b * 2.0)) = true) :
    ∃ v, Returns (betai a b x) v ∧ v.isFin = true ∧ |v.val - regBeta a.val b.val x.val| ≤
      (2.3 / 10^8 + 1.3 / 10^10 * (1 / x.val) + 1.1 / 10^12 * (1 / a.val + 1 / b.val)) * (1 - regBeta a.val b.val x.val) + 3 / 10^16 := by
  have a0 : 0 < a.val := lt_of_lt_of_le (by norm_num) ha
  have b0 : 0 < b.val := lt_of_lt_of_le (by norm_num) hb
  have x0 : 0 < x.val := lt_of_lt_of_le (by positivity) h0
  have fx : x.isFin = true := isFin_of_abs (b := 1) (by rw [abs_of_pos x0]; exact h1.le) (by norm_num)
  obtain ⟨o1, o2⟩ := one_sub_ab x0.le h1
  have lx := lt_one_le h1
  have H : Ctx b a (1.0 - x) (1 - x.val) := by
    refine ⟨hb, hb1, ha, ha1, ⟨o1, o2.trans ?_⟩, ?_, by linarith⟩
    · rw [abs_of_pos (by linarith)]
      exact mul_le_mul_of_nonneg_right (by unfold uu; norm_num) (by linarith)
    · refine le_trans (one_div_le_one_div_of_le (by positivity) (pow_le_pow_right₀ (by norm_num) (show 20 ≤ 270 by norm_num))) ?_
      norm_num at lx ⊢; linarith
  have br := betai_branch H.fb H.fa fx a0 b0 (Or.inl (by linarith)) x0 h1
  rw [if_neg hc] at br
  obtain ⟨f1, f2⟩ := front_f64 L ha (by linarith) hb hb1 (le_trans (by
    refine one_div_le_one_div_of_le (by positivity) ?_
    calc (1000:ℝ) = 10^3 := by norm_num
      _ ≤ _ := pow_le_pow_right₀ (by norm_num) (by norm_num)) h0) h1
  have e : x.val^a.val * (1 - x.val)^b.val / eulerBeta a.val b.val = (1 - x.val)^b.val * (1 - (1 - x.val))^a.val / eulerBeta b.val a.val := by
    rw [sub_sub_cancel, eulerBeta_symm (a := b.val), mul_comm]
  rw [e, add_comm (1 / a.val)] at f2
  obtain ⟨d1, d2⟩ := dir_f64 H f1 f2
  have s := regBeta_add a0 b0 x0.le h1.le
  have J0 := regBeta_nonneg b0 a0 (show 0 ≤ 1 - x.val by linarith) (by linarith)
  have J1 := regBeta_nonneg a0 b0 x0.le h1.le
  rw [show regBeta b.val a.val (1 - x.val) = 1 - regBeta a.val b.val x.val by linarith, sub_sub_cancel, add_comm (1 / b.val)] at d2
  have o := (sub_spec (show (1.0:F64).isFin = true by decide +kernel) d1).2
  rw [one_val] at o
  refine ⟨_, br, ?_⟩
  generalize Libm.exp _ * betacf b a (1.0 - x) / b = z at *
  have ia : 1 / a.val ≤ 10^5 := by rw [div_le_iff₀ a0]; norm_num at ha ⊢; linarith
  have ib : 1 / b.val ≤ 10^5 := by rw [div_le_iff₀ b0]; norm_num at hb ⊢; linarith
  have ix : 1 / x.val ≤ 1000 := by rw [div_le_iff₀ x0]; linarith
  have t300 : (1:ℝ) / 10^300 ≤ 1 / 10^20 := one_div_le_one_div_of_le (by positivity) (pow_le_pow_right₀ (by norm_num) (by norm_num))
  generalize (1:ℝ) / 10^300 = τ at *
  have E1 : 2.3 / 10^8 + 1.3 / 10^10 * (1 / x.val) + 1.1 / 10^12 * (1 / a.val + 1 / b.val) ≤ 1 / 10^6 := by norm_num at ia ib ix ⊢; linarith
  generalize 2.3 / 10^8 + 1.3 / 10^10 * (1 / x.val) + 1.1 / 10^12 * (1 / a.val + 1 / b.val) = E at *
  generalize regBeta a.val b.val x.val = I at *
  have Eb : E * (1 - I) ≤ 1 / 10^6 := (mul_le_mul_of_nonneg_right E1 (by linarith)).trans (by norm_num; linarith)
  obtain ⟨z1, z2⟩ := abs_le.1 d2
  have zb : |1 - z.val| ≤ 1.001 := by
    norm_num at Eb t300 ⊢
    rw [abs_le]; constructor <;> linarith
  have r := RN_tot (zb.trans (by norm_num))
  rw [← o] at r
  have r2 : |(1.0 - z).val - (1 - z.val)| ≤ 2 / 10^16 := by
    refine r.trans ?_
    have : (1:ℝ) / 2^1075 ≤ 1 / 2^80 := one_div_le_one_div_of_le (by positivity) (pow_le_pow_right₀ (by norm_num) (by norm_num))
    have q : |1 - z.val| / 2^53 ≤ 1.001 / 2^53 := by gcongr
    refine (add_le_add q this).trans (by norm_num)
  have fin : |(1.0 - z).val - I| ≤ E * (1 - I) + 3 / 10^16 := by
    have t := abs_add_le ((1.0 - z).val - (1 - z.val)) ((1 - z.val) - I)
    rw [sub_add_sub_cancel] at t
    have : |1 - z.val - I| = |z.val - (1 - I)| := by rw [← abs_neg]; congr 1; ring
    norm_num at t300 r2 ⊢
    linarith
  refine ⟨isFin_of_abs (b := 2) ?_ (by norm_num), fin⟩
  have t := abs_add_le ((1.0 - z).val - I) I
  rw [sub_add_cancel, abs_of_nonneg J1] at t
  norm_num at fin Eb ⊢
  linarith

/-- C78 in binary64, `b ≤ 1/2` (Student's distribution is `b = 1/2`): for `10⁻⁵ ≤ a ≤ 1000` and `10⁻²⁷⁰ ≤ x ≤ 0.999`, `betai(a,b,x)` is
`I_x(a,b)` with relative error at most `2.3e-8 + 1.3e-10/(1-x) + 1.1e-12 (1/a + 1/b)`, plus 1e-300.
Missing: larger `b`. -/
theorem betai_accurate_small_b_partial [Libm F64] (L : LibmUlp) {a b x : F64} (ha : 1 / 10^5 ≤ a.val) (ha1 : a.val ≤ 1000) (hb : 1 / 10^5 ≤ b.val)
    (hb1 : b.val ≤ 1/2) (h0 : 1 / 10^270 ≤ x.val) (h1 : x.val ≤ 999 / 1000) :
    ∃ v, Returns (betai a b x) v ∧ v.isFin = true ∧ |v.val - regBeta a.val b.val x.val| ≤
      (2.3 / 10^8 + 1.3 / 10^10 * (1 / (1 - x.val)) + 1.1 / 10^12 * (1 / a.val + 1 / b.val)) * regBeta a.val b.val x.val + 1 / 10^300 := by
  refine betai_direct L ha ha1 hb (by linarith) h0 h1 ?_
  have s := branch_sr ha ha1 hb (by linarith)
  have x0 : 0 < x.val := lt_of_lt_of_le (by positivity) h0
  have fx : x.isFin = true := isFin_of_abs (b := 1) (by rw [abs_of_pos x0]; linarith) (by norm_num)
  refine lt_iff.2 ⟨isFin_notNaN fx, isFin_notNaN s.fin, ?_⟩
  have a0 : 0 < a.val := lt_of_lt_of_le (by norm_num) ha
  have b0 : 0 < b.val := lt_of_lt_of_le (by norm_num) hb
  have q1 : 1 ≤ (a.val + 1) / (a.val + 2 * b.val) := by rw [le_div_iff₀ (by linarith)]; linarith
  have e := s.err
  rw [abs_of_pos (show 0 < (a.val + 1) / (a.val + 2 * b.val) by linarith)] at e
  have := (abs_le.1 e).1
  have U := uu_le
  have U2 := uu_pos
  norm_num at U
  nlinarith

/-- the hypotheses of `betai_accurate_small_b_partial` are met by `a = 5`, `b = 1/2`, `x = 1/2` and the correctly rounded functions -/
example : ∃ _ : Libm F64, LibmUlp ∧ 1 / 10^5 ≤ (5.0:F64).val ∧ (5.0:F64).val ≤ 1000 ∧ 1 / 10^5 ≤ (0.5:F64).val ∧ (0.5:F64).val ≤ 1/2 ∧
    1 / 10^270 ≤ (0.5:F64).val ∧ (0.5:F64).val ≤ 999/1000 := by
  have v5 : (5.0:F64).val = 5 := by have := val_of_int (x := (5.0 : F64)) 5 (by decide +kernel); rw [this]; norm_num
  have vh : (0.5:F64).val = 1/2 := by have := val_of_sv (x := (0.5 : F64)) 1 2 (by norm_num) (by decide +kernel); rw [this]; norm_num
  rw [v5, vh]
  refine ⟨idealLibm, ideal_ulp, by norm_num, by norm_num, by norm_num, by norm_num, ?_, by norm_num⟩
  exact one_div_le_one_div_of_le (by norm_num) (le_trans (by norm_num : (2:ℝ) ≤ 10^1) (pow_le_pow_right₀ (by norm_num) (by norm_num)))

/-- C78 in binary64, `a ≤ 1`, above the branch point: for `10⁻⁵ ≤ a ≤ 1`, `10⁻⁵ ≤ b ≤ 1000`, `x ≥ 0.001` and
`x (a + 2b) ≥ (1 + 1e-15)(a + 1)`, `betai(a,b,x)` is `I_x(a,b)`, the error being at most `2.3e-8 + 1.3e-10/x + 1.1e-12 (1/a + 1/b)` relative to
`1 - I_x(a,b)`, plus 3e-16. -/
theorem betai_accurate_small_a_partial [Libm F64] (L : LibmUlp) {a b x : F64} (ha : 1 / 10^5 ≤ a.val) (ha1 : a.val ≤ 1) (hb : 1 / 10^5 ≤ b.val)
    (hb1 : b.val ≤ 1000) (h0 : 1 / 1000 ≤ x.val) (h1 : x.val < 1) (hx : (1 + 1 / 10^15) * (a.val + 1) ≤ x.val * (a.val + 2 * b.val)) :
    ∃ v, Returns (betai a b x) v ∧ v.isFin = true ∧ |v.val - regBeta a.val b.val x.val| ≤
      (2.3 / 10^8 + 1.3 / 10^10 * (1 / x.val) + 1.1 / 10^12 * (1 / a.val + 1 / b.val)) * (1 - regBeta a.val b.val x.val) + 3 / 10^16 := by
  refine betai_mirrored L ha ha1 hb hb1 h0 h1 ?_
  have s := branch_sr ha (by linarith) hb hb1
  intro h
  have l := (lt_iff.1 h).2.2
  have a0 : 0 < a.val := lt_of_lt_of_le (by norm_num) ha
  have b0 : 0 < b.val := lt_of_lt_of_le (by norm_num) hb
  have dp : 0 < a.val + 2 * b.val := by linarith
  have q0 : 0 < (a.val + 1) / (a.val + 2 * b.val) := div_pos (by linarith) dp
  have q1 : (1 + 1 / 10^15) * ((a.val + 1) / (a.val + 2 * b.val)) ≤ x.val := by rw [mul_div_assoc', div_le_iff₀ dp]; exact hx
  have e := s.err
  rw [abs_of_pos q0] at e
  have := (abs_le.1 e).2
  have U := uu_le
  have U2 := uu_pos
  norm_num at U q1
  nlinarith

/-- the hypotheses of `betai_accurate_small_a_partial` are met by `a = 1/2`, `b = 5`, `x = 1/2` -/
example : ∃ _ : Libm F64, LibmUlp ∧ 1 / 10^5 ≤ (0.5:F64).val ∧ (0.5:F64).val ≤ 1 ∧ 1 / 10^5 ≤ (5.0:F64).val ∧ (5.0:F64).val ≤ 1000 ∧
    1 / 1000 ≤ (0.5:F64).val ∧ (0.5:F64).val < 1 ∧ (1 + 1 / 10^15) * ((0.5:F64).val + 1) ≤ (0.5:F64).val * ((0.5:F64).val + 2 * (5.0:F64).val) := by
  have v5 : (5.0:F64).val = 5 := by have := val_of_int (x := (5.0 : F64)) 5 (by decide +kernel); rw [this]; norm_num
  have vh : (0.5:F64).val = 1/2 := by have := val_of_sv (x := (0.5 : F64)) 1 2 (by norm_num) (by decide +kernel); rw [this]; norm_num
  rw [v5, vh]
  exact ⟨idealLibm, ideal_ulp, by norm_num⟩

/-- C78 in binary64, both parameters at most one: for `10⁻⁵ ≤ a, b ≤ 1` and `0.001 ≤ x ≤ 0.999`, `betai(a,b,x)` is `I_x(a,b)` to within
`2.3e-8 + 1.3e-10 (1/x + 1/(1-x)) + 1.1e-12 (1/a + 1/b) + 3e-16`. -/
theorem betai_accurate_unit_partial [Libm F64] (L : LibmUlp) {a b x : F64} (ha : 1 / 10^5 ≤ a.val) (ha1 : a.val ≤ 1) (hb : 1 / 10^5 ≤ b.val)
    (hb1 : b.val ≤ 1) (h0 : 1 / 1000 ≤ x.val) (h1 : x.val ≤ 999 / 1000) :
    ∃ v, Returns (betai a b x) v ∧ v.isFin = true ∧ |v.val - regBeta a.val b.val x.val| ≤
      2.3 / 10^8 + 1.3 / 10^10 * (1 / x.val + 1 / (1 - x.val)) + 1.1 / 10^12 * (1 / a.val + 1 / b.val) + 3 / 10^16 := by
  have a0 : 0 < a.val := lt_of_lt_of_le (by norm_num) ha
  have b0 : 0 < b.val := lt_of_lt_of_le (by norm_num) hb
  have x0 : 0 < x.val := lt_of_lt_of_le (by norm_num) h0
  have x1 : x.val < 1 := lt_of_le_of_lt h1 (by norm_num)
  have I0 := regBeta_nonneg a0 b0 x0.le x1.le
  have I1 := regBeta_le_one a0 b0 x0.le x1.le
  have ia : 0 < 1 / a.val := by positivity
  have ib : 0 < 1 / b.val := by positivity
  have ix : 0 < 1 / x.val := by positivity
  have iy : 0 < 1 / (1 - x.val) := one_div_pos.2 (by linarith)
  by_cases hc : F64.lt x ((a + 1.0) / (a + b * 2.0)) = true
  · obtain ⟨v, r, f, e⟩ := betai_direct L ha (by linarith) hb hb1 (le_trans (by
      refine one_div_le_one_div_of_le (by positivity) ?_
      calc (1000:ℝ) = 10^3 := by norm_num
        _ ≤ _ := pow_le_pow_right₀ (by norm_num) (by norm_num)) h0) h1 hc
    refine ⟨v, r, f, e.trans ?_⟩
    have t300 : (1:ℝ) / 10^300 ≤ 1 / 10^20 := one_div_le_one_div_of_le (by positivity) (pow_le_pow_right₀ (by norm_num) (by norm_num))
    have : (2.3 / 10^8 + 1.3 / 10^10 * (1 / (1 - x.val)) + 1.1 / 10^12 * (1 / a.val + 1 / b.val)) * regBeta a.val b.val x.val ≤
        2.3 / 10^8 + 1.3 / 10^10 * (1 / (1 - x.val)) + 1.1 / 10^12 * (1 / a.val + 1 / b.val) := mul_le_of_le_one_right (by positivity) I1
    generalize (1:ℝ) / 10^300 = τ at *
    generalize 1 / a.val = p at *
    generalize 1 / b.val = q at *
    generalize 1 / x.val = y at *
    generalize 1 / (1 - x.val) = z at *
    norm_num at t300 ⊢
    linarith
  · obtain ⟨v, r, f, e⟩ := betai_mirrored L ha ha1 hb (by linarith) h0 x1 hc
    refine ⟨v, r, f, e.trans ?_⟩
    have : (2.3 / 10^8 + 1.3 / 10^10 * (1 / x.val) + 1.1 / 10^12 * (1 / a.val + 1 / b.val)) * (1 - regBeta a.val b.val x.val) ≤
        2.3 / 10^8 + 1.3 / 10^10 * (1 / x.val) + 1.1 / 10^12 * (1 / a.val + 1 / b.val) := mul_le_of_le_one_right (by positivity) (by linarith)
    linarith

/-- the hypotheses of `betai_accurate_unit_partial` are met by `a = 1/2`, `b = 1`, `x = 1/2` -/
example : ∃ _ : Libm F64, LibmUlp ∧ 1 / 10^5 ≤ (0.5:F64).val ∧ (0.5:F64).val ≤ 1 ∧ 1 / 10^5 ≤ (1.0:F64).val ∧ (1.0:F64).val ≤ 1 ∧
    1 / 1000 ≤ (0.5:F64).val ∧ (0.5:F64).val ≤ 999/1000 := by
  have vh : (0.5:F64).val = 1/2 := by have := val_of_sv (x := (0.5 : F64)) 1 2 (by norm_num) (by decide +kernel); rw [this]; norm_num
  rw [one_val, vh]
  exact ⟨idealLibm, ideal_ulp, by norm_num⟩

end Verif
