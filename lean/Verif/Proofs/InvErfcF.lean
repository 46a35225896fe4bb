import Verif.Proofs.InvErfc3
import Verif.Proofs.Ab
import Verif.Props.ErfAcc

/-! `inverfc` in floating-point arithmetic. -/

namespace Verif
open F64
namespace InvErfc
variable [Libm F64]

theorem two_1075 : (1:ℝ) / 2^1075 ≤ 1 / 10^320 := by
  refine one_div_le_one_div_of_le (by positivity) ?_
  exact_mod_cast (by decide +kernel : 10^320 ≤ 2^1075)

/-- rounding error of a value of bounded size -/
theorem rn_abs {y C : ℝ} (h : |y| ≤ C) (hC : C ≤ 10^100) : |RN y - y| ≤ C / 2^53 + 1 / 10^320 ∧ |RN y| < HUGE := by
  have hH := HUGE_ge
  have h1 : (2:ℝ) * 10^100 + 1 < 10^200 := by norm_num
  have h2 := RN_err' (x := y) (by linarith [abs_nonneg y])
  have h3 := two_1075
  have h4 : |y| / 2^53 ≤ C / 2^53 := div_le_div_of_nonneg_right h (by positivity)
  have h5 : (1:ℝ) / 10^320 ≤ 1 := by
    rw [div_le_one (by positivity)]; exact one_le_pow₀ (by norm_num)
  refine ⟨by linarith, ?_⟩
  have h6 := abs_add_le (RN y - y) y
  rw [sub_add_cancel] at h6
  have h7 : C / 2^53 ≤ C := div_le_self ((abs_nonneg _).trans h) (by norm_num)
  linarith

theorem m_low {x : ℝ} (h : |x| ≤ 25.51) : 1 / 10^283 ≤ kap * Real.exp (-x^2) := by
  have hk := kap_bounds.1
  have h2 : x^2 ≤ 651 := by
    rw [← sq_abs]
    have := pow_le_pow_left₀ (abs_nonneg x) h 2
    norm_num at this ⊢
    linarith
  have h3 : 1 / 10^283 ≤ Real.exp (-651) := by
    rw [Real.exp_neg, one_div]
    refine inv_anti₀ (Real.exp_pos _) ?_
    calc Real.exp 651 = (Real.exp 1)^651 := by rw [← Real.exp_nat_mul]; norm_num
      _ ≤ 2.7183^651 := pow_le_pow_left₀ (Real.exp_pos _).le (by have := Real.exp_one_lt_d9; norm_num at this ⊢; linarith) _
      _ = (2.7183^93)^7 := by rw [← pow_mul]
      _ ≤ (2.5 * 10^40)^7 := pow_le_pow_left₀ (by positivity) (by norm_num) _
      _ = 2.5^7 * 10^280 := by rw [mul_pow, ← pow_mul]
      _ ≤ 10^3 * 10^280 := mul_le_mul_of_nonneg_right (by norm_num) (by positivity)
      _ = 10^283 := by rw [← pow_add]
  have h4 : Real.exp (-651) ≤ Real.exp (-x^2) := Real.exp_le_exp.2 (by linarith)
  have h5 := Real.exp_pos (-x^2)
  refine h3.trans (h4.trans ?_)
  have h6 : (1:ℝ) ≤ kap := by norm_num at hk; linarith
  nlinarith

/-- `erfc` near the wanted point, on the scale of its derivative -/
theorem erfc_near (L : LibmUlp) {x : F64} (hf : x.isFin = true) (hx : |x.val| ≤ 25.51) (h0 : -0.005 ≤ x.val) :
    ∃ v, erfc x = .ok v ∧ v.isFin = true ∧ |v.val - erfcR x.val| ≤ 7 / 10^13 * (kap * Real.exp (-x.val^2)) := by
  have hm := m_low hx
  rcases le_or_gt 0 x.val with h | h
  · obtain ⟨v, e, f, b⟩ := erfc_accurate_right L hf h
    refine ⟨v, e, f, b.trans ?_⟩
    have hs := erfcR_scale h0
    have h1 : (1:ℝ) / 10^296 = 1 / 10^13 * (1 / 10^283) := by rw [div_mul_div_comm, ← pow_add, one_mul]
    rw [h1]
    have h2 := mul_le_mul_of_nonneg_left hm (show (0:ℝ) ≤ 1 / 10^13 by norm_num)
    linarith
  · obtain ⟨v, e, f, b⟩ := erfc_accurate L hf
    refine ⟨v, e, f, b.trans ?_⟩
    have hk := kap_bounds.1
    have h2 : x.val^2 ≤ 0.000025 := by norm_num at h0 ⊢; nlinarith
    have h3 : 0.9 ≤ Real.exp (-x.val^2) := by
      have := Real.add_one_le_exp (-x.val^2)
      norm_num at h2 ⊢
      linarith
    have : 1 ≤ kap * Real.exp (-x.val^2) := by
      have := mul_le_mul hk h3 (by norm_num) kap_pos.le
      norm_num at this
      linarith
    linarith

/-- one step of the code -/
theorem step_F (L : LibmUlp) {p x : F64} {xs X h : ℝ} (fp : p.isFin = true) (fx : x.isFin = true) (hp : erfcR xs = p.val) (hx : |x.val| ≤ X)
    (hd : |xs - x.val| ≤ h) (hXh : X * h ≤ 0.07) (hh : h ≤ 0.004) (hX : X ≤ 25.51) (h0 : -0.005 ≤ x.val) :
    ∃ x', inverfcStep p x = .ok x' ∧ x'.isFin = true ∧ |x'.val - xs| ≤ (2 * X^2 + 1) * h^3 + 2 / 10^12 := by
  obtain ⟨v, ev, fv, bv⟩ := erfc_near L fx (hx.trans hX) h0
  have hm := m_low (hx.trans hX)
  have hh0 : 0 ≤ h := (abs_nonneg _).trans hd
  have hX28 : X ≤ 28 := by norm_num at hX ⊢; linarith
  obtain ⟨-, g1, -⟩ := step_gen (e := erfcR x.val - erfcR xs) (D := kap * Real.exp (-x.val^2) - x.val * (erfcR x.val - erfcR xs)) (ε := 0) (δ := 0)
    hx hd hXh hh hX28 (by norm_num) (by norm_num) (by simp) (by simp)
  have hm2 : kap * Real.exp (-x.val^2) ≤ 1.13 := by
    have h1 : Real.exp (-x.val^2) ≤ 1 := Real.exp_le_one_iff.2 (by nlinarith)
    have hk := kap_bounds.2
    have := mul_le_mul hk h1 (Real.exp_pos _).le (by norm_num)
    norm_num at this ⊢
    linarith
  have hx2 : |x.val * x.val| ≤ 651 := by
    rw [abs_mul]
    have := mul_le_mul (hx.trans hX) (hx.trans hX) (abs_nonneg _) (by norm_num)
    norm_num at this ⊢
    linarith
  have big : (1000:ℝ) ≤ 10^100 := by norm_num
  have tiny : (1:ℝ) / 10^320 ≤ 1 / 10^30 * (kap * Real.exp (-x.val^2)) := by
    refine le_trans ?_ (mul_le_mul_of_nonneg_left hm (by norm_num))
    rw [div_mul_div_comm, ← pow_add, one_mul]
    exact one_div_le_one_div_of_le (by positivity) (pow_le_pow_right₀ (by norm_num) (by norm_num))
  -- the denominator's first term
  have hsq := rn_abs hx2 (by linarith)
  have fxx : (x * x).isFin = true := by rw [isFin_iff_val, (mul_spec fx fx).2.1]; exact hsq.2
  have rexp := rel_exp L (x := -(x * x)) (X := -x.val^2) (η := 1 / 10^13) (by rw [isFin_neg]; exact fxx)
    (by
      rw [val_neg, (mul_spec fx fx).2.1, show -RN (x.val * x.val) - -x.val^2 = -(RN (x.val * x.val) - x.val * x.val) by ring, abs_neg]
      refine hsq.1.trans ?_
      have : (1:ℝ) / 10^320 ≤ 1 / 10^20 := one_div_le_one_div_of_le (by positivity) (pow_le_pow_right₀ (by norm_num) (by norm_num))
      norm_num at this ⊢
      linarith) (by norm_num)
    (by have := abs_le.1 hx2; rw [sq]; linarith [this.2]) (by nlinarith)
  have rk : Rel (Arith.frac2SqrtPi : F64) kap (1 / 2^53) := by
    refine rel_of_in frac2_in kap_pos ?_
    have hk := kap_bounds.1
    show (((2^107 : ℕ) : ℝ) / FlErr.U) ≤ _
    have : ((2^107 : ℕ) : ℝ) / FlErr.U = 1 / 2^53 := by unfold FlErr.U; norm_num
    rw [this]
    norm_num at hk ⊢
    linarith
  have rq := (rel_mul rk rexp ⟨by
      refine le_trans ?_ hm
      refine one_div_le_one_div_of_le (by positivity) ?_
      exact_mod_cast (by decide +kernel : 10^283 ≤ 2^1000), by
      refine hm2.trans ?_
      have : (2:ℝ)^1 ≤ 2^1000 := pow_le_pow_right₀ (by norm_num) (by norm_num)
      refine le_trans ?_ this
      norm_num⟩ (by norm_num)).mono (δ := 2 / 10^13) (by norm_num)
  have frq := rq.fin
  have erq := rq.err
  rw [hp] at g1
  set m := kap * Real.exp (-x.val^2) with hmdef
  have hm0 : 0 < m := lt_of_lt_of_le (by positivity) hm
  -- the difference
  have d1 : |v.val - p.val| ≤ 0.005 * m := by
    have := abs_add_le (v.val - erfcR x.val) (erfcR x.val - p.val)
    rw [sub_add_sub_cancel] at this
    have : (1.1 * h + 0) * m ≤ 0.0044 * m := mul_le_mul_of_nonneg_right (by norm_num at hh ⊢; linarith) hm0.le
    norm_num at *
    linarith
  have d2 := rn_abs d1 (by norm_num at *; linarith)
  have fe : (v - p).isFin = true := by rw [isFin_iff_val, (sub_spec fv fp).2]; exact d2.2
  have hev := (sub_spec fv fp).2
  set e := v - p with hedef
  have de : |e.val - (v.val - p.val)| ≤ 1 / 10^18 * m := by
    rw [hev]; refine d2.1.trans ?_
    have : 0.005 * m / 2^53 ≤ 0.9 / 10^18 * m := by rw [div_le_iff₀ (by norm_num)]; norm_num; linarith
    norm_num at this tiny ⊢
    linarith
  have he : |e.val - (erfcR x.val - erfcR xs)| ≤ 8 / 10^13 * m := by
    rw [hp]
    have := abs_add_le (e.val - (v.val - p.val)) (v.val - erfcR x.val)
    rw [show e.val - (v.val - p.val) + (v.val - erfcR x.val) = e.val - (erfcR x.val - p.val) by ring] at this
    linarith
  have heb : |e.val| ≤ 0.0051 * m := by
    have := abs_add_le (e.val - (v.val - p.val)) (v.val - p.val)
    rw [sub_add_cancel] at this
    norm_num at *
    linarith
  -- the denominator
  have xe1 : |x.val * e.val| ≤ 0.132 * m := by
    rw [abs_mul]
    have := mul_le_mul (hx.trans hX) heb (abs_nonneg _) (by norm_num)
    norm_num at this ⊢
    linarith
  have xe2 := rn_abs xe1 (by norm_num at *; linarith)
  have hxev := (mul_spec fx fe).2.1
  have fxe : (x * e).isFin = true := by rw [isFin_iff_val, hxev]; exact xe2.2
  set q := (Arith.frac2SqrtPi * Libm.exp (-(x * x)) : F64) with hq
  have xe3 : |(x * e).val - x.val * e.val| ≤ 1 / 10^15 * m := by
    rw [hxev]; refine xe2.1.trans ?_
    have : 0.132 * m / 2^53 ≤ 0.9 / 10^15 * m := by rw [div_le_iff₀ (by norm_num)]; norm_num; linarith
    norm_num at this tiny ⊢
    linarith
  have D1 : |q.val - (x * e).val| ≤ 1.2 * m := by
    have a := abs_le.1 erq
    have b := abs_le.1 xe3
    have c := abs_le.1 xe1
    rw [abs_le]
    norm_num at *
    constructor <;> linarith [a.1, a.2, b.1, b.2, c.1, c.2]
  have D2 := rn_abs D1 (by norm_num at *; linarith)
  have hDv := (sub_spec frq fxe).2
  have fD : (q - x * e).isFin = true := by rw [isFin_iff_val, hDv]; exact D2.2
  have hD : |(q - x * e).val - (m - x.val * e.val)| ≤ 3 / 10^13 * m := by
    have a := abs_le.1 erq
    have b := abs_le.1 xe3
    have c := abs_le.1 D2.1
    have : 1.2 * m / 2^53 ≤ 0.9 / 10^15 * m := by rw [div_le_iff₀ (by norm_num)]; norm_num; linarith
    rw [hDv, abs_le]
    norm_num at *
    constructor <;> linarith [a.1, a.2, b.1, b.2, c.1, c.2]
  set D := q - x * e with hDdef
  obtain ⟨k1, -, k3⟩ := step_gen hx hd hXh hh hX28 (by norm_num) (by norm_num) he hD
  have hD0 : 0 < D.val := lt_of_lt_of_le (by positivity) k1
  have Q1 : |e.val / D.val| ≤ 0.006 := by
    rw [abs_div, abs_of_pos hD0, div_le_iff₀ hD0]
    refine heb.trans ?_
    rw [← hmdef] at k1
    norm_num at k1 ⊢
    linarith
  have Q2 := rn_abs Q1 (by norm_num)
  have hQv := (div_spec fe fD hD0.ne').2.1
  have fQ : (e / D).isFin = true := by rw [isFin_iff_val, hQv]; exact Q2.2
  have t20 : (1:ℝ) / 10^320 ≤ 1 / 10^20 := one_div_le_one_div_of_le (by positivity) (pow_le_pow_right₀ (by norm_num) (by norm_num))
  have Q3 : |(e / D).val - e.val / D.val| ≤ 1 / 10^15 := by
    rw [hQv]; refine Q2.1.trans ?_
    norm_num at t20 ⊢
    linarith
  have S1 : |x.val + (e / D).val| ≤ 26 := by
    have a := abs_le.1 (hx.trans hX)
    have b := abs_le.1 Q1
    have c := abs_le.1 Q3
    rw [abs_le]
    norm_num at *
    constructor <;> linarith [a.1, a.2, b.1, b.2, c.1, c.2]
  have S2 := rn_abs S1 (by norm_num)
  have hSv := (add_spec fx fQ).2
  refine ⟨x + e / D, ?_, ?_, ?_⟩
  · unfold inverfcStep
    rw [ev]
    rfl
  · rw [isFin_iff_val, hSv]; exact S2.2
  · rw [hSv]
    have a := abs_le.1 k3
    have b := abs_le.1 S2.1
    have c := abs_le.1 Q3
    generalize (2 * X^2 + 1) * h^3 = W at *
    rw [abs_le]
    norm_num at *
    constructor <;> linarith [a.1, a.2, b.1, b.2, c.1, c.2]

end InvErfc
end Verif
