import Verif.Proofs.BetaCfR
import Verif.Props.LnGammaAcc

/-!
# beta and betai in exact arithmetic: error bounds
-/

namespace Verif
open Bcf

theorem exp_small {d e : ℝ} (h : |d| ≤ e) (he : e ≤ 1 / 10^6) : |Real.exp d - 1| ≤ e * (1 + 1 / 10^6) := by
  have h0 : 0 ≤ e := (abs_nonneg _).trans h
  have hb2 := Real.abs_exp_sub_one_sub_id_le (x := d) (h.trans (he.trans (by norm_num)))
  have h3 := abs_add_le (Real.exp d - 1 - d) d
  rw [sub_add_cancel] at h3
  have h4 : d ^ 2 ≤ e * (1 / 10^6) := by
    rw [← sq_abs, sq]
    exact mul_le_mul h (h.trans he) (abs_nonneg _) h0
  linarith

/-- three `ln_gamma` errors -/
theorem lnB_err {a b : ℝ} (ha : 0 < a) (hb : 0 < b) :
    |lnGamma a + lnGamma b - lnGamma (a + b) - Real.log (eulerBeta a b)| ≤ 12 / 10^9 := by
  have e1 := ln_gamma_exact_accurate ha
  have e2 := ln_gamma_exact_accurate hb
  have e3 := ln_gamma_exact_accurate (add_pos ha hb)
  have g1 := Real.Gamma_pos_of_pos ha
  have g2 := Real.Gamma_pos_of_pos hb
  have g3 := Real.Gamma_pos_of_pos (add_pos ha hb)
  rw [eulerBeta_gamma ha hb, Real.log_div (mul_pos g1 g2).ne' g3.ne', Real.log_mul g1.ne' g2.ne']
  rw [abs_le] at *
  constructor <;> linarith [e1.1, e1.2, e2.1, e2.2, e3.1, e3.2]

theorem beta_exact_err {z w : ℝ} (hz : 0 < z) (hw : 0 < w) :
    |Real.exp (lnGamma z + lnGamma w - lnGamma (z + w)) - eulerBeta z w| ≤ 121 / 10^10 * eulerBeta z w := by
  have p := eulerBeta_pos hz hw
  have h := exp_small (lnB_err hz hw) (by norm_num)
  have e : Real.exp (lnGamma z + lnGamma w - lnGamma (z + w)) =
      eulerBeta z w * Real.exp (lnGamma z + lnGamma w - lnGamma (z + w) - Real.log (eulerBeta z w)) := by
    rw [Real.exp_sub _ (Real.log _), Real.exp_log p]; field_simp
  rw [e]
  generalize Real.exp (lnGamma z + lnGamma w - lnGamma (z + w) - Real.log (eulerBeta z w)) = q at *
  rw [show eulerBeta z w * q - eulerBeta z w = eulerBeta z w * (q - 1) by ring, abs_mul, abs_of_pos p, mul_comm]
  exact mul_le_mul_of_nonneg_right (h.trans (by norm_num)) p.le

/-- the true value in terms of the limit of the continued fraction -/
theorem regBeta_G {a b x : ℝ} (ha : 0 < a) (hb : 0 < b) (h0 : 0 < x) (h1 : x < 1) :
    regBeta a b x = x^a * (1-x)^b / eulerBeta a b * G a b x 1 / a := by
  have s := incBeta_series ha hb h0 h1
  have e : G a b x 1 = Hyp.F (a + b) 1 (a + 1) x := by
    have := G_odd (a := a) (b := b) (x := x) 0
    simpa using this
  rw [e]
  have : incBeta a b x = x^a * (1-x)^b * Hyp.F (a + b) 1 (a + 1) x / a := by rw [← s]; field_simp
  unfold regBeta
  rw [this]; ring

theorem front_eq {a b x : ℝ} (ha : 0 < a) (hb : 0 < b) (h0 : 0 < x) (h1 : x < 1) :
    x^a * (1-x)^b / eulerBeta a b = Real.exp (-Real.log (eulerBeta a b) + a * Real.log x + b * Real.log (1 - x)) := by
  rw [Real.exp_add, Real.exp_add, Real.exp_neg, Real.exp_log (eulerBeta_pos ha hb), Real.rpow_def_of_pos h0, Real.rpow_def_of_pos (by linarith),
    mul_comm (Real.log x), mul_comm (Real.log (1 - x))]
  field_simp

theorem front_err {a b x : ℝ} (ha : 0 < a) (hb : 0 < b) (h0 : 0 < x) (h1 : x < 1) :
    |Real.exp (lnGamma (a + b) - lnGamma a - lnGamma b + a * Real.log x + b * Real.log (1 - x)) - x^a * (1-x)^b / eulerBeta a b| ≤
      121 / 10^10 * (x^a * (1-x)^b / eulerBeta a b) := by
  have h := exp_small ((abs_neg _).trans_le (lnB_err ha hb)) (by norm_num)
  rw [front_eq ha hb h0 h1]
  have e : lnGamma (a + b) - lnGamma a - lnGamma b + a * Real.log x + b * Real.log (1 - x) =
      (-Real.log (eulerBeta a b) + a * Real.log x + b * Real.log (1 - x)) + -(lnGamma a + lnGamma b - lnGamma (a + b) - Real.log (eulerBeta a b)) := by ring
  rw [e, Real.exp_add]
  generalize Real.exp (-(lnGamma a + lnGamma b - lnGamma (a + b) - Real.log (eulerBeta a b))) = q at *
  have p := Real.exp_pos (-Real.log (eulerBeta a b) + a * Real.log x + b * Real.log (1 - x))
  generalize Real.exp (-Real.log (eulerBeta a b) + a * Real.log x + b * Real.log (1 - x)) = E at *
  rw [show E * q - E = E * (q - 1) by ring, abs_mul, abs_of_pos p, mul_comm]
  exact mul_le_mul_of_nonneg_right (h.trans (by norm_num)) p.le

/-- a product of two factors with relative errors -/
theorem prod_rel {u U v V d e : ℝ} (hU : 0 ≤ U) (hV : 0 ≤ V) (hd : 0 ≤ d) (hu : |u - U| ≤ d * U) (hv : |v - V| ≤ e * V) :
    |u * v - U * V| ≤ (d + e + d * e) * (U * V) := by
  have e1 : u * v - U * V = (u - U) * V + U * (v - V) + (u - U) * (v - V) := by ring
  rw [e1]
  have a1 : |(u - U) * V| ≤ d * U * V := by rw [abs_mul, abs_of_nonneg hV]; exact mul_le_mul_of_nonneg_right hu hV
  have a2 : |U * (v - V)| ≤ U * (e * V) := by rw [abs_mul, abs_of_nonneg hU]; exact mul_le_mul_of_nonneg_left hv hU
  have a3 : |(u - U) * (v - V)| ≤ (d * U) * (e * V) := by rw [abs_mul]; exact mul_le_mul hu hv (abs_nonneg _) (by positivity)
  have := abs_add_le ((u - U) * V + U * (v - V)) ((u - U) * (v - V))
  have := abs_add_le ((u - U) * V) (U * (v - V))
  linarith

theorem pow_tail {x : ℝ} {N : ℕ} (h0 : 0 ≤ x) (h : 19 ≤ (N:ℝ) * (1 - x)) : x ^ N ≤ 6 / 10^9 := by
  have e1 : x ≤ Real.exp (-(1 - x)) := by have := Real.add_one_le_exp (-(1 - x)); linarith
  have e2 : x ^ N ≤ Real.exp (-19) := by
    refine (pow_le_pow_left₀ h0 e1 N).trans ?_
    rw [← Real.exp_nat_mul, Real.exp_le_exp]; linarith
  refine e2.trans ?_
  rw [Real.exp_neg, show (19:ℝ) = ((19:ℕ):ℝ) * 1 by norm_num, Real.exp_nat_mul]
  have : (2.7182818283:ℝ)^19 ≤ Real.exp 1 ^ 19 := pow_le_pow_left₀ (by norm_num) Real.exp_one_gt_d9.le 19
  rw [inv_le_comm₀ (by positivity) (by norm_num)]
  refine le_trans ?_ this
  norm_num

/-- the direct branch -/
theorem direct_err [Cfg] {a b x : ℝ} (ha : 0 < a) (hb : 0 < b) (ha5 : a ≤ 500) (hb5 : b ≤ 500) (h0 : 0 < x) (h1 : x ≤ 1 - 1 / 1001)
    (h2 : b < 1 ∨ x * (a + 2 * b) ≤ a + 1) :
    |Real.exp (lnGamma (a + b) - lnGamma a - lnGamma b + a * Real.log x + b * Real.log (1 - x)) * betacf a b x / a - regBeta a b x| ≤
      2 / 10^8 * regBeta a b x := by
  have hx1 : x < 1 := by linarith
  have a1 : 0 < a + 1 := by linarith
  have q : x * ((a + b) / (a + 1)) ≤ 1 - 1 / 1001 := by
    rw [mul_div_assoc', div_le_iff₀ a1]
    rcases h2 with h | h
    · nlinarith
    · rcases le_total b 1 with k | k
      · nlinarith
      · nlinarith
  have q3 : x * (a + 2 * b - 1) ≤ a + 1 := by
    rcases h2 with h | h
    · nlinarith
    · linarith
  have H : Good a b x := ⟨ha, hb, h0, hx1, by linarith⟩
  have hM0 := Nat.floor_le hb.le
  have hM1 := (Nat.lt_floor_add_one b).le
  have hM2 : ⌊b⌋₊ ≤ 500 := by
    have := hM0.trans hb5
    exact_mod_cast this
  have c := betacf_err H q3 (by linarith) (by linarith) ⌊b⌋₊ hM0 hM1 (by omega)
  have w : 1 / 1001 ≤ 1 - x := by linarith
  have t1 : 2 / 2^52 / (1 - x) ≤ 1 / 10^12 := by
    rw [div_le_iff₀ (by linarith)]; nlinarith
  have t2 : x ^ (19999 - 2 * ⌊b⌋₊) ≤ 6 / 10^9 := by
    refine pow_tail h0.le ?_
    rw [Nat.cast_sub (by omega)]
    push_cast
    rcases lt_or_ge b 1 with h | h
    · have : ⌊b⌋₊ = 0 := Nat.floor_eq_zero.2 h
      rw [this]; push_cast; linarith
    · have h2' : x * (a + 2 * b) ≤ a + 1 := by
        rcases h2 with k | k
        · linarith
        · exact k
      have w2 : 1 / 502 ≤ 1 - x := by
        by_contra hc
        rw [not_le] at hc
        nlinarith
      have : (⌊b⌋₊ : ℝ) ≤ 500 := by exact_mod_cast hM2
      nlinarith
  have p := G_pos ha hb h0.le hx1 1
  have c' : |betacf a b x - G a b x 1| ≤ (1 / 10^12 + 6 / 10^9) * G a b x 1 :=
    c.trans (mul_le_mul_of_nonneg_right (by linarith) p.le)
  have f0 : 0 ≤ x^a * (1-x)^b / eulerBeta a b := by
    have := eulerBeta_pos ha hb
    have : 0 ≤ (1 - x)^b := Real.rpow_nonneg (by linarith) _
    have : 0 ≤ x^a := Real.rpow_nonneg h0.le _
    positivity
  have m := prod_rel f0 p.le (by norm_num) (front_err ha hb h0 hx1) c'
  rw [regBeta_G ha hb h0 hx1, ← sub_div, abs_div, abs_of_pos ha, ← mul_div_assoc]
  refine div_le_div_of_nonneg_right (m.trans (mul_le_mul_of_nonneg_right (by norm_num) (mul_nonneg f0 p.le))) ha.le

/-- the branches of `betai` in exact arithmetic -/
theorem betai_real [Cfg] {a b x : ℝ} (ha : 0 < a) (hb : 0 < b) (hab : a ≤ 3000 ∨ b ≤ 3000) (h0 : 0 < x) (h1 : x < 1) :
    betai a b x = .ok (if x < (a + 1) / (a + b * 2) then
      Real.exp (lnGamma (a + b) - lnGamma a - lnGamma b + a * Real.log x + b * Real.log (1 - x)) * betacf a b x / a
    else 1 - Real.exp (lnGamma (a + b) - lnGamma a - lnGamma b + a * Real.log x + b * Real.log (1 - x)) * betacf b a (1 - x) / b) := by
  have L : ∀ u v : ℝ, (u <ᶠ v) = decide (u < v) := fun _ _ => rfl
  have Le : ∀ u v : ℝ, (u ≤ᶠ v) = decide (u ≤ v) := fun _ _ => rfl
  have Eq' : ∀ u v : ℝ, (u ==ᶠ v) = decide (u = v) := fun _ _ => rfl
  have p0 : (0.0:ℝ) = 0 := by norm_num
  have p1 : (1.0:ℝ) = 1 := by norm_num
  have p2 : (2.0:ℝ) = 2 := by norm_num
  have pn : (Arith.ofNat 3000 : ℝ) = 3000 := by show ((3000 : ℕ) : ℝ) = _; norm_num
  unfold betai
  have hsw : (decide ((3000:ℝ) < a) && decide ((3000:ℝ) < b)) = false := by
    rw [Bool.and_eq_false_iff, decide_eq_false_iff_not, decide_eq_false_iff_not, not_lt, not_lt]; exact hab
  simp only [L, Le, Eq', p0, p1, p2, pn, ha, hb, h0.le, h1.le, h0.ne', h1.ne, hsw, decide_true, decide_false, Bool.and_true, Bool.not_true,
    Bool.or_self, Bool.false_eq_true, if_false]
  by_cases hc : x < (a + 1) / (a + b * 2)
  · simp only [hc, decide_true, if_true]; rfl
  · simp only [hc, decide_false, Bool.false_eq_true, if_false]; rfl

end Verif
