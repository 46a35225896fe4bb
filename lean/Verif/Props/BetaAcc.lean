import Verif.Proofs.BetaWrong
import Verif.Props.Beta

/-!
# Accuracy of `beta` and `betai` (src/beta.rs): C77, C78

The specification is `eulerBeta`, `regBeta` of `Verif/SpecIncBeta.lean`: Euler's integral and the regularised incomplete integral.
-/

namespace Verif
open F64 Bcf

/-! ## C77 -/

/-- C77 in exact arithmetic: `beta(z,w)` is Euler's integral to 1.21e-8, relative, for every `z, w > 0`. -/
theorem beta_exact_accurate {z w : ℝ} (hz : 0 < z) (hw : 0 < w) :
    ∃ v, beta z w = .ok v ∧ |v - eulerBeta z w| ≤ 121 / 10^10 * eulerBeta z w := by
  refine ⟨_, ?_, beta_exact_err hz hw⟩
  have L : ∀ u v : ℝ, (u <ᶠ v) = decide (u < v) := fun _ _ => rfl
  unfold beta
  rw [L, L, show (0.0:ℝ) = 0 by norm_num, decide_eq_true hz, decide_eq_true hw]
  rfl

/-- C77 in binary64: for `10⁻⁵ ≤ z, w ≤ 1000`, `beta(z,w)` is Euler's integral to `1.6e-8 + 1.1e-12 (1/z + 1/w)`, relative (plus one
subnormal step).  Missing: smaller and larger arguments. -/
theorem beta_accurate_partial [Libm F64] (L : LibmUlp) {z w : F64} (hz : 1 / 10^5 ≤ z.val) (hz1 : z.val ≤ 1000) (hw : 1 / 10^5 ≤ w.val) (hw1 : w.val ≤ 1000) :
    ∃ v, Returns (beta z w) v ∧ v.isFin = true ∧
      |v.val - eulerBeta z.val w.val| ≤ (1.6 / 10^8 + 1.1 / 10^12 * (1 / z.val + 1 / w.val)) * eulerBeta z.val w.val + 1 / 2^1074 := by
  have z0 : 0 < z.val := lt_of_lt_of_le (by norm_num) hz
  have w0 : 0 < w.val := lt_of_lt_of_le (by norm_num) hw
  have fz : z.isFin = true := isFin_of_abs (b := 1000) (by rw [abs_of_pos z0]; exact hz1) (by norm_num)
  have fw : w.isFin = true := isFin_of_abs (b := 1000) (by rw [abs_of_pos w0]; exact hw1) (by norm_num)
  obtain ⟨f, h⟩ := beta_val L hz hz1 hw hw1
  refine ⟨_, ?_, f, h⟩
  unfold Returns beta
  have e1 : (0.0 : F64) <ᶠ z := pos_iff.2 ⟨isFin_notNaN fz, z0⟩
  have e2 : (0.0 : F64) <ᶠ w := pos_iff.2 ⟨isFin_notNaN fw, w0⟩
  rw [e1, e2]; rfl

/-- the hypotheses of `beta_accurate_partial` are met by `z = 2`, `w = 700` and the correctly rounded functions -/
example : ∃ _ : Libm F64, LibmUlp ∧ 1 / 10^5 ≤ (2.0:F64).val ∧ (2.0:F64).val ≤ 1000 ∧ 1 / 10^5 ≤ (700.0:F64).val ∧ (700.0:F64).val ≤ 1000 :=
  ⟨idealLibm, ideal_ulp, by rw [lit2.2]; norm_num, by rw [lit2.2]; norm_num, by rw [lit700.2]; norm_num, by rw [lit700.2]; norm_num⟩

/-! ## C78 -/

/-- C78 in exact arithmetic: for `0 < a, b ≤ 500`, `betai(a,b,x)` is `I_x(a,b)` to 2e-8, and to 2e-8 relative in the branch that evaluates the
fraction directly, when `x` is below the code's branch point `(a+1)/(a+2b)` (and not in `(0.999, 1)`), or above it and either `a ≤ 1` or `1 - x`
below the branch point of the mirrored call.
Missing: the points between the two branch points, where it is false (`betai_above_one`, `betai_wrong_branch`), and `x` close to one with
`b < 1`, where it is false too (`betai_near_one_wrong`). -/
theorem betai_exact_accurate_partial [Cfg] {a b x : ℝ} (ha : 0 < a) (ha5 : a ≤ 500) (hb : 0 < b) (hb5 : b ≤ 500) (h0 : 0 ≤ x) (h1 : x ≤ 1)
    (h : (x < (a + 1) / (a + 2 * b) ∧ x ≤ 0.999) ∨ ((a + 1) / (a + 2 * b) ≤ x ∧ (a ≤ 1 ∨ 1 - x < (b + 1) / (b + 2 * a))) ∨ x = 1) :
    ∃ v, betai a b x = .ok v ∧ |v - regBeta a b x| ≤ 2 / 10^8 ∧
      (x < (a + 1) / (a + 2 * b) → |v - regBeta a b x| ≤ 2 / 10^8 * regBeta a b x) := by
  have Lt : ∀ u v : ℝ, (u <ᶠ v) = decide (u < v) := fun _ _ => rfl
  have Le : ∀ u v : ℝ, (u ≤ᶠ v) = decide (u ≤ v) := fun _ _ => rfl
  have Eq' : ∀ u v : ℝ, (u ==ᶠ v) = decide (u = v) := fun _ _ => rfl
  have p0 : (0.0:ℝ) = 0 := by norm_num
  have p1 : (1.0:ℝ) = 1 := by norm_num
  have I0 := regBeta_nonneg ha hb h0 h1
  have I1 := regBeta_le_one ha hb h0 h1
  rcases h0.eq_or_lt with q | q
  · subst q
    refine ⟨0, ?_, ?_⟩
    · unfold betai
      simp [Lt, Le, Eq', p0, p1, ha, hb]
    · have : regBeta a b 0 = 0 := by unfold regBeta incBeta; rw [intervalIntegral.integral_same, zero_div]
      rw [this]; norm_num
  rcases h1.eq_or_lt with q1 | q1
  · subst q1
    refine ⟨1, ?_, ?_⟩
    · unfold betai
      simp [Lt, Le, Eq', p0, p1, ha, hb]
    · have : regBeta a b 1 = 1 := by unfold regBeta; exact div_self (eulerBeta_pos ha hb).ne'
      rw [this]; norm_num
  refine ⟨_, betai_real ha hb (Or.inl (by linarith)) q q1, ?_⟩
  have hd : 0 < a + 2 * b := by linarith
  rw [mul_comm b 2]
  by_cases hc : x < (a + 1) / (a + 2 * b)
  · rw [if_pos hc]
    have hx : x ≤ 0.999 := by
      rcases h with h | h | h
      · exact h.2
      · linarith [h.1]
      · linarith
    have hc2 := hc
    rw [lt_div_iff₀ hd] at hc2
    have k := direct_err ha hb ha5 hb5 q (by norm_num at hx ⊢; linarith) (Or.inr hc2.le)
    refine ⟨k.trans (by linarith), fun _ => k⟩
  · rw [if_neg hc]
    refine ⟨?_, fun h => absurd h hc⟩
    rw [not_lt] at hc
    have hcase : a ≤ 1 ∨ 1 - x < (b + 1) / (b + 2 * a) := by
      rcases h with h | h | h
      · linarith [h.1]
      · exact h.2
      · linarith
    rw [div_le_iff₀ hd] at hc
    have hd' : 0 < b + 2 * a := by linarith
    have key : 1 - x ≤ 1 - 1 / 1001 ∧ (a < 1 ∨ (1 - x) * (b + 2 * a) ≤ b + 1) := by
      rcases lt_or_ge a 1 with k | k
      · refine ⟨?_, Or.inl k⟩
        by_contra hh
        rw [not_le] at hh
        have : x < 1 / 1001 := by linarith
        nlinarith
      · have k2 : (1 - x) * (b + 2 * a) ≤ b + 1 := by
          rcases hcase with k' | k'
          · have : a = 1 := le_antisymm k' k
            subst this
            nlinarith
          · rw [lt_div_iff₀ hd'] at k'; exact k'.le
        refine ⟨?_, Or.inr k2⟩
        by_contra hh
        rw [not_le] at hh
        have : x < 1 / 1001 := by linarith
        nlinarith
    have kk := direct_err hb ha hb5 ha5 (show 0 < 1 - x by linarith) key.1 key.2
    rw [sub_sub_cancel] at kk
    have e : lnGamma (b + a) - lnGamma b - lnGamma a + b * Real.log (1 - x) + a * Real.log x =
        lnGamma (a + b) - lnGamma a - lnGamma b + a * Real.log x + b * Real.log (1 - x) := by rw [add_comm b a]; ring
    rw [e] at kk
    have s := regBeta_add ha hb h0 h1
    have J1 : regBeta b a (1 - x) ≤ 1 := by linarith
    have t : |1 - Real.exp (lnGamma (a + b) - lnGamma a - lnGamma b + a * Real.log x + b * Real.log (1 - x)) * betacf b a (1 - x) / b - regBeta a b x| =
        |Real.exp (lnGamma (a + b) - lnGamma a - lnGamma b + a * Real.log x + b * Real.log (1 - x)) * betacf b a (1 - x) / b - regBeta b a (1 - x)| := by
      rw [← abs_neg]; congr 1; linarith
    rw [t]
    exact kk.trans (by linarith)

/-- the hypotheses of `betai_exact_accurate_partial` are met at `a = 3`, `b = 2`, `x = 1/2` (direct) and `a = 2`, `b = 40`, `x = 99/100` (mirrored) -/
example : ((1:ℝ)/2 < (3 + 1) / (3 + 2 * 2) ∧ (1:ℝ)/2 ≤ 0.999) ∧
    ((2 + 1) / (2 + 2 * 40) ≤ (99:ℝ)/100 ∧ 1 - (99:ℝ)/100 < (40 + 1) / (40 + 2 * 2)) := by norm_num

/-- `I_x(a,a) ≤ 1/2` for `x ≤ 1/2` -/
theorem regBeta_half {a x : ℝ} (ha : 0 < a) (h0 : 0 ≤ x) (h1 : x ≤ 1/2) : regBeta a a x ≤ 1/2 := by
  have h := regBeta_add ha ha h0 (by linarith)
  have m : regBeta a a x ≤ regBeta a a (1 - x) := by
    unfold regBeta
    refine div_le_div_of_nonneg_right ?_ (eulerBeta_pos ha ha).le
    unfold incBeta
    refine intervalIntegral.integral_mono_interval le_rfl h0 (by linarith) ?_ (ib_integrable' ha ha le_rfl (by linarith) (by linarith))
    refine (MeasureTheory.ae_restrict_iff' measurableSet_Ioc).2 (Filter.Eventually.of_forall fun t ht => ?_)
    exact mul_nonneg (Real.rpow_nonneg ht.1.le _) (Real.rpow_nonneg (by linarith [ht.2]) _)
  linarith

/-- C78 is false of the code: `betai(200, 200, 23/64)` is greater than 3/2 although `I_x(a,b)` is a probability. -/
theorem betai_above_one [Libm F64] (L : LibmUlp) :
    ∃ v, Returns (betai (200.0:F64) 200.0 0.359375) v ∧ v.isFin = true ∧ 3/2 < v.val ∧ regBeta 200 200 (23/64) ≤ 1/2 := by
  have f2 : (200.0:F64).isFin = true := by decide +kernel
  have v2 : (200.0:F64).val = 200 := by
    have := val_of_int (x := (200.0 : F64)) 200 (by decide +kernel); rw [this]; norm_num
  have fx : (0.359375:F64).isFin = true := by decide +kernel
  have vx : (0.359375:F64).val = 23/64 := by
    have := val_of_sv (x := (0.359375 : F64)) 23 64 (by norm_num) (by decide +kernel); rw [this]; norm_num
  have br := betai_branch f2 f2 fx (by rw [v2]; norm_num) (by rw [v2]; norm_num) (Or.inl (by rw [v2]; norm_num)) (by rw [vx]; norm_num) (by rw [vx]; norm_num)
  rw [if_neg (by decide +kernel)] at br
  have A := arg_ab L (a := 200.0) (b := 200.0) (x := 0.359375) (by rw [v2]; norm_num) (by rw [v2]; norm_num) (by rw [v2]; norm_num) (by rw [v2]; norm_num)
    (by rw [vx]; refine le_trans (one_div_le_one_div_of_le (by norm_num) (show (10:ℝ)^2 ≤ 10^300 from pow_le_pow_right₀ (by norm_num) (by norm_num))) (by norm_num)) (by rw [vx]; norm_num)
  obtain ⟨k1, k2⟩ := Bool.and_eq_true_iff.1 cf200
  have k1 := val_le_of_le k1
  have k2 := val_le_of_le k2
  have e1 : (1.0:F64) - 0.359375 = 0.640625 := by decide +kernel
  have fcf : (betacf (200.0:F64) 200.0 0.640625).isFin = true := by
    refine isFin_of_abs (b := 10^10) ?_ (by norm_num)
    have w1 : (-483171518.0:F64).val = -483171518 := by
      have := val_of_int (x := (-483171518.0 : F64)) (-483171518) (by decide +kernel); rw [this]; norm_num
    have w2 : (-483171517.0:F64).val = -483171517 := by
      have := val_of_int (x := (-483171517.0 : F64)) (-483171517) (by decide +kernel); rw [this]; norm_num
    rw [w1] at k1; rw [w2] at k2
    rw [abs_le]; constructor <;> norm_num <;> linarith
  have hcf : Ab (betacf (200.0:F64) 200.0 0.640625) (-483171517.5) 0.5 := by
    refine ⟨fcf, ?_⟩
    have w1 : (-483171518.0:F64).val = -483171518 := by
      have := val_of_int (x := (-483171518.0 : F64)) (-483171518) (by decide +kernel); rw [this]; norm_num
    have w2 : (-483171517.0:F64).val = -483171517 := by
      have := val_of_int (x := (-483171517.0 : F64)) (-483171517) (by decide +kernel); rw [this]; norm_num
    rw [w1] at k1; rw [w2] at k2
    rw [abs_le]; constructor <;> norm_num <;> linarith
  rw [vx, v2, e1] at A
  have fe := front_eq (a := 200) (b := 200) (x := 23/64) (by norm_num) (by norm_num) (by norm_num) (by norm_num)
  have g1 : Real.Gamma 200 = ((Nat.factorial 199 : ℕ) : ℝ) := by
    rw [← Real.Gamma_nat_eq_factorial]; norm_num
  have g2 : Real.Gamma (200 + 200) = ((Nat.factorial 399 : ℕ) : ℝ) := by
    rw [← Real.Gamma_nat_eq_factorial]; norm_num
  have eb : eulerBeta 200 200 = ((Nat.factorial 199 : ℕ) : ℝ) * ((Nat.factorial 199 : ℕ) : ℝ) / ((Nat.factorial 399 : ℕ) : ℝ) := by
    rw [eulerBeta_gamma (by norm_num) (by norm_num), g1, g2]
  have r1 : (23/64 : ℝ)^(200:ℝ) * (1 - 23/64)^(200:ℝ) = (943:ℝ)^200 / 4096^200 := by
    rw [← Real.mul_rpow (by norm_num) (by norm_num), show (200:ℝ) = ((200:ℕ):ℝ) by norm_num, Real.rpow_natCast, ← div_pow]; norm_num
  have hlo : (2.7 / 10^7 : ℝ) ≤ (23/64 : ℝ)^(200:ℝ) * (1 - 23/64)^(200:ℝ) / eulerBeta 200 200 := by
    have n : 27 * (4096^200 * (Nat.factorial 199 * Nat.factorial 199)) ≤ 10^8 * (943^200 * Nat.factorial 399) := by decide +kernel
    have n' : (27:ℝ) * (4096^200 * ((Nat.factorial 199 : ℕ) * (Nat.factorial 199 : ℕ) : ℝ)) ≤ 10^8 * (943^200 * (Nat.factorial 399 : ℕ)) := by exact_mod_cast n
    rw [r1, eb]
    have p1 : (0:ℝ) < (Nat.factorial 199 : ℕ) := by exact_mod_cast Nat.factorial_pos 199
    have p2 : (0:ℝ) < (Nat.factorial 399 : ℕ) := by exact_mod_cast Nat.factorial_pos 399
    generalize ((Nat.factorial 199 : ℕ) : ℝ) = f1 at *
    generalize ((Nat.factorial 399 : ℕ) : ℝ) = f3 at *
    have p3 : (0:ℝ) < 4096^200 := by positivity
    generalize (4096:ℝ)^200 = u at *
    generalize (943:ℝ)^200 = w at *
    rw [div_div_div_eq, le_div_iff₀ (by positivity)]
    norm_num at n' ⊢
    linarith
  have hhi : (23/64 : ℝ)^(200:ℝ) * (1 - 23/64)^(200:ℝ) / eulerBeta 200 200 ≤ 3 / 10^7 := by
    have n : 10^7 * (943^200 * Nat.factorial 399) ≤ 3 * (4096^200 * (Nat.factorial 199 * Nat.factorial 199)) := by decide +kernel
    have n' : (10:ℝ)^7 * (943^200 * (Nat.factorial 399 : ℕ)) ≤ 3 * (4096^200 * ((Nat.factorial 199 : ℕ) * (Nat.factorial 199 : ℕ) : ℝ)) := by exact_mod_cast n
    rw [r1, eb]
    have p1 : (0:ℝ) < (Nat.factorial 199 : ℕ) := by exact_mod_cast Nat.factorial_pos 199
    have p2 : (0:ℝ) < (Nat.factorial 399 : ℕ) := by exact_mod_cast Nat.factorial_pos 399
    generalize ((Nat.factorial 199 : ℕ) : ℝ) = f1 at *
    generalize ((Nat.factorial 399 : ℕ) : ℝ) = f3 at *
    have p3 : (0:ℝ) < 4096^200 := by positivity
    generalize (4096:ℝ)^200 = u at *
    generalize (943:ℝ)^200 = w at *
    rw [div_div_div_eq, div_le_iff₀ (by positivity)]
    norm_num at n' ⊢
    linarith
  rw [fe] at hlo hhi
  have hY : -Real.log (eulerBeta 200 200) + 200 * Real.log (23/64) + 200 * Real.log (1 - 23/64) ≤ 100 := by
    have := Real.add_one_le_exp (-Real.log (eulerBeta 200 200) + 200 * Real.log (23/64) + 200 * Real.log (1 - 23/64))
    norm_num at hhi this ⊢
    linarith
  obtain ⟨fE, hE⟩ := exp_ab L A (by norm_num) hY
  have tt : (1:ℝ) / 2^1074 ≤ 1 / 10^20 := by
    refine one_div_le_one_div_of_le (by norm_num) ?_
    calc (10:ℝ)^20 ≤ 2^70 := by norm_num
      _ ≤ _ := pow_le_pow_right₀ (by norm_num) (by norm_num)
  generalize -Real.log (eulerBeta 200 200) + 200 * Real.log (23/64) + 200 * Real.log (1 - 23/64) = Y at *
  have p0 := Real.exp_pos Y
  have bt : Ab _ (Real.exp Y) (1 / 10^14) := ⟨fE, hE.trans (by
    generalize (1:ℝ) / 2^1074 = t at *
    norm_num at hhi tt ⊢
    linarith)⟩
  have m := ab_mul bt hcf (P := 3 / 10^7) (Q := 483171518) (M := 200) (by rw [abs_of_pos p0]; exact hhi) (by norm_num) (by norm_num)
    (cap_of (by norm_num) (Gcf.ten_le (by norm_num) 293))
  have b2 : |Real.exp Y * (-483171517.5)| ≤ 150 := by
    rw [abs_mul, abs_of_pos p0]; norm_num at hhi ⊢; linarith
  have d := ab_div m (ab_int f2 v2) (by norm_num) (by norm_num) (M := 10) (by norm_num at b2 ⊢; linarith) (cap_of (by norm_num) (Gcf.ten_le (by norm_num) 293))
  have b3 : |1 - Real.exp Y * (-483171517.5) / 200| ≤ 2 := by
    rw [abs_le]; norm_num at hhi p0 ⊢; constructor <;> linarith
  have o := ab_sub (ab_int (a := 1.0) (by decide +kernel) one_val) d (M := 10) (by norm_num at b2 b3 ⊢; linarith) (cap_of (by norm_num) (Gcf.ten_le (by norm_num) 293))
  rw [e1] at br
  refine ⟨_, br, ?_, ?_, ?_⟩
  · exact o.fin
  · have := (abs_le.1 o.err).1
    generalize F64.val _ = z at this ⊢
    norm_num at this b2 hlo ⊢
    linarith
  · exact regBeta_half (by norm_num) (by norm_num) (by norm_num)

/-- C78 is false of the code: `betai(1000, 1000, 3/8)` is at least 0.99, although the true value is at most a half (it is about 3e-30). -/
theorem betai_wrong_branch [Libm F64] (L : LibmUlp) :
    ∃ v, Returns (betai (1000.0:F64) 1000.0 0.375) v ∧ v.isFin = true ∧ 99/100 ≤ v.val ∧ regBeta 1000 1000 (3/8) ≤ 1/2 := by
  have f2 : (1000.0:F64).isFin = true := by decide +kernel
  have v2 : (1000.0:F64).val = 1000 := by
    have := val_of_int (x := (1000.0 : F64)) 1000 (by decide +kernel); rw [this]; norm_num
  have fx : (0.375:F64).isFin = true := by decide +kernel
  have vx : (0.375:F64).val = 3/8 := by
    have := val_of_sv (x := (0.375 : F64)) 3 8 (by norm_num) (by decide +kernel); rw [this]; norm_num
  have br := betai_branch f2 f2 fx (by rw [v2]; norm_num) (by rw [v2]; norm_num) (Or.inl (by rw [v2]; norm_num)) (by rw [vx]; norm_num) (by rw [vx]; norm_num)
  rw [if_neg (by decide +kernel)] at br
  have A := arg_ab L (a := 1000.0) (b := 1000.0) (x := 0.375) (by rw [v2]; norm_num) (by rw [v2]) (by rw [v2]; norm_num) (by rw [v2])
    (by rw [vx]; refine le_trans (one_div_le_one_div_of_le (by norm_num) (show (10:ℝ)^2 ≤ 10^300 from pow_le_pow_right₀ (by norm_num) (by norm_num))) (by norm_num)) (by rw [vx]; norm_num)
  obtain ⟨k1, k2⟩ := Bool.and_eq_true_iff.1 cf1000
  have k1 := val_le_of_le k1
  have k2 := val_le_of_le k2
  have e1 : (1.0:F64) - 0.375 = 0.625 := by decide +kernel
  have w1 : (-4.0:F64).val = -4 := by
    have := val_of_int (x := (-4.0 : F64)) (-4) (by decide +kernel); rw [this]; norm_num
  have w2 : (-3.9:F64).val ≤ 0 := by
    have := val_le_of_le (show F64.le (-3.9:F64) 0.0 = true by decide +kernel)
    rwa [zero_val] at this
  rw [w1] at k1
  have hcf : Ab (betacf (1000.0:F64) 1000.0 0.625) (-2) 2 := by
    refine ⟨isFin_of_abs (b := 10^10) ?_ (by norm_num), ?_⟩
    · rw [abs_le]; constructor <;> norm_num <;> linarith
    · rw [abs_le]; constructor <;> linarith
  rw [vx, v2, e1] at A
  have fe := front_eq (a := 1000) (b := 1000) (x := 3/8) (by norm_num) (by norm_num) (by norm_num) (by norm_num)
  have hB := eulerBeta_pos (a := 1000) (b := 1000) (by norm_num) (by norm_num)
  -- `bt` against its value at `x = 1/2`
  have hhi : (3/8 : ℝ)^(1000:ℝ) * (1 - 3/8)^(1000:ℝ) / eulerBeta 1000 1000 ≤ 1 / 100 := by
    have h := front_le (a := 1000) (b := 1000) (x := 1/2) (by norm_num) (by norm_num) (by norm_num) (by norm_num)
    have r1 : (3/8 : ℝ)^(1000:ℝ) * (1 - 3/8)^(1000:ℝ) = (15/16)^1000 * ((1/2 : ℝ)^(1000:ℝ) * (1 - 1/2)^(1000:ℝ)) := by
      rw [← Real.mul_rpow (by norm_num) (by norm_num), ← Real.mul_rpow (by norm_num) (by norm_num), show (1000:ℝ) = ((1000:ℕ):ℝ) by norm_num, Real.rpow_natCast, Real.rpow_natCast, ← mul_pow]
      norm_num
    have r2 : (15/16 : ℝ)^1000 ≤ 1 / 10^5 :=
      (pow_le_pow_of_le_one (by norm_num) (by norm_num) (show 200 ≤ 1000 by norm_num)).trans (by norm_num)
    rw [r1, mul_div_assoc]
    have q0 : 0 ≤ (1/2 : ℝ)^(1000:ℝ) * (1 - 1/2)^(1000:ℝ) / eulerBeta 1000 1000 := by
      have : (0:ℝ) ≤ (1 - 1/2 : ℝ)^(1000:ℝ) := Real.rpow_nonneg (by norm_num) _
      have : (0:ℝ) ≤ (1/2 : ℝ)^(1000:ℝ) := Real.rpow_nonneg (by norm_num) _
      positivity
    exact (mul_le_mul r2 h q0 (by norm_num)).trans (by norm_num)
  rw [fe] at hhi
  have hY : -Real.log (eulerBeta 1000 1000) + 1000 * Real.log (3/8) + 1000 * Real.log (1 - 3/8) ≤ 100 := by
    have := Real.add_one_le_exp (-Real.log (eulerBeta 1000 1000) + 1000 * Real.log (3/8) + 1000 * Real.log (1 - 3/8))
    norm_num at hhi this ⊢
    linarith
  obtain ⟨fE, hE⟩ := exp_ab L A (by norm_num) hY
  have tt : (1:ℝ) / 2^1074 ≤ 1 / 10^20 := by
    refine one_div_le_one_div_of_le (by norm_num) ?_
    calc (10:ℝ)^20 ≤ 2^70 := by norm_num
      _ ≤ _ := pow_le_pow_right₀ (by norm_num) (by norm_num)
  generalize -Real.log (eulerBeta 1000 1000) + 1000 * Real.log (3/8) + 1000 * Real.log (1 - 3/8) = Y at *
  have p0 := Real.exp_pos Y
  have bt : Ab _ (Real.exp Y) (1 / 10^9) := ⟨fE, hE.trans (by
    generalize (1:ℝ) / 2^1074 = t at *
    norm_num at hhi tt ⊢
    linarith)⟩
  have m := ab_mul bt hcf (P := 1 / 100) (Q := 2) (M := 1) (by rw [abs_of_pos p0]; exact hhi) (by norm_num) (by norm_num)
    (cap_of (by norm_num) (Gcf.ten_le (by norm_num) 293))
  have b2 : |Real.exp Y * (-2)| ≤ 1 := by
    rw [abs_mul, abs_of_pos p0]; norm_num at hhi ⊢; linarith
  have d := ab_div m (ab_int f2 v2) (by norm_num) (by norm_num) (M := 10) (by norm_num at b2 ⊢; linarith) (cap_of (by norm_num) (Gcf.ten_le (by norm_num) 293))
  have b3 : |1 - Real.exp Y * (-2) / 1000| ≤ 2 := by
    rw [abs_le]; norm_num at hhi p0 ⊢; constructor <;> linarith
  have o := ab_sub (ab_int (a := 1.0) (by decide +kernel) one_val) d (M := 10) (by norm_num at b2 b3 ⊢; linarith) (cap_of (by norm_num) (Gcf.ten_le (by norm_num) 293))
  rw [e1] at br
  refine ⟨_, br, o.fin, ?_, regBeta_half (by norm_num) (by norm_num) (by norm_num)⟩
  have := (abs_le.1 o.err).1
  generalize F64.val _ = z at this ⊢
  norm_num at this b2 p0 ⊢
  linarith

/-- C78 is false of the code even in exact arithmetic: for every `x` between `1 - 10⁻¹⁴` and `1 - 10⁻²⁰`, `betai(1/2, 1/2, x)` (the arcsine
distribution) is at most 0.01, although the true value is at least 0.99: the loop stops after 9999 steps, long before the fraction converges. -/
theorem betai_near_one_wrong [Cfg] {x : ℝ} (h0 : 1 - 1 / 10^14 ≤ x) (h1 : x ≤ 1 - 1 / 10^20) :
    ∃ v, betai (1/2) (1/2) x = .ok v ∧ v ≤ 1 / 100 ∧ 99 / 100 ≤ regBeta (1/2) (1/2) x := by
  have x0 : 0 < x := lt_of_lt_of_le (by norm_num) h0
  have x1 : x < 1 := lt_of_le_of_lt h1 (by norm_num)
  refine ⟨_, betai_real (by norm_num) (by norm_num) (Or.inl (by norm_num)) x0 x1, ?_, ?_⟩
  · rw [if_pos (by norm_num; exact x1)]
    have f := (abs_le.1 (front_err (a := 1/2) (b := 1/2) (by norm_num) (by norm_num) x0 x1)).2
    have c := betacf_half_le x0 h1
    rw [eulerBeta_half] at f
    have q : x^(1/2:ℝ) * (1 - x)^(1/2:ℝ) / Real.pi ≤ 1 / 10^7 / 3 := by
      have q1 : (1 - x)^(1/2:ℝ) ≤ 1 / 10^7 := by
        rw [← Real.sqrt_eq_rpow, Real.sqrt_le_left (by norm_num)]; norm_num at h0 ⊢; linarith
      have q2 : x^(1/2:ℝ) ≤ 1 := Real.rpow_le_one x0.le x1.le (by norm_num)
      have q3 : 0 ≤ (1 - x)^(1/2:ℝ) := Real.rpow_nonneg (by linarith) _
      refine div_le_div₀ (by norm_num) ?_ (by norm_num) Real.pi_gt_three.le
      exact (mul_le_mul q2 q1 q3 (by norm_num)).trans (by norm_num)
    have p0 := Real.exp_pos (lnGamma (1/2 + 1/2) - lnGamma (1/2) - lnGamma (1/2) + 1/2 * Real.log x + 1/2 * Real.log (1 - x))
    generalize Real.exp (lnGamma (1/2 + 1/2) - lnGamma (1/2) - lnGamma (1/2) + 1/2 * Real.log x + 1/2 * Real.log (1 - x)) = bt at *
    have bt1 : bt ≤ 4 / 10^8 := by norm_num at f q ⊢; linarith
    have := mul_le_mul_of_nonneg_left c p0.le
    rw [div_le_iff₀ (by norm_num)]
    norm_num at bt1 ⊢; linarith
  · have s := regBeta_add (a := 1/2) (b := 1/2) (by norm_num) (by norm_num) x0.le x1.le
    have := regBeta_half_small (y := 1 - x) (by linarith) (by linarith)
    linarith

/-- the hypotheses of `betai_near_one_wrong` are met by `1 - 2⁻⁵³`, the largest binary64 number below one -/
example : (1:ℝ) - 1 / 10^14 ≤ 1 - 1 / 2^53 ∧ (1:ℝ) - 1 / 2^53 ≤ 1 - 1 / 10^20 := by norm_num

end Verif
