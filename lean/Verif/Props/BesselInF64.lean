import Verif.Proofs.BesselInF5
import Verif.Props.BesselF64

/-!
# C73 in binary64: `In(n, ·)` for `n ≥ 2` (src/bessel.rs)

`besselIR n` (`Verif.SpecBessel`) is the modified Bessel function `I_n`; `LibmUlp` says that `exp` is accurate to one unit
in the last place.
-/

namespace Verif
open Bes BesX F64
variable [Cfg] [Libm F64]

/-- C73 in binary64.  `m` is the order from which the program starts its downward recurrence.  For `2 ≤ n ≤ 2·10⁹`,
`2^-400 ≤ |x| ≤ min(690, m - 20)` and `I_n(x)/I_0(x) ≥ 2^-990` the result is finite and accurate to `7·10^-13` plus `9m`
half units in the last place.
Missing for the full property: larger `|x|` (wrong: `In_large_wrong_f64`) and values `I_n(x)/I_0(x)` near or below the
smallest normal number (wrong: `In_small_infinite`, `In_small_garbage`). -/
theorem In_accurate_partial (L : LibmUlp) {x : F64} {n m : ℕ} (h2 : 2 ≤ n) (hn : n ≤ 2000000000) (hm : m + 1 = 2 * (n + Nat.sqrt (200 * n)))
    (h0 : 1 / 2 ^ 400 ≤ |x.val|) (h690 : |x.val| ≤ 690) (hxm : |x.val| ≤ m - 20) (hr : besselIR 0 x.val / 2 ^ 990 ≤ |besselIR n x.val|) :
    ∃ v, In n x = .ok v ∧ v.isFin = true ∧ |v.val - besselIR n x.val| ≤ (7e-13 + 9 * m / 2 ^ 53) * |besselIR n x.val| := by
  have hax : 0 < |x.val| := lt_of_lt_of_le (by positivity) h0
  have pn := I_pos n hax
  have hf : x.isFin = true := isFin_of_abs h690 (by norm_num)
  have hp : |besselIR n x.val| = besselIR n |x.val| := by
    rw [I_parity n x.val, abs_mul, abs_of_pos pn]
    split_ifs <;> simp
  rw [hp, ← I0_abs] at hr
  obtain ⟨v, hv, hR⟩ := inMag_acc L h2 hn hm h0 h690 hxm hr
  rw [In_main h2 (not_cut h0 h690), hv]
  refine ⟨_, rfl, ?_⟩
  have hlt : F64.lt x 0.0 = true ↔ x.val < 0 := by
    rw [lt_iff, Verif.zero_val]
    exact ⟨fun h => h.2.2, fun h => ⟨isFin_notNaN hf, by decide +kernel, h⟩⟩
  have hc : (F64.lt x 0.0 && decide (n % 2 = 1)) = true ↔ x.val < 0 ∧ n % 2 = 1 := by
    rw [Bool.and_eq_true, hlt, decide_eq_true_eq]
  have he := hR.err
  rw [← mul_div_assoc] at he
  rw [hp, I_parity n x.val]
  by_cases h : x.val < 0 ∧ n % 2 = 1
  · rw [if_pos (hc.2 h), if_pos h]
    refine ⟨by rw [isFin_neg]; exact hR.fin, ?_⟩
    rw [val_neg, neg_one_mul, ← neg_sub', abs_neg]
    exact he
  · rw [if_neg (fun h' => h (hc.1 h')), if_neg h, one_mul]
    exact ⟨hR.fin, he⟩

/-- `2^-500` -/
def c150 : F64 := ⟨false, 523 * 2 ^ 52, by decide⟩
omit [Libm F64] [Cfg] in
theorem c150_val : c150.val = 1 / 2 ^ 500 := by
  have := val_of_sv (x := c150) 1 (2 ^ 500) (by positivity) (by decide +kernel)
  rw [this]; push_cast; rfl

omit [Libm F64] in
theorem bindU {k : ℕ} (h : 2 * k ≤ U32_MAX) : (Except.ok k : M ℕ).bind (fun s => wrapU U32_MAX (2 * s)) = .ok (2 * k) := wrapU_ok h

omit [Libm F64] [Cfg] in
/-- the recurrence at 690 from order 53 -/
theorem in690 : (inDown (2.0 / (690.0 : F64).abs) 3 53 ⟨0.0, 1.0, 0.0⟩).bi.isFin = true ∧
    (inDown (2.0 / (690.0 : F64).abs) 3 53 ⟨0.0, 1.0, 0.0⟩).ans.isFin = true ∧
    102 * (inDown (2.0 / (690.0 : F64).abs) 3 53 ⟨0.0, 1.0, 0.0⟩).bi.sv ≤ 100 * (inDown (2.0 / (690.0 : F64).abs) 3 53 ⟨0.0, 1.0, 0.0⟩).ans.sv ∧
    2 ^ 1074 ≤ (inDown (2.0 / (690.0 : F64).abs) 3 53 ⟨0.0, 1.0, 0.0⟩).bi.sv ∧
    (inDown (2.0 / (690.0 : F64).abs) 3 53 ⟨0.0, 1.0, 0.0⟩).ans.sv ≤ 8 * 2 ^ 1074 := by decide +kernel

/-- C73: the restriction `|x| ≤ m - 20` is needed: `In(3, 690)` is at least 1.9 percent too large and exceeds `I_0(690)` -/
theorem In_large_wrong_f64 (L : LibmUlp) : ∃ v, In 3 (690.0 : F64) = .ok v ∧ 1.019 * besselIR 3 690 ≤ v.val ∧ besselIR 0 690 < v.val := by
  have e690 : (690.0 : F64).val = 690 := by rw [val_of_int (x := (690.0 : F64)) 690 (by decide +kernel)]; norm_num
  have hst : inStart F64 3 = .ok 54 := by
    rw [inStart_eq (by decide) (by decide), show Nat.sqrt (200 * 3) = 24 from (Nat.eq_sqrt.2 (by decide)).symm, wrapU_ok (by decide)]
    exact wrapU_ok (by decide)
  have hI := i0_acc_right L (x := (690.0 : F64)) (by rw [e690]; norm_num) (by rw [e690]; norm_num)
  rw [e690] at hI
  have g1 := I0_ge_one 690
  have g2 : besselIR 0 690 ≤ 2 ^ 996 := (I0_le_exp (by norm_num)).trans (exp690 le_rfl)
  have h3 : besselIR 3 690 ≤ besselIR 0 690 := (I_anti 2 (by norm_num)).trans ((I_anti 1 (by norm_num)).trans (I_anti 0 (by norm_num)))
  obtain ⟨f1, f2, c1, c2, c3⟩ := in690
  rw [In_main (by decide) (by decide +kernel)]
  unfold inMag
  rw [hst]
  refine ⟨_, rfl, ?_⟩
  rw [if_neg (by decide +kernel)]
  generalize inDown (2.0 / (690.0 : F64).abs) 3 (54 - 1) ⟨0.0, 1.0, 0.0⟩ = s at *
  have U : (0:ℝ) < 2 ^ 1074 := by positivity
  have B1 : 1 ≤ s.bi.val := by
    unfold val; rw [le_div_iff₀ U, one_mul]; exact_mod_cast c2
  have A1 : s.ans.val ≤ 8 := by
    unfold val; rw [div_le_iff₀ U]; exact_mod_cast c3
  have hAB : 102 * s.bi.val ≤ 100 * s.ans.val := by
    unfold val; rw [← mul_div_assoc, ← mul_div_assoc]
    exact div_le_div_of_nonneg_right (by exact_mod_cast c1) U.le
  have B8 : s.bi.val ≤ 8 := by linarith
  have B0 : 0 < s.bi.val := by linarith
  have small : (1:ℝ) / 2 ^ 1000 ≤ 1 / 8 := by
    rw [show (8:ℝ) = 2 ^ 3 by norm_num]
    exact one_div_le_one_div_of_le (by positivity) (pow_le_pow_right₀ (by norm_num) (by norm_num))
  have q1 : 1 / 8 ≤ besselIR 0 690 / s.bi.val := div_le_div₀ (by linarith) g1 B0 B8
  have q2 : besselIR 0 690 / s.bi.val ≤ 2 ^ 996 := (div_le_self (by linarith) B1).trans g2
  have r1 := rel_div (η := 3.4e-13) hI (rel_self f1 B0) ⟨small.trans q1, q2.trans (pow_le_pow_right₀ (by norm_num) (by norm_num))⟩ (by norm_num) (by norm_num) (by norm_num)
  have r2 := rel_mul (rel_self f2 (by linarith)) r1 ⟨small.trans (by nlinarith), by
    rw [show (1000:ℕ) = 4 + 996 from rfl, pow_add]
    exact mul_le_mul (A1.trans (by norm_num)) q2 (by linarith) (by norm_num)⟩ (by norm_num)
  have r3 := r2.bounds.1
  have h5 : 1.02 * besselIR 0 690 ≤ s.ans.val * (besselIR 0 690 / s.bi.val) := by
    rw [← mul_div_assoc, le_div_iff₀ B0]
    have : 0 < besselIR 0 690 := by linarith
    norm_num at hAB ⊢
    nlinarith
  generalize s.ans.val * (besselIR 0 690 / s.bi.val) = P at *
  norm_num at r3 h5 ⊢
  constructor <;> linarith

set_option maxRecDepth 100000 in
/-- C73: for tiny values the program returns infinity: `In(20, 1e-20)`, whose exact value is about `10^-424` -/
theorem In_small_infinite : Returns (In 20 (1e-20 : F64)) F64.inf := by
  unfold Returns
  rw [In_main (by decide) (by decide +kernel)]
  unfold inMag
  rw [inStart_eq (by decide) (by decide), show Nat.sqrt (200 * 20) = 63 from (Nat.eq_sqrt.2 (by decide)).symm, wrapU_ok (by decide), bindU (by decide)]
  unfold i0
  simp only [i_left_lt (by rw [← val_abs]; have := (lt_iff.1 (by decide +kernel : F64.lt (1e-20 : F64).abs 15.0 = true)).2.2; rwa [val_of_int (x := (15.0 : F64)) 15 (by decide +kernel)] at this), if_true]
  decide +kernel

set_option maxRecDepth 100000 in
/-- C73: … or an arbitrary number: `In(20, 5e-154)` is above 6, the exact value is below `2^-1000` -/
theorem In_small_garbage : (∃ v, Returns (In 20 (5e-154 : F64)) v ∧ v.isFin = true ∧ 6 < v.val) ∧ besselIR 20 (5e-154 : F64).val ≤ 1 / 2 ^ 1000 := by
  refine ⟨?_, ?_⟩
  swap
  · have h1 : (5e-154 : F64).val ≤ 1 / 2 ^ 500 := by
      have := (lt_iff.1 (by decide +kernel : F64.lt (5e-154:F64) c150 = true)).2.2
      rw [c150_val] at this
      exact this.le
    have h2 : 0 < (5e-154 : F64).val := by
      have := (lt_iff.1 (by decide +kernel : F64.lt 0.0 (5e-154:F64) = true)).2.2
      rwa [Verif.zero_val] at this
    have h3 : (5e-154 : F64).val * (5e-154 : F64).val ≤ 1 / 2 ^ 1000 := by
      refine (mul_le_mul h1 h1 h2.le (by positivity)).trans (le_of_eq ?_)
      rw [div_mul_div_comm, one_mul, ← pow_add]
    have h4 : (1:ℝ) / 2 ^ 1000 ≤ 1 := by rw [div_le_one (by positivity)]; exact one_le_pow₀ (by norm_num)
    have h5 := I_tiny (n := 20) (by norm_num) h2 (h3.trans h4)
    have h6 : (0:ℝ) < 1 / 2 ^ 1000 := by positivity
    generalize (1:ℝ) / 2 ^ 1000 = w at *
    linarith
  unfold Returns
  rw [In_main (by decide) (by decide +kernel)]
  unfold inMag
  rw [inStart_eq (by decide) (by decide), show Nat.sqrt (200 * 20) = 63 from (Nat.eq_sqrt.2 (by decide)).symm, wrapU_ok (by decide), bindU (by decide)]
  unfold i0
  simp only [i_left_lt (by rw [← val_abs]; have := (lt_iff.1 (by decide +kernel : F64.lt (5e-154 : F64).abs 15.0 = true)).2.2; rwa [val_of_int (x := (15.0 : F64)) 15 (by decide +kernel)] at this), if_true]
  refine ⟨_, rfl, by decide +kernel, ?_⟩
  have e6 : (6.0 : F64).val = 6 := by rw [val_of_int (x := (6.0 : F64)) 6 (by decide +kernel)]; norm_num
  rw [← e6]
  exact (lt_iff.1 (by decide +kernel)).2.2

example : (letI := idealLibm; ∃ v, In 5 (-40.0 : F64) = .ok v ∧ v.isFin = true ∧
    |v.val - besselIR 5 (-40)| ≤ 8e-13 * |besselIR 5 (-40)|) := by
  let _ := idealLibm
  have e : (-40.0 : F64).val = -40 := by rw [val_neg, val_of_int (x := (40.0 : F64)) 40 (by decide +kernel)]; norm_num
  have hsq : Nat.sqrt (200 * 5) = 31 := (Nat.eq_sqrt.2 (by decide)).symm
  have hst : ∀ k, k ≤ 5 → besselIR k 40 ≤ 2 * besselIR (k + 1) 40 := by
    intro k hk
    have h1 := I_rec k (show (0:ℝ) < 40 by norm_num)
    have h2 := I_anti (k + 1) (show (0:ℝ) ≤ 40 by norm_num)
    have h3 := I_pos (k + 1) (show (0:ℝ) < 40 by norm_num)
    have h4 : ((k + 1 : ℕ):ℝ) * (2 / 40) ≤ 1 := by
      have : ((k + 1 : ℕ):ℝ) ≤ 6 := by exact_mod_cast (by omega : k + 1 ≤ 6)
      linarith
    nlinarith
  have h0 := hst 0 (by norm_num)
  have h1 := hst 1 (by norm_num)
  have h2 := hst 2 (by norm_num)
  have h3 := hst 3 (by norm_num)
  have h4 := hst 4 (by norm_num)
  have p5 := I_pos 5 (show (0:ℝ) < 40 by norm_num)
  have hr : besselIR 0 40 / 2 ^ 990 ≤ besselIR 5 40 := by
    rw [div_le_iff₀ (by positivity)]
    have : (2:ℝ) ^ 5 ≤ 2 ^ 990 := pow_le_pow_right₀ (by norm_num) (by norm_num)
    generalize (2:ℝ) ^ 990 = w at *
    norm_num at h0 h1 h2 h3 h4 this
    nlinarith
  obtain ⟨v, hv, hf, h⟩ := In_accurate_partial ideal_ulp (x := (-40.0 : F64)) (n := 5) (m := 71) (by decide) (by decide) (by rw [hsq])
    (by rw [e, abs_neg, abs_of_pos (by norm_num)]; refine le_trans (div_le_one (by positivity) |>.2 (one_le_pow₀ (by norm_num))) (by norm_num))
    (by rw [e]; norm_num [abs_of_pos]) (by rw [e]; norm_num [abs_of_pos]) (by
      rw [e, I0_even, I_parity 5 (-40), abs_mul, abs_neg, abs_of_pos (show (0:ℝ) < 40 by norm_num), abs_of_pos p5]
      norm_num at hr ⊢; exact hr)
  rw [e] at h
  exact ⟨v, hv, hf, h.trans (mul_le_mul_of_nonneg_right (by norm_num) (abs_nonneg _))⟩

end Verif
