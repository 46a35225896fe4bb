import Verif.Proofs.BesselKF

/-! Rounding errors of `k0`, `k1` for `0 < x ≤ 1`. -/

namespace Verif
namespace BesX
open FlErr F64

def k0aE : Ex := .div (polyE (.var 0) K0Px) (polyE (.sub (.lit 10 1) (.var 0)) K0Qx)
def k0pE : Ex := polyE (.var 0) K0PIx
def k0qE : Ex := polyE (.sub (.lit 10 1) (.var 0)) K0QIx
def k1aE : Ex := .div (polyE (.var 0) K1Px) (polyE (.sub (.lit 10 1) (.var 0)) K1Qx)
def k1pE : Ex := polyE (.var 0) K1PIx
def k1qE : Ex := polyE (.sub (.lit 10 1) (.var 0)) K1QIx

/-- absolute error `e` units, absolute value at most `N` units -/
def abC (e N : ℕ) (r : B) : Bool := absC e r && decide (-(N:ℤ) ≤ r.l) && decide (r.u ≤ N)

theorem abC_sound {a : F64} {A : ℝ} {e N : ℕ} {r : B} (h : FlErr.In a A r) (hc : abC e N r = true) :
    a.isFin = true ∧ |a.val - A| ≤ e / FlErr.U ∧ |a.val| ≤ N / FlErr.U := by
  simp only [abC, Bool.and_eq_true, decide_eq_true_eq] at hc
  obtain ⟨h1, h2⟩ := absC_sound h hc.1.1
  refine ⟨h1, h2, ?_⟩
  have hU := FlErr.U_pos
  have a1 : -(N:ℝ) ≤ r.l := by exact_mod_cast hc.1.2
  have a2 : (r.u:ℝ) ≤ N := by exact_mod_cast hc.2
  rw [abs_le]
  constructor
  · refine le_trans ?_ h.lo
    rw [← neg_div]; gcongr
  · refine h.hi.trans ?_
    gcongr

set_option maxRecDepth 100000
theorem k0a_pc : pieces (sqB k0aE) (relC2 (10 ^ 14)) (2 ^ 156) 16 0 = true := by decide +kernel
theorem k1a_pc : pieces (sqB k1aE) (abC (2 ^ 160 / 10 ^ 15) (2 ^ 159)) (2 ^ 156) 16 0 = true := by decide +kernel
theorem k0p_pc : pieces (sqB k0pE) (relC2 (10 ^ 14)) (2 ^ 156) 16 0 = true := by decide +kernel
theorem k0q_pc : pieces (sqB k0qE) (relC2 (10 ^ 14)) (2 ^ 156) 16 0 = true := by decide +kernel
theorem k1p_pc : pieces (sqB k1pE) (relC2 (10 ^ 14)) (2 ^ 156) 16 0 = true := by decide +kernel
theorem k1q_pc : pieces (sqB k1qE) (relC2 (10 ^ 14)) (2 ^ 156) 16 0 = true := by decide +kernel

theorem rng1 {x : F64} (hx : 0 ≤ x.val) (hx1 : x.val ≤ 1) : ((0 : ℤ) : ℝ) / FlErr.U ≤ x.val ∧ x.val ≤ ((0 + (2 ^ 156 : ℕ) * (16 : ℕ) : ℤ) : ℝ) / FlErr.U := by
  unfold FlErr.U
  constructor <;> norm_num <;> linarith

theorem lrel {E : Ex} {x : F64} (hf : x.isFin = true) (hx : 0 ≤ x.val) (hx1 : x.val ≤ 1) (h : pieces (sqB E) (relC2 (10 ^ 14)) (2 ^ 156) 16 0 = true) :
    Rel (evF (envF x) E) (evR (envR x.val) E) (1 / 10 ^ 14) ∧ 1 / 2 ^ 4 ≤ (evF (envF x) E).val ∧ (evF (envF x) E).val ≤ 2 := by
  obtain ⟨r, hr, hc⟩ := pieces_sound (f := fun x => evF (envF x) E) (g := fun x => evR (envR x) E) (fun h1 h2 => sqB_sound E h1 h2) hf 16 0 (by norm_num) h (rng1 hx hx1).1 (rng1 hx hx1).2
  have := relC2_sound (by norm_num) hr hc
  exact_mod_cast this

theorem labs {E : Ex} {x : F64} (hf : x.isFin = true) (hx : 0 ≤ x.val) (hx1 : x.val ≤ 1) (h : pieces (sqB E) (abC (2 ^ 160 / 10 ^ 15) (2 ^ 159)) (2 ^ 156) 16 0 = true) :
    (evF (envF x) E).isFin = true ∧ |(evF (envF x) E).val - evR (envR x.val) E| ≤ 1e-15 ∧ |(evF (envF x) E).val| ≤ 1 / 2 := by
  obtain ⟨r, hr, hc⟩ := pieces_sound (f := fun x => evF (envF x) E) (g := fun x => evR (envR x) E) (fun h1 h2 => sqB_sound E h1 h2) hf 16 0 (by norm_num) h (rng1 hx hx1).1 (rng1 hx hx1).2
  obtain ⟨h1, h2, h3⟩ := abC_sound hr hc
  refine ⟨h1, h2.trans ?_, h3.trans ?_⟩
  · unfold FlErr.U; norm_num
  · unfold FlErr.U; norm_num

/-- rounding of a value known to a relative error `ε` and an absolute error `τ` -/
theorem ae_round {y Y ε τ : ℝ} (h : |y - Y| ≤ ε * |Y| + τ) (hY : |Y| ≤ 2 ^ 20) (h0 : 0 ≤ ε) (he : ε ≤ 1 / 4) (hτ0 : 0 ≤ τ) (hτ : τ ≤ 1) :
    |RN y| < HUGE ∧ |RN y - Y| ≤ (ε + (1 + ε) / 2 ^ 53) * |Y| + (1.01 * τ + 1 / 2 ^ 1075) := by
  have hH := HUGE_ge
  have h1 : |y| ≤ (1 + ε) * |Y| + τ := by
    have := abs_sub_abs_le_abs_sub y Y
    linarith
  have h2 : |y| ≤ 2 ^ 21 := by
    have : (1 + ε) * |Y| ≤ 5 / 4 * 2 ^ 20 := mul_le_mul (by linarith) hY (abs_nonneg _) (by norm_num)
    norm_num at this ⊢
    linarith
  have r := RN_err' (x := y) (lt_of_le_of_lt h2 (lt_of_lt_of_le (by norm_num) hH))
  have w : (1:ℝ) / 2 ^ 1075 ≤ 1 := by rw [div_le_one (by positivity)]; exact one_le_pow₀ (by norm_num)
  constructor
  · have := abs_sub_abs_le_abs_sub (RN y) y
    refine lt_of_lt_of_le ?_ hH
    generalize (1:ℝ) / 2 ^ 1075 = w' at *
    norm_num at *
    linarith
  · refine (abs_sub_le _ y _).trans ?_
    have h3 : |y| / 2 ^ 53 ≤ ((1 + ε) * |Y| + τ) / 2 ^ 53 := by gcongr
    have e : (ε + (1 + ε) / 2 ^ 53) * |Y| = ε * |Y| + (1 + ε) * |Y| / 2 ^ 53 := by ring
    rw [e]
    rw [add_div] at h3
    have h4 : τ / 2 ^ 53 ≤ 0.01 * τ := by rw [div_eq_mul_inv, mul_comm]; exact mul_le_mul_of_nonneg_right (by norm_num) hτ0
    linarith

/-- the logarithmic term -/
theorem k_term {p l q : F64} {P Λ Q : ℝ} (hp : Rel p P (1 / 10 ^ 14)) (hp1 : 1 / 2 ^ 4 ≤ p.val ∧ p.val ≤ 2) (hq : Rel q Q (1 / 10 ^ 14)) (hq1 : 1 / 2 ^ 4 ≤ q.val ∧ q.val ≤ 2)
    (hl : l.isFin = true) (hle : |l.val - Λ| ≤ |Λ| / 2 ^ 52 + 1 / 2 ^ 1074) (hΛ : |Λ| ≤ 1000) :
    (p * l / q).isFin = true ∧ |(p * l / q).val - P * Λ / Q| ≤ 2.2e-14 * |P * Λ / Q| + 1e-30 := by
  have bp := hp.bounds
  have bq := hq.bounds
  have P2 : P ≤ 3 := by norm_num at bp hp1 ⊢; linarith [bp.1, hp1.2]
  have Q1 : 0.06 ≤ Q := by norm_num at bq hq1 ⊢; linarith [bq.2, hq1.1]
  have hP := hp.pos
  have hQ := hq.pos
  have w : (1:ℝ) / 2 ^ 1074 ≤ 1e-40 := by
    have : (1:ℝ) / 2 ^ 1074 ≤ 1 / 2 ^ 140 := one_div_le_one_div_of_le (by positivity) (pow_le_pow_right₀ (by norm_num) (by norm_num))
    exact this.trans (by norm_num)
  have w' : (1:ℝ) / 2 ^ 1075 ≤ 1e-40 := le_trans (one_div_le_one_div_of_le (by positivity) (pow_le_pow_right₀ (by norm_num) (by norm_num))) w
  generalize (1:ℝ) / 2 ^ 1074 = w1 at *
  have hL0 := abs_nonneg Λ
  have hle' : |l.val - Λ| ≤ 2.23e-16 * |Λ| + 1e-40 := by norm_num at *; linarith [abs_nonneg Λ]
  have hlv : |l.val| ≤ (1 + 2.23e-16) * |Λ| + 1e-40 := by
    have := abs_sub_abs_le_abs_sub l.val Λ
    linarith
  -- the product
  have s1 : |p.val * l.val - P * Λ| ≤ 1.03e-14 * |P * Λ| + 4e-40 := by
    rw [show p.val * l.val - P * Λ = (p.val - P) * l.val + P * (l.val - Λ) by ring]
    refine (abs_add_le _ _).trans ?_
    rw [abs_mul, abs_mul, abs_mul, abs_of_pos hP]
    have a1 : |p.val - P| * |l.val| ≤ (1 / 10 ^ 14 * P) * ((1 + 2.23e-16) * |Λ| + 1e-40) := mul_le_mul hp.err hlv (abs_nonneg _) (by positivity)
    have a2 : P * |l.val - Λ| ≤ P * (2.23e-16 * |Λ| + 1e-40) := mul_le_mul_of_nonneg_left hle' hP.le
    have a3 : 0 ≤ P * |Λ| := by positivity
    have e1 : (1 / 10 ^ 14 * P) * ((1 + 2.23e-16) * |Λ| + 1e-40) = 1 / 10 ^ 14 * (1 + 2.23e-16) * (P * |Λ|) + 1 / 10 ^ 14 * 1e-40 * P := by ring
    have e2 : P * (2.23e-16 * |Λ| + 1e-40) = 2.23e-16 * (P * |Λ|) + 1e-40 * P := by ring
    rw [e1] at a1; rw [e2] at a2
    generalize P * |Λ| = z at *
    norm_num at *
    linarith
  have hPL : |P * Λ| ≤ 3000 := by
    rw [abs_mul, abs_of_pos hP]
    calc P * |Λ| ≤ 3 * 1000 := mul_le_mul P2 hΛ hL0 (by norm_num)
      _ = 3000 := by norm_num
  obtain ⟨f1, r1⟩ := ae_round s1 (hPL.trans (by norm_num)) (by norm_num) (by norm_num) (by norm_num) (by norm_num)
  rw [← (mul_spec hp.fin hl).2.1] at f1 r1
  have f1' : (p * l).isFin = true := isFin_iff_val.2 f1
  have r1' : |(p * l).val - P * Λ| ≤ 1.05e-14 * |P * Λ| + 1e-39 := by
    have := abs_nonneg (P * Λ)
    generalize |P * Λ| = z at *
    generalize (1:ℝ) / 2 ^ 1075 = w2 at *
    norm_num at *
    linarith
  -- the quotient
  have hqv : 0 < q.val := hq.val_pos (by norm_num)
  have s2 : |(p * l).val / q.val - P * Λ / Q| ≤ 2.1e-14 * |P * Λ / Q| + 2e-38 := by
    have e : (p * l).val / q.val - P * Λ / Q = (((p * l).val - P * Λ) - P * Λ / Q * (q.val - Q)) / q.val := by
      field_simp; ring
    rw [e, abs_div, abs_of_pos hqv, div_le_iff₀ hqv]
    refine (abs_sub _ _).trans ?_
    rw [abs_mul]
    have a1 := mul_le_mul_of_nonneg_left hq.err (abs_nonneg (P * Λ / Q))
    have a2 : |P * Λ| = |P * Λ / Q| * Q := by rw [abs_div, abs_of_pos hQ]; field_simp
    rw [a2] at r1'
    have a3 : (1 - 1 / 10 ^ 14) * Q ≤ q.val := bq.1
    have a4 : 0 ≤ |P * Λ / Q| := abs_nonneg _
    have a5 := mul_le_mul_of_nonneg_left a3 a4
    have a6 : 0 ≤ |P * Λ / Q| * Q := by positivity
    generalize |P * Λ / Q| = z at *
    have e3 : z * (1 / 10 ^ 14 * Q) = 1 / 10 ^ 14 * (z * Q) := by ring
    have e4 : z * ((1 - 1 / 10 ^ 14) * Q) = (1 - 1 / 10 ^ 14) * (z * Q) := by ring
    have e5 : (2.1e-14 * z + 2e-38) * q.val = 2.1e-14 * (z * q.val) + 2e-38 * q.val := by ring
    rw [e3] at a1; rw [e4] at a5; rw [e5]
    generalize z * q.val = zq at *
    generalize z * Q = zQ at *
    norm_num at *
    linarith [hq1.1]
  have hPQ : |P * Λ / Q| ≤ 2 ^ 20 := by
    rw [abs_div, abs_of_pos hQ, div_le_iff₀ hQ]
    refine hPL.trans ?_
    norm_num at Q1 ⊢; linarith
  obtain ⟨f2, r2⟩ := ae_round s2 hPQ (by norm_num) (by norm_num) (by norm_num) (by norm_num)
  rw [← (div_spec f1' hq.fin hqv.ne').2.1] at f2 r2
  refine ⟨isFin_iff_val.2 f2, r2.trans ?_⟩
  have h0 := abs_nonneg (P * Λ / Q)
  clear s2 r2 s1 r1 r1' hPL hPQ
  generalize |P * Λ / Q| = z at *
  generalize (1:ℝ) / 2 ^ 1075 = w2 at *
  norm_num at *
  linarith

end BesX
end Verif
