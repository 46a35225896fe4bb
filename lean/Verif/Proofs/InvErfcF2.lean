import Verif.Proofs.InvErfcF
import Verif.Proofs.Exact

/-! `inverfc` in floating-point arithmetic: the starting value and the two steps. -/

namespace Verif
open F64
namespace InvErfc
variable [Libm F64]

omit [Libm F64] in
theorem ab_sqrt {a : F64} {A e M : ℝ} (h : Ab a A e) (hA : 1 ≤ A) (he : e ≤ 1/2) (hM : Real.sqrt A + e ≤ M) (hc : Cap M) :
    Ab (F64.sqrt a) (Real.sqrt A) (e + M / 2^52) := by
  have k := abs_le.1 h.err
  have ha : 0 < a.val := by linarith
  refine ab_round (sqrt_spec h.fin ha).2.1 ?_ (by rw [abs_of_nonneg (Real.sqrt_nonneg _)]; exact hM) hc
  have h1 : 1 ≤ Real.sqrt A := Real.one_le_sqrt.2 hA
  have h2 := Real.sqrt_nonneg a.val
  have e1 : (Real.sqrt a.val - Real.sqrt A) * (Real.sqrt a.val + Real.sqrt A) = a.val - A := by
    have := Real.sq_sqrt ha.le
    have := Real.sq_sqrt (show 0 ≤ A by linarith)
    nlinarith
  have e2 : |Real.sqrt a.val - Real.sqrt A| * (Real.sqrt a.val + Real.sqrt A) = |a.val - A| := by
    rw [← e1, abs_mul, abs_of_pos (a := Real.sqrt a.val + Real.sqrt A) (by linarith)]
  have h3 := h.err
  rw [← e2] at h3
  refine le_trans ?_ h3
  exact le_mul_of_one_le_right (abs_nonneg _) (by linarith)

omit [Libm F64] in
theorem frac1_ab : Ab (Arith.frac1Sqrt2 : F64) (1 / Real.sqrt 2) (1 / 10^15) := by
  have h1 := le_val_of_sv (x := (Arith.frac1Sqrt2 : F64)) 70710678118654746 100000000000000000 (by norm_num) (by decide +kernel)
  have h2 := val_le_of_sv (x := (Arith.frac1Sqrt2 : F64)) 70710678118654758 100000000000000000 (by norm_num) (by decide +kernel)
  push_cast at h1 h2
  have h3 : (0.70710678118654740 : ℝ) ≤ 1 / Real.sqrt 2 ∧ 1 / Real.sqrt 2 ≤ 0.70710678118654760 := by
    have e : 1 / Real.sqrt 2 = Real.sqrt (1/2) := by rw [Real.sqrt_div' _ (by norm_num), Real.sqrt_one]
    rw [e]
    constructor
    · exact Real.le_sqrt_of_sq_le (by norm_num)
    · exact Real.sqrt_le_iff.2 ⟨by norm_num, by norm_num⟩
  refine ⟨by decide +kernel, ?_⟩
  rw [abs_le]
  norm_num at *
  constructor <;> linarith [h3.1, h3.2]

omit [Libm F64] in
theorem s_high' {p : ℝ} (h0 : 1 / 10^280 ≤ p) : -Real.log (p / 2) ≤ 646 := by
  have hp : 0 < p := lt_of_lt_of_le (by positivity) h0
  have h : Real.log (1 / 10^280) ≤ Real.log p := Real.log_le_log (by positivity) h0
  rw [one_div, Real.log_inv, Real.log_pow] at h
  rw [Real.log_div hp.ne' two_ne_zero]
  have h10 : Real.log 10 ≤ 2.3026 := by
    rw [show (10:ℝ) = 2^3 * (5/4) by norm_num, Real.log_mul (by norm_num) (by norm_num), Real.log_pow]
    have h2 := Real.log_two_lt_d9
    have h5 : Real.log (5/4) ≤ 0.22315 := by
      rw [Real.log_le_iff_le_exp (by norm_num)]
      have := Real.sum_le_exp_of_nonneg (x := 0.22315) (by norm_num) 6
      refine le_trans ?_ this
      norm_num [Finset.sum_range_succ, Nat.factorial]
    norm_num at h2 h5 ⊢
    linarith
  have h2 := Real.log_two_lt_d9
  norm_num at h h2 h10 ⊢
  linarith

/-- the starting value -/
noncomputable def startF (p : F64) : F64 :=
  -Arith.frac1Sqrt2 * ((2.30753 + Arith.sqrt (-2.0 * Libm.ln (p / 2.0)) * 0.27061) /
    (1.0 + Arith.sqrt (-2.0 * Libm.ln (p / 2.0)) * (0.99229 + Arith.sqrt (-2.0 * Libm.ln (p / 2.0)) * 0.04481)) - Arith.sqrt (-2.0 * Libm.ln (p / 2.0)))

theorem start_F (L : LibmUlp) {p : F64} (fp : p.isFin = true) (h0 : 1 / 10^280 ≤ p.val) (h1 : p.val ≤ 1) :
    Ab (startF p) (Real.sqrt (-Real.log (p.val / 2)) - rho (Real.sqrt (-Real.log (p.val / 2)))) (1 / 10^7) := by
  have hp : 0 < p.val := lt_of_lt_of_le (by positivity) h0
  rw [← start_eq hp h1]
  have hl := s_high' h0
  have hlow : 0.69 ≤ -Real.log (p.val / 2) := by
    have h : Real.log (p.val / 2) ≤ Real.log (1 / 2) := Real.log_le_log (by positivity) (by linarith)
    rw [one_div, Real.log_inv] at h
    have := Real.log_two_gt_d9
    norm_num at this ⊢
    linarith
  -- the logarithm
  have half : Ab (p / 2.0) (p.val / 2) (1 / 2^53 * (p.val / 2)) := by
    have hv := (div_spec fp (b := 2.0) (by decide +kernel) (by rw [two_val]; norm_num)).2.1
    rw [two_val] at hv
    have r := rn_rel (x := p.val / 2) (by
      rw [abs_of_pos (by positivity)]
      refine le_trans ?_ (div_le_div_of_nonneg_right h0 two_pos.le)
      rw [div_div]
      refine one_div_le_one_div_of_le (by positivity) ?_
      exact_mod_cast (by decide +kernel : 10^280 * 2 ≤ 2^1022)) (by
      rw [abs_of_pos (by positivity)]
      have : (2:ℝ)^0 ≤ 2^1022 := pow_le_pow_right₀ (by norm_num) (by norm_num)
      refine le_trans ?_ this
      norm_num; linarith)
    refine ⟨by rw [isFin_iff_val, hv]; exact r.2.2, ?_⟩
    rw [hv]
    have := r.2.1
    rw [abs_of_pos (a := p.val / 2) (by positivity)] at this
    linarith
  have hln := (ab_ln L (P := 646) (by positivity) half (by norm_num) (by rw [abs_le]; norm_num at hlow; constructor <;> linarith)).mono (d := 2 / 10^13) (by
    have : (1:ℝ) / 2^1074 ≤ 1 / 10^20 := by
      refine one_div_le_one_div_of_le (by positivity) ?_
      exact_mod_cast (by decide +kernel : 10^20 ≤ 2^1074)
    norm_num at this ⊢
    linarith)
  have hm2 : Ab (-2.0 : F64) (-2.0) 0 := ab_int (by decide +kernel) (by rw [val_neg, two_val]; norm_num)
  have hy := (ab_mul hm2 hln (P := 2) (Q := 646) (M := 1300) (by norm_num) (by rw [abs_le]; norm_num at hlow; constructor <;> linarith) (by norm_num)
    (cap_of (by norm_num) (by refine le_trans (b := (10:ℝ)^4) (by norm_num) (pow_le_pow_right₀ (by norm_num) (by norm_num))))).mono (d := 1 / 10^12) (by norm_num)
  have eY : Real.log (p.val / 2.0) = Real.log (p.val / 2) := by norm_num
  rw [eY]
  have hY1 : 1.38 ≤ -2.0 * Real.log (p.val / 2) := by norm_num at *; linarith
  have hY2 : -2.0 * Real.log (p.val / 2) ≤ 1292 := by norm_num at *; linarith
  generalize -2.0 * Real.log (p.val / 2) = Y at *
  have cap : ∀ {M : ℝ}, 1 ≤ M → M ≤ 10000 → Cap M := fun a b => cap_of (le_trans (by norm_num) a)
    (b.trans (le_trans (b := (10:ℝ)^4) (by norm_num) (pow_le_pow_right₀ (by norm_num) (by norm_num))))
  have hT2 : Real.sqrt Y ≤ 36 := Real.sqrt_le_iff.2 ⟨by norm_num, by norm_num; linarith⟩
  have hT0 := Real.sqrt_nonneg Y
  have ht := (ab_sqrt hy (M := 37) (by norm_num at *; linarith) (by norm_num) (by norm_num; linarith) (cap (by norm_num) (by norm_num))).mono (d := 2 / 10^12) (by norm_num)
  unfold startF
  have er : (Arith.sqrt (-2.0 * Libm.ln (p / 2.0)) : F64) = F64.sqrt (-2.0 * Libm.ln (p / 2.0)) := rfl
  rw [er]
  generalize F64.sqrt (-2.0 * Libm.ln (p / 2.0)) = t at *
  generalize Real.sqrt Y = T at *
  clear hy hln half hlow hl
  have one : Ab (1.0 : F64) 1.0 0 := ab_int (by decide +kernel) (by rw [one_val]; norm_num)
  have lit : ∀ (m k : ℕ) {A : ℝ}, A = (m:ℝ) / 10^k → A ≤ 3 → Ab (OfScientific.ofScientific m true k : F64) A (1 / 10^15) := by
    intro m k A e h
    rw [e] at h ⊢
    exact (ab_lit m k h (cap (by norm_num) (by norm_num))).mono (by norm_num)
  have l1 := lit (nat_lit 230753) (nat_lit 5) (A := 2.30753) (by norm_num) (by norm_num)
  have l2 := lit (nat_lit 27061) (nat_lit 5) (A := 0.27061) (by norm_num) (by norm_num)
  have l3 := lit (nat_lit 99229) (nat_lit 5) (A := 0.99229) (by norm_num) (by norm_num)
  have l4 := lit (nat_lit 4481) (nat_lit 5) (A := 0.04481) (by norm_num) (by norm_num)
  have aT : |T| ≤ 36 := by rw [abs_of_nonneg hT0]; exact hT2
  have n1 := (ab_mul ht l2 (P := 36) (Q := 1) (M := 40) aT (by norm_num) (by norm_num) (cap (by norm_num) (by norm_num))).mono (d := 3 / 10^12) (by norm_num)
  have n2 := (ab_add l1 n1 (M := 40) (by rw [abs_of_nonneg (by positivity)]; norm_num; linarith) (cap (by norm_num) (by norm_num))).mono (d := 4 / 10^12) (by norm_num)
  have d1 := (ab_mul ht l4 (P := 36) (Q := 0.05) (M := 40) aT (by norm_num) (by norm_num) (cap (by norm_num) (by norm_num))).mono (d := 1 / 10^12) (by norm_num)
  have d2 := (ab_add l3 d1 (M := 40) (by rw [abs_of_nonneg (by positivity)]; norm_num; linarith) (cap (by norm_num) (by norm_num))).mono (d := 2 / 10^12) (by norm_num)
  have d3 := (ab_mul ht d2 (P := 36) (Q := 4) (M := 200) aT (by rw [abs_of_nonneg (by positivity)]; norm_num; linarith) (by norm_num) (cap (by norm_num) (by norm_num))).mono (d := 1 / 10^10) (by norm_num)
  have hB : 0 ≤ T * (0.99229 + T * 0.04481) := by positivity
  have hB2 : T * (0.99229 + T * 0.04481) ≤ 144 := by norm_num; nlinarith
  have d4 := (ab_add one d3 (M := 200) (by rw [abs_of_nonneg (by positivity)]; norm_num at *; linarith) (cap (by norm_num) (by norm_num))).mono (d := 2 / 10^10) (by norm_num)
  have hN0 : 0 ≤ 2.30753 + T * 0.27061 := by positivity
  have hN : 2.30753 + T * 0.27061 ≤ 13 := by norm_num; linarith
  generalize 2.30753 + T * 0.27061 = N at *
  have hB1 : 1 ≤ 1.0 + T * (0.99229 + T * 0.04481) := by norm_num at *; linarith
  generalize 1.0 + T * (0.99229 + T * 0.04481) = B at *
  have hB0 : 0 < B := by linarith
  have q0 : 0 ≤ N / B := by positivity
  have q1 : N / B ≤ 13 := by rw [div_le_iff₀ hB0]; nlinarith
  have q2 : (2:ℝ) / 10^10 / B ≤ 2 / 10^10 := div_le_self (by norm_num) hB1
  have q3 : |N| * (2 / 10^10 / B) ≤ 13 * (2 / 10^10) := mul_le_mul (by rw [abs_of_nonneg hN0]; exact hN) q2 (by positivity) (by norm_num)
  have q4 : 2 * (4 / 10^12 + |N| * (2 / 10^10 / B)) / B ≤ 1 / 10^8 * 0.9 := by
    refine (div_le_self (by positivity) hB1).trans ?_
    norm_num at q3 ⊢
    linarith
  have q5 := (ab_div n2 d4 hB0 (by norm_num; linarith) (M := 20) (by rw [abs_of_nonneg hN0] at *; norm_num at q4 ⊢; linarith) (cap (by norm_num) (by norm_num))).mono (d := 1 / 10^8) (by
    norm_num at q4 ⊢
    linarith)
  have r1 := (ab_sub q5 ht (M := 60) (by
    have : |N / B - T| ≤ 36 := by rw [abs_le]; constructor <;> linarith
    norm_num
    linarith) (cap (by norm_num) (by norm_num))).mono (d := 1.2 / 10^8) (by norm_num)
  have f1 := ab_neg frac1_ab
  have r2 := ab_mul f1 r1 (P := 1) (Q := 36) (M := 60) (by
    rw [abs_neg, abs_of_nonneg (by positivity), div_le_one (by positivity)]
    exact Real.one_le_sqrt.2 (by norm_num)) (by rw [abs_le]; constructor <;> linarith) (by norm_num) (cap (by norm_num) (by norm_num))
  have r3 := r2.mono (d := 1 / 10^7) (by norm_num)
  exact r3

/-- the two steps -/
theorem core_F (L : LibmUlp) {p : F64} {xs : ℝ} (fp : p.isFin = true) (h0 : 1 / 10^280 ≤ p.val) (h1 : p.val ≤ 1) (hx : erfcR xs = p.val) :
    ∃ v, inverfcCore p = .ok v ∧ v.isFin = true ∧ |v.val - xs| ≤ 2 / 10^11 := by
  have hp : 0 < p.val := lt_of_lt_of_le (by positivity) h0
  have h300 : (1:ℝ) / 10^300 ≤ p.val := le_trans (one_div_le_one_div_of_le (by positivity) (pow_le_pow_right₀ (by norm_num) (by norm_num))) h0
  obtain ⟨hlow, hst⟩ := start h300 h1 hx
  have hs25 : Real.sqrt (-Real.log (p.val / 2)) ≤ 25.45 := Real.sqrt_le_iff.2 ⟨by norm_num, by have := s_high' h0; norm_num; linarith⟩
  have hrho : 0 ≤ rho (Real.sqrt (-Real.log (p.val / 2))) := by
    have := Real.sqrt_nonneg (-Real.log (p.val / 2))
    unfold rho
    positivity
  have hxs : 0 ≤ xs := by
    by_contra hc
    have := erfcR_anti (not_le.1 hc)
    rw [erfcR_zero, hx] at this
    linarith
  have hF := start_F L fp h0 h1
  have hup : Real.sqrt (-Real.log (p.val / 2)) - rho (Real.sqrt (-Real.log (p.val / 2))) ≤ 25.45 := by linarith
  generalize Real.sqrt (-Real.log (p.val / 2)) - rho (Real.sqrt (-Real.log (p.val / 2))) = x0 at *
  have kF := abs_le.1 hF.err
  have fin0 := hF.fin
  have first : ∃ x1, inverfcStep p (startF p) = .ok x1 ∧ x1.isFin = true ∧ |x1.val - xs| ≤ 2 / 10^5 := by
    rcases hst with ⟨a, b⟩ | ⟨a, b⟩
    · have ka := abs_le.1 a
      have kb := abs_le.1 b
      obtain ⟨x1, e, f, k⟩ := step_F L (p := p) (x := startF p) (xs := xs) (X := 8.01) (h := 0.003) fp fin0 hx
        (by rw [abs_le]; norm_num at *; constructor <;> linarith [ka.1, ka.2, kF.1, kF.2])
        (by rw [abs_le]; norm_num at *; constructor <;> linarith [kb.1, kb.2, kF.1, kF.2])
        (by norm_num) (by norm_num) (by norm_num) (by norm_num at *; linarith [kF.1])
      exact ⟨x1, e, f, k.trans (by norm_num)⟩
    · have kb := abs_le.1 b
      obtain ⟨x1, e, f, k⟩ := step_F L (p := p) (x := startF p) (xs := xs) (X := 25.46) (h := 0.0023463) fp fin0 hx
        (by rw [abs_le]; norm_num at *; constructor <;> linarith [kF.1, kF.2])
        (by rw [abs_le]; norm_num at *; constructor <;> linarith [kb.1, kb.2, kF.1, kF.2])
        (by norm_num) (by norm_num) (by norm_num) (by norm_num at *; linarith [kF.1])
      exact ⟨x1, e, f, k.trans (by norm_num)⟩
  have hx26 : xs ≤ 25.47 := by
    rcases hst with ⟨a, b⟩ | ⟨a, b⟩ <;> · have := abs_le.1 a; have := abs_le.1 b; norm_num at *; linarith
  obtain ⟨x1, e1, f1, k1⟩ := first
  have k1' := abs_le.1 k1
  obtain ⟨x2, e2, f2, k2⟩ := step_F L (p := p) (x := x1) (xs := xs) (X := 25.5) (h := 2 / 10^5) fp f1 hx (by rw [abs_le]; norm_num at *; constructor <;> linarith)
    (by rw [abs_sub_comm]; exact k1) (by norm_num) (by norm_num) (by norm_num) (by norm_num at *; linarith)
  refine ⟨x2, ?_, f2, k2.trans (by norm_num)⟩
  unfold inverfcCore
  show (inverfcStep p (startF p) >>= _) = _
  rw [e1]
  exact e2

omit [Libm F64] in
/-- doubles in `[2^k, 2^(k+1))` are multiples of `2^(k-52)` -/
theorem grid {p : F64} {k : ℤ} (hk : -1000 ≤ k) (h1 : 2^k ≤ p.val) (h2 : p.val < 2^(k+1)) : ∃ m : ℤ, 2^52 ≤ m ∧ m < 2^53 ∧ p.val = (m:ℝ) * 2^(k-52) := by
  obtain ⟨m, e, h, hm, he, hn⟩ := val_decomp p
  have hz : ∀ z : ℤ, (0:ℝ) < 2^z := fun z => by positivity
  rw [abs_of_nonneg ((hz k).le.trans h1)] at h
  have hm' : (m:ℝ) < 2^53 := by exact_mod_cast hm
  have a : k - 52 ≤ e := by
    by_contra hc
    have : (2:ℝ)^e ≤ 2^(k-53) := zpow_le_zpow_right₀ (by norm_num) (by omega)
    have : (m:ℝ) * 2^e < 2^53 * 2^(k-53) := mul_lt_mul hm' this (hz e) (by positivity)
    have e1 : (2:ℝ)^53 * 2^(k-53) = 2^k := by rw [← zpow_natCast, ← zpow_add₀ (by norm_num)]; congr 1; push_cast; ring
    linarith
  have hmn : (2:ℝ)^52 ≤ m := by
    rcases hn with h | h
    · omega
    · exact_mod_cast h
  have b : e ≤ k - 52 := by
    by_contra hc
    have : (2:ℝ)^(k-51) ≤ 2^e := zpow_le_zpow_right₀ (by norm_num) (by omega)
    have : (2:ℝ)^52 * 2^(k-51) ≤ m * 2^e := mul_le_mul hmn this (hz _).le (by positivity)
    have e1 : (2:ℝ)^52 * 2^(k-51) = 2^(k+1) := by rw [← zpow_natCast, ← zpow_add₀ (by norm_num)]; congr 1; push_cast; ring
    linarith
  have : e = k - 52 := by omega
  subst this
  exact ⟨m, by exact_mod_cast hmn, by exact_mod_cast hm, by rw [h]; push_cast; rfl⟩

omit [Libm F64] in
/-- `2 - p` is exact for `1 ≤ p < 2` -/
theorem two_sub_exact {p : F64} (h1 : 1 ≤ p.val) (h2 : p.val < 2) : RN (2 - p.val) = 2 - p.val ∧ 1 / 2^52 ≤ 2 - p.val := by
  obtain ⟨m, a, b, e⟩ := grid (p := p) (k := 0) (by norm_num) (by simpa using h1) (by simpa using h2)
  have e2 : 2 - p.val = ((2^53 - m : ℤ) : ℝ) * 2^(-52:ℤ) := by rw [e]; push_cast; norm_num; ring
  constructor
  · rw [e2]
    refine RN_dyadic _ _ ?_ (by norm_num) ?_
    · rw [abs_of_nonneg] <;> omega
    · rw [← e2, abs_of_nonneg (by linarith)]
      have := HUGE_ge
      have : (2:ℝ) ≤ 10^200 := by norm_num
      linarith
  · rw [e2]
    have : (1:ℝ) ≤ ((2^53 - m : ℤ) : ℝ) := by exact_mod_cast (by omega : 1 ≤ 2^53 - m)
    norm_num at this ⊢
    linarith

omit [Libm F64] in
/-- `1 - p` is exact for `1/2 ≤ p < 1` -/
theorem one_sub_exact {p : F64} (h1 : 1/2 ≤ p.val) (h2 : p.val < 1) : RN (1 - p.val) = 1 - p.val ∧ 1 / 2^53 ≤ 1 - p.val := by
  obtain ⟨m, a, b, e⟩ := grid (p := p) (k := -1) (by norm_num) (by norm_num at *; exact h1) (by simpa using h2)
  have e2 : 1 - p.val = ((2^53 - m : ℤ) : ℝ) * 2^(-53:ℤ) := by rw [e]; push_cast; norm_num; ring
  constructor
  · rw [e2]
    refine RN_dyadic _ _ ?_ (by norm_num) ?_
    · rw [abs_of_nonneg] <;> omega
    · rw [← e2, abs_of_nonneg (by linarith)]
      have := HUGE_ge
      have : (2:ℝ) ≤ 10^200 := by norm_num
      linarith
  · rw [e2]
    have : (1:ℝ) ≤ ((2^53 - m : ℤ) : ℝ) := by exact_mod_cast (by omega : 1 ≤ 2^53 - m)
    norm_num at this ⊢
    linarith

omit [Libm F64] in
/-- the code's subtraction in `inverf` -/
theorem one_sub_round {p : F64} (h0 : -1 + 1 / 2^52 ≤ p.val) (h1 : p.val < 1) :
    1 / 2^53 ≤ RN (1 - p.val) ∧ RN (1 - p.val) < 2 ∧ |RN (1 - p.val) - (1 - p.val)| ≤ 1 / 2^52 := by
  have hH := HUGE_ge
  have h10 : (10:ℝ) ≤ 10^200 := by norm_num
  have up : RN (1 - p.val) ≤ 2 - 1 / 2^52 := by
    have e : (2:ℝ) - 1 / 2^52 = ((2^53 - 1 : ℤ) : ℝ) * 2^(-52:ℤ) := by norm_num
    have r : RN (2 - 1 / 2^52) = 2 - 1 / 2^52 := by
      rw [e]
      refine RN_dyadic _ _ (by norm_num) (by norm_num) ?_
      rw [← e, abs_of_nonneg (by norm_num)]
      norm_num at *; linarith
    rw [← r]
    exact RN_mono (by linarith)
  have err : |RN (1 - p.val) - (1 - p.val)| ≤ 1 / 2^52 := by
    have a : |1 - p.val| ≤ 2 := by rw [abs_of_nonneg (by linarith)]; norm_num at *; linarith
    rcases le_or_gt (1 - p.val) (1/2) with h | h
    · rw [(one_sub_exact (by linarith) h1).1]; norm_num
    · have := RN_err_rel (x := 1 - p.val) (by linarith) (by
        rw [abs_of_pos (by linarith)]
        refine le_trans ?_ h.le
        have : (2:ℝ)^1 ≤ 2^1022 := pow_le_pow_right₀ (by norm_num) (by norm_num)
        exact one_div_le_one_div_of_le two_pos (by simpa using this))
      norm_num at *
      linarith
  refine ⟨?_, by norm_num at *; linarith, err⟩
  rcases le_or_gt (1/2) p.val with h | h
  · rw [(one_sub_exact h h1).1]
    exact (one_sub_exact h h1).2
  · have := abs_le.1 err
    norm_num at *
    linarith [this.1]

omit [Libm F64] in
theorem slope_up (a b : ℝ) : |erfcR a - erfcR b| ≤ kap * |a - b| := by
  have := Convex.norm_image_sub_le_of_norm_hasDerivWithin_le (f := erfcR) (s := Set.univ) (C := kap) (x := b) (y := a)
    (fun x _ => (erfcR_deriv x).hasDerivWithinAt) (fun x _ => by
      rw [Real.norm_eq_abs, abs_neg, abs_of_pos (mul_pos kap_pos (Real.exp_pos _))]
      exact mul_le_of_le_one_right kap_pos.le (Real.exp_le_one_iff.2 (by nlinarith))) convex_univ (Set.mem_univ _) (Set.mem_univ _)
  simpa [Real.norm_eq_abs] using this

omit [Libm F64] in
theorem slope_low {a b c : ℝ} (hab : a ≤ b) (h1 : -c ≤ a) (h2 : b ≤ c) : (b - a) * (kap * Real.exp (-c^2)) ≤ erfcR a - erfcR b := by
  have hd : ∀ x, HasDerivAt (fun x => -erfcR x) (kap * Real.exp (-x^2)) x := fun x => by have h := (erfcR_deriv x).neg; rw [neg_neg] at h; exact h
  have := (convex_Icc a b).mul_sub_le_image_sub_of_le_deriv (f := fun x => -erfcR x) (fun x _ => (hd x).continuousAt.continuousWithinAt)
    (fun x _ => (hd x).differentiableAt.differentiableWithinAt) (C := kap * Real.exp (-c^2)) (fun x hx => by
      rw [(hd x).deriv]
      rw [interior_Icc] at hx
      refine mul_le_mul_of_nonneg_left (Real.exp_le_exp.2 ?_) kap_pos.le
      nlinarith [hx.1, hx.2]) a (Set.left_mem_Icc.2 hab) b (Set.right_mem_Icc.2 hab) hab
  linarith

omit [Libm F64] in
/-- points with nearly the same value of `erfc` are close -/
theorem inv_close {x y ε d : ℝ} (h0 : 0 ≤ x) (hd : 0 ≤ d) (hxy : |erfcR y - erfcR x| ≤ ε) (h : ε < d * (kap * Real.exp (-(x + d)^2))) : |y - x| ≤ d := by
  have k := abs_le.1 hxy
  rw [abs_le]
  by_contra hc
  rcases not_and_or.1 hc with hlt | hlt
  · have hlt := not_le.1 hlt
    have s := slope_low (a := x - d) (b := x) (c := x + d) (by linarith) (by linarith) (by linarith)
    have m := erfcR_anti (show y < x - d by linarith)
    rw [show x - (x - d) = d by ring] at s
    linarith
  · have hlt := not_le.1 hlt
    have s := slope_low (a := x) (b := x + d) (c := x + d) (by linarith) (by linarith) (by linarith)
    have m := erfcR_anti (show x + d < y by linarith)
    rw [show x + d - x = d by ring] at s
    linarith

omit [Libm F64] in
/-- the central part -/
theorem inv_central {x y : ℝ} (h0 : 0 ≤ x) (hxy : |erfcR y - erfcR x| ≤ 1 / 2^52) (hx : 1/2 ≤ erfcR x) : |y - x| ≤ 1 / 10^14 := by
  refine inv_close h0 (by norm_num) hxy ?_
  have x1 : x ≤ 1 := by
    by_contra hc
    have hc := not_le.1 hc
    have h1 := erfcR_anti hc
    have h2 := erfcR_le (x := 1) one_pos
    have h3 := kap_bounds.2
    have h4 : Real.exp (-1^2) ≤ 1/2 := by
      rw [one_pow, Real.exp_neg, one_div]
      exact inv_anti₀ two_pos (by have := Real.exp_one_gt_d9; linarith)
    have h5 := mul_le_mul h3 h4 (Real.exp_pos _).le (by norm_num)
    norm_num at *
    linarith
  have h1 : (x + 1 / 10^14)^2 ≤ 2 := by norm_num; nlinarith
  have h2 : Real.exp (-2) ≤ Real.exp (-(x + 1 / 10^14)^2) := Real.exp_le_exp.2 (by linarith)
  have h3 : 1/9 ≤ Real.exp (-2) := by
    rw [Real.exp_neg, one_div]
    refine inv_anti₀ (Real.exp_pos _) ?_
    have : Real.exp 2 = (Real.exp 1)^2 := by rw [← Real.exp_nat_mul]; norm_num
    rw [this]
    have h4 := Real.exp_one_lt_d9
    have h5 := Real.exp_pos (1:ℝ)
    generalize Real.exp 1 = w at *
    norm_num at h4
    nlinarith
  have hk := kap_bounds.1
  have := mul_le_mul hk (h3.trans h2) (by norm_num) kap_pos.le
  generalize kap * Real.exp (-(x + 1 / 10^14)^2) = w at *
  norm_num at *
  linarith

omit [Libm F64] in
/-- a computed value of `erfc` leads back to a nearby point -/
theorem back_close {x v : ℝ} (h0 : 0 ≤ x) (h1 : x ≤ 25) (hv : |v - erfcR x| ≤ 7 / 10^13 * (kap * Real.exp (-x^2))) :
    1 / 10^280 ≤ v ∧ v < 2 ∧ ∀ y, erfcR y = v → |y - x| ≤ 4 / 10^12 := by
  have k := abs_le.1 hv
  have hk := kap_bounds
  have hkp := kap_pos
  have near : ∀ {d c : ℝ}, 0 ≤ d → 50 * d + d^2 ≤ c → (1 - c) * (kap * Real.exp (-x^2)) ≤ kap * Real.exp (-(x + d)^2) := by
    intro d c hd hc
    have e : Real.exp (-(x + d)^2) = Real.exp (-x^2) * Real.exp (-(2 * x * d + d^2)) := by rw [← Real.exp_add]; congr 1; ring
    have h2 : 1 - c ≤ Real.exp (-(2 * x * d + d^2)) := by
      have := Real.add_one_le_exp (-(2 * x * d + d^2))
      nlinarith
    rw [e]
    have := mul_le_mul_of_nonneg_left h2 (mul_pos hkp (Real.exp_pos (-x^2))).le
    linarith
  have hm : 1 / 10^272 ≤ kap * Real.exp (-x^2) := by
    have h2 : x^2 ≤ 625 := by nlinarith
    have h3 : 1 / 10^272 ≤ Real.exp (-625) := by
      rw [Real.exp_neg, one_div]
      refine inv_anti₀ (Real.exp_pos _) ?_
      calc Real.exp 625 = (Real.exp 1)^625 := by rw [← Real.exp_nat_mul]; norm_num
        _ ≤ 2.7183^625 := pow_le_pow_left₀ (Real.exp_pos _).le (by have := Real.exp_one_lt_d9; norm_num at this ⊢; linarith) _
        _ = (2.7183^125)^5 := by rw [← pow_mul]
        _ ≤ (2 * 10^54)^5 := pow_le_pow_left₀ (by positivity) (by norm_num) _
        _ = 2^5 * 10^270 := by rw [mul_pow, ← pow_mul]
        _ ≤ 10^2 * 10^270 := mul_le_mul_of_nonneg_right (by norm_num) (by positivity)
        _ = 10^272 := by rw [← pow_add]
    have h4 : Real.exp (-625) ≤ Real.exp (-x^2) := Real.exp_le_exp.2 (by linarith)
    have h5 := Real.exp_pos (-x^2)
    refine h3.trans (h4.trans ?_)
    have h6 : (1:ℝ) ≤ kap := by have := hk.1; norm_num at this; linarith
    nlinarith
  have hm2 : kap * Real.exp (-x^2) ≤ 1.13 := by
    have h1 : Real.exp (-x^2) ≤ 1 := Real.exp_le_one_iff.2 (by nlinarith)
    have := mul_le_mul hk.2 h1 (Real.exp_pos _).le (by norm_num)
    norm_num at this ⊢
    linarith
  have hone := erfcR_le_one h0
  have hlow : 0.004 * (kap * Real.exp (-x^2)) ≤ erfcR x := by
    have s := slope_low (a := x) (b := x + 0.01) (c := x + 0.01) (by norm_num) (by norm_num; linarith) le_rfl
    have n := near (d := 0.01) (c := 0.51) (by norm_num) (by norm_num)
    have p := erfcR_pos (x + 0.01)
    rw [show x + 0.01 - x = 0.01 by ring] at s
    norm_num at *
    linarith
  have n := near (d := 4 / 10^12) (c := 1 / 10^9) (by norm_num) (by norm_num)
  refine ⟨?_, ?_, fun y hy => ?_⟩
  · have e : (1:ℝ) / 10^280 = 1 / 10^8 * (1 / 10^272) := by rw [div_mul_div_comm, ← pow_add, one_mul]
    rw [e]
    have := mul_le_mul_of_nonneg_left hm (show (0:ℝ) ≤ 1 / 10^8 by norm_num)
    refine this.trans ?_
    have := mul_pos hkp (Real.exp_pos (-x^2))
    generalize kap * Real.exp (-x^2) = m at *
    norm_num at k hlow ⊢
    linarith [k.1]
  · generalize kap * Real.exp (-x^2) = m at *
    norm_num at k hm2
    linarith [k.2]
  · have := mul_pos hkp (Real.exp_pos (-x^2))
    refine inv_close (ε := 7 / 10^13 * (kap * Real.exp (-x^2))) h0 (by norm_num) (by rw [hy]; exact hv) ?_
    generalize kap * Real.exp (-x^2) = m at *
    generalize kap * Real.exp (-(x + 4 / 10^12)^2) = m' at *
    norm_num at n ⊢
    linarith

end InvErfc
end Verif
