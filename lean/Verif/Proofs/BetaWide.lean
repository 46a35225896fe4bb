import Verif.Proofs.BetaF

/-! The complete beta function in binary64 for arguments from `10^-11` to `10^8`. -/

namespace Verif
namespace Bcf
open F64 Gcf

/-- `(s+7) log (s+7)` -/
noncomputable def TT (s : ℝ) : ℝ := (s + 7) * Real.log (s + 7)

theorem TT_ge {s : ℝ} (hs : 0 < s) : 13 ≤ TT s := by
  unfold TT
  have l : 1.9 ≤ Real.log (s + 7) := by
    have h := Real.log_le_log (by norm_num) (show (7:ℝ) ≤ s + 7 by linarith)
    have e : (1.9:ℝ) ≤ Real.log 7 := by
      rw [Real.le_log_iff_exp_le (by norm_num)]
      have : Real.exp 1.9 = Real.exp 1 ^ 2 * Real.exp (-0.1) := by rw [← Real.exp_nat_mul, ← Real.exp_add]; norm_num
      rw [this]
      have a := Real.exp_one_lt_d9
      have b : Real.exp (-0.1) ≤ 0.91 := by
        have := Real.add_one_le_exp (0.1:ℝ)
        rw [Real.exp_neg]
        calc (Real.exp 0.1)⁻¹ ≤ (0.1 + 1)⁻¹ := inv_anti₀ (by norm_num) this
          _ ≤ _ := by norm_num
      have c : Real.exp 1 ^ 2 ≤ 2.7182818286 ^ 2 := pow_le_pow_left₀ (Real.exp_pos _).le a.le 2
      have := mul_le_mul c b (Real.exp_pos _).le (by norm_num)
      norm_num at this ⊢
      linarith
    linarith
  nlinarith

theorem TT_le {s : ℝ} (hs : 0 < s) (h : s ≤ 2 * 10^8) : TT s ≤ 5 * 10^9 := by
  unfold TT
  have l : Real.log (s + 7) ≤ 23 := by
    rw [Real.log_le_iff_le_exp (by linarith)]
    have e1 : Real.exp 23 = Real.exp 1 ^ 23 := by rw [← Real.exp_nat_mul]; norm_num
    have := pow_le_pow_left₀ (by norm_num) (show (2.7:ℝ) ≤ Real.exp 1 by linarith [Real.exp_one_gt_d9]) 23
    rw [e1]
    norm_num at *
    linarith
  have := mul_le_mul (show s + 7 ≤ 2.1 * 10^8 by norm_num at *; linarith) l (Real.log_nonneg (by linarith)) (by norm_num)
  norm_num at *
  linarith

theorem TT_mono {s t : ℝ} (hs : 0 < s) (h : s ≤ t) : TT s ≤ TT t := by
  unfold TT
  exact mul_le_mul (by linarith) (Real.log_le_log (by linarith) (by linarith)) (Real.log_nonneg (by linarith)) (by linarith)

theorem neg_log_le {s : ℝ} (h1 : 1 / (2 * 10^12) ≤ s) : -Real.log s ≤ 30 := by
  have s0 : 0 < s := lt_of_lt_of_le (by norm_num) h1
  have := Real.log_le_log (by norm_num) h1
  rw [one_div, Real.log_inv, Real.log_mul (by norm_num) (by norm_num), Real.log_pow] at this
  have l1 := log_ten
  have l2 := Real.log_two_lt_d9
  push_cast at this
  linarith

theorem logGamma_abs {a : ℝ} (ha : 1 / 10^12 ≤ a) : |Real.log (Real.Gamma a)| ≤ TT a + 30 := by
  have a0 : 0 < a := lt_of_lt_of_le (by norm_num) ha
  have hg := Real.Gamma_pos_of_pos a0
  have hg2 := Real.Gamma_pos_of_pos (show 0 < a + 2 by linarith)
  have e : Real.Gamma (a + 2) = (a + 1) * a * Real.Gamma a := by
    rw [show a + 2 = a + 1 + 1 by ring, Real.Gamma_add_one (by linarith), Real.Gamma_add_one a0.ne', mul_assoc]
  have nl := neg_log_le (s := a) (le_trans (by norm_num) ha)
  have L7 : 0 ≤ Real.log (a + 7) := Real.log_nonneg (by linarith)
  have la : Real.log a ≤ Real.log (a + 7) := Real.log_le_log a0 (by linarith)
  have la1 : Real.log (a + 1) ≤ Real.log (a + 7) := Real.log_le_log (by linarith) (by linarith)
  have la0 : 0 ≤ Real.log (a + 1) := Real.log_nonneg (by linarith)
  have el : Real.log (Real.Gamma (a + 2)) = Real.log (a + 1) + Real.log a + Real.log (Real.Gamma a) := by
    rw [e, Real.log_mul (by positivity) hg.ne', Real.log_mul (by linarith) a0.ne']
  have lo : 1 ≤ Real.Gamma (a + 2) := by
    have := Real.Gamma_strictMonoOn_Ici.monotoneOn (show (2:ℝ) ∈ Set.Ici 2 by simp) (show a + 2 ∈ Set.Ici 2 from by simp; linarith) (by linarith)
    rwa [Real.Gamma_two] at this
  have up : Real.log (Real.Gamma (a + 2)) ≤ (a + 3) * Real.log (a + 7) := by
    obtain ⟨N, hN⟩ : ∃ N : ℕ, ⌈a⌉₊ = N := ⟨_, rfl⟩
    have n1 : a ≤ N := hN ▸ Nat.le_ceil a
    have n2 : (N:ℝ) < a + 1 := hN ▸ Nat.ceil_lt_add_one a0.le
    have g : Real.Gamma (a + 2) ≤ Real.Gamma (N + 1 + 1) :=
      Real.Gamma_strictMonoOn_Ici.monotoneOn (show a + 2 ∈ Set.Ici 2 from by simp; linarith)
        (show (N:ℝ) + 1 + 1 ∈ Set.Ici 2 from by simp only [Set.mem_Ici]; linarith) (by linarith)
    have f : Real.Gamma ((N:ℝ) + 1 + 1) = ((N + 1).factorial : ℕ) := by
      have := Real.Gamma_nat_eq_factorial (N + 1)
      push_cast at this
      exact this
    have f2 : (((N + 1).factorial : ℕ) : ℝ) ≤ ((N:ℝ) + 1) ^ (N + 1) := by
      have : (((N + 1).factorial : ℕ) : ℝ) ≤ (((N + 1) ^ (N + 1) : ℕ) : ℝ) := Nat.cast_le.2 (Nat.factorial_le_pow (N + 1))
      push_cast at this ⊢
      exact this
    have h := Real.log_le_log hg2 (g.trans (f.le.trans f2))
    rw [Real.log_pow] at h
    refine h.trans ?_
    push_cast
    refine mul_le_mul (by linarith) (Real.log_le_log (by linarith) (by linarith)) (Real.log_nonneg (by linarith)) (by linarith)
  have l2 := Real.log_nonneg lo
  have t : TT a = (a + 3) * Real.log (a + 7) + 4 * Real.log (a + 7) := by unfold TT; ring
  rw [t, abs_le]
  have p3 : 0 ≤ (a + 3) * Real.log (a + 7) := by positivity
  constructor <;> linarith

theorem logGamma_round2 {s t : ℝ} (h1 : 1 / 10^12 ≤ s) (h2 : s ≤ 2 * 10^8) (h : |t - s| ≤ 1.0001 / 2^53 * s) :
    |Real.log (Real.Gamma t) - Real.log (Real.Gamma s)| ≤ 1.2 / 10^16 * (TT s + 62) := by
  have s0 : 0 < s := lt_of_lt_of_le (by norm_num) h1
  have T13 := TT_ge s0
  obtain ⟨k1, k2⟩ := abs_le.1 h
  have gen : ∀ p q : ℝ, s / 2 ≤ p → p ≤ s → p ≤ q → q - p ≤ 1.0001 / 2^53 * s →
      |Real.log (Real.Gamma q) - Real.log (Real.Gamma p)| ≤ 1.2 / 10^16 * (TT s + 62) := by
    intro p q g1 g2 g3 g4
    have p0 : 0 < p := by linarith
    have st := logGamma_step (s := p) (h := q - p) p0 (by linarith) (g4.trans (by norm_num at h2 ⊢; linarith))
    rw [add_sub_cancel] at st
    refine st.trans ?_
    have lb : s * |Real.log p| ≤ TT s + 60 := by
      rcases le_total 0 (Real.log p) with l | l
      · rw [abs_of_nonneg l]
        have l2 := Real.log_le_log p0 (show p ≤ s + 7 by linarith)
        have := mul_le_mul (show s ≤ s + 7 by linarith) l2 l (by linarith)
        unfold TT; linarith
      · rw [abs_of_nonpos l]
        have n := neg_log_le (s := p) (by rw [show (1:ℝ) / (2 * 10^12) = 1 / 10^12 / 2 by norm_num]; linarith)
        have p1 : p ≤ 1 := by
          by_contra hc
          have := Real.log_pos (not_le.1 hc)
          linarith
        have := mul_le_mul (show s ≤ 2 by linarith) n (by linarith) (by norm_num)
        linarith
    have lp : s * (1 / p) ≤ 2 := by
      rw [mul_one_div, div_le_iff₀ p0]; linarith
    have pos : 0 ≤ |Real.log p| + 1 / p := by positivity
    calc (q - p) * (|Real.log p| + 1 / p) ≤ 1.0001 / 2^53 * s * (|Real.log p| + 1 / p) := mul_le_mul_of_nonneg_right g4 pos
      _ = 1.0001 / 2^53 * (s * |Real.log p| + s * (1 / p)) := by ring
      _ ≤ 1.0001 / 2^53 * (TT s + 62) := mul_le_mul_of_nonneg_left (by linarith) (by norm_num)
      _ ≤ _ := mul_le_mul_of_nonneg_right (by norm_num) (by linarith)
  have hs2 : 1.0001 / 2^53 * s ≤ s / 2 := by norm_num; linarith
  rcases le_total s t with q | q
  · exact gen s t (by linarith) le_rfl q (by linarith)
  · rw [abs_sub_comm]
    exact gen t s (by linarith) q q (by linarith)

theorem gg2 [Libm F64] (L : LibmUlp) {z : F64} {s : ℝ} (h1 : 1 / 10^12 ≤ z.val) (hs : z.val ≤ s + 1) (s0 : 0 < s) (h2 : s ≤ 2 * 10^8) :
    Ab (lnGamma z) (Real.log (Real.Gamma z.val)) (4 / 10^9 + 5 / 10^13 / z.val + 5 / 10^14 * TT s) := by
  have z0 : 0 < z.val := lt_of_lt_of_le (by norm_num) h1
  obtain ⟨g1, g2⟩ := ln_gamma_accurate_partial L h1 (ten_le (by norm_num at h2 ⊢; linarith) 290)
  refine ⟨g1, g2.trans ?_⟩
  have l1 := Real.log_le_log (by linarith) (show z.val + 6 ≤ s + 7 by linarith)
  have l3 := mul_le_mul (show z.val + 6 ≤ s + 7 by linarith) l1 (Real.log_nonneg (by linarith)) (by linarith)
  unfold TT
  gcongr

/-- the exponent of the complete beta function -/
theorem lnBeta_ab2 [Libm F64] (L : LibmUlp) {a b : F64} (ha : 1 / 10^11 ≤ a.val) (ha1 : a.val ≤ 10^8) (hb : 1 / 10^11 ≤ b.val) (hb1 : b.val ≤ 10^8) :
    Ab (lnGamma a + lnGamma b - lnGamma (a + b)) (Real.log (eulerBeta a.val b.val))
      (1.21 / 10^8 + 1 / 10^12 * (1 / a.val + 1 / b.val) + 1.6 / 10^13 * TT (a.val + b.val)) := by
  have a0 : 0 < a.val := lt_of_lt_of_le (by norm_num) ha
  have b0 : 0 < b.val := lt_of_lt_of_le (by norm_num) hb
  have fa : a.isFin = true := isFin_of_abs (b := 10^8) (by rw [abs_of_pos a0]; exact ha1) (by norm_num)
  have fb : b.isFin = true := isFin_of_abs (b := 10^8) (by rw [abs_of_pos b0]; exact hb1) (by norm_num)
  have hs := (add_spec fa fb).2
  obtain ⟨r1, s2⟩ := Gcf.rn_rel (y := a.val + b.val) (by
    have : (1:ℝ) / 10^100 ≤ 1 / 10^11 := by norm_num
    linarith) (by norm_num at ha1 hb1 ⊢; linarith)
  rw [← hs] at r1 s2
  set S := a.val + b.val with hS
  have S0 : 0 < S := by positivity
  have S2 : S ≤ 2 * 10^8 := by norm_num at ha1 hb1 ⊢; linarith
  have Sl : 1 / 10^11 ≤ S := by linarith
  have T13 := TT_ge S0
  have TU := TT_le S0 S2
  obtain ⟨k1, k2⟩ := abs_le.1 s2
  have small : 1.0001 / 2^53 * S ≤ S / 2 := by norm_num; linarith
  have small1 : 1.0001 / 2^53 * S ≤ 1 := by norm_num at S2 ⊢; linarith
  have tl : S / 2 ≤ (a + b).val := by linarith
  have t0 : 0 < (a + b).val := by linarith
  have tll : 1 / 10^12 ≤ (a + b).val := by norm_num at Sl ⊢; linarith
  have ga := gg2 L (z := a) (s := S) (le_trans (by norm_num) ha) (by linarith) S0 S2
  have gb := gg2 L (z := b) (s := S) (le_trans (by norm_num) hb) (by linarith) S0 S2
  have gs0 := gg2 L (z := a + b) (s := S) tll (by linarith) S0 S2
  have gr := logGamma_round2 (le_trans (by norm_num) Sl) S2 s2
  have q : 5 / 10^13 / (a + b).val ≤ 2.5 / 10^13 * (1 / a.val + 1 / b.val) := by
    have e1 : 1 / a.val + 1 / b.val = S / (a.val * b.val) := by rw [hS]; field_simp; ring
    rw [e1, mul_div_assoc', div_le_div_iff₀ (by linarith) (by positivity)]
    have e2 : 4 * (a.val * b.val) ≤ S * S := by rw [hS]; nlinarith [sq_nonneg (a.val - b.val)]
    have e3 := mul_le_mul_of_nonneg_left tl S0.le
    nlinarith
  have gs : Ab (lnGamma (a + b)) (Real.log (Real.Gamma S)) (4.001 / 10^9 + 2.5 / 10^13 * (1 / a.val + 1 / b.val) + 5.02 / 10^14 * TT S) := by
    refine ⟨gs0.fin, ?_⟩
    have := abs_add_le ((lnGamma (a + b)).val - Real.log (Real.Gamma (a + b).val)) (Real.log (Real.Gamma (a + b).val) - Real.log (Real.Gamma S))
    rw [sub_add_sub_cancel] at this
    have g := gs0.err
    generalize 1 / a.val + 1 / b.val = D at *
    generalize 5 / 10^13 / (a + b).val = D2 at *
    norm_num at *
    linarith
  have l1 := logGamma_abs (le_trans (by norm_num) ha : 1 / 10^12 ≤ a.val)
  have l2 := logGamma_abs (le_trans (by norm_num) hb : 1 / 10^12 ≤ b.val)
  have l3 := logGamma_abs (le_trans (by norm_num) Sl : 1 / 10^12 ≤ S)
  have T1 := TT_mono a0 (show a.val ≤ S by linarith)
  have T2 := TT_mono b0 (show b.val ≤ S by linarith)
  have hDa : 1 / a.val ≤ 10^11 := by rw [div_le_iff₀ a0]; rw [div_le_iff₀ (by norm_num)] at ha; linarith
  have hDb : 1 / b.val ≤ 10^11 := by rw [div_le_iff₀ b0]; rw [div_le_iff₀ (by norm_num)] at hb; linarith
  have pa : 0 < 1 / a.val := by positivity
  have pb : 0 < 1 / b.val := by positivity
  have g1 := Real.Gamma_pos_of_pos a0
  have g2 := Real.Gamma_pos_of_pos b0
  have g3 := Real.Gamma_pos_of_pos S0
  have ee : Real.log (eulerBeta a.val b.val) = Real.log (Real.Gamma a.val) + Real.log (Real.Gamma b.val) - Real.log (Real.Gamma S) := by
    rw [eulerBeta_gamma a0 b0, Real.log_div (mul_pos g1 g2).ne' g3.ne', Real.log_mul g1.ne' g2.ne']
  rw [ee]
  have ea : 5 / 10^13 / a.val = 5 / 10^13 * (1 / a.val) := by ring
  have eb : 5 / 10^13 / b.val = 5 / 10^13 * (1 / b.val) := by ring
  rw [ea] at ga
  rw [eb] at gb
  generalize TT S = T at *
  generalize TT a.val = Ta at *
  generalize TT b.val = Tb at *
  generalize 1 / a.val = Da at *
  generalize 1 / b.val = Db at *
  generalize Real.log (Real.Gamma S) = SS at *
  generalize Real.log (Real.Gamma a.val) = A at *
  generalize Real.log (Real.Gamma b.val) = B at *
  clear gs0 gr s2 k1 k2 r1 hs
  obtain ⟨p1, p2⟩ := abs_le.1 l1
  obtain ⟨p3, p4⟩ := abs_le.1 l2
  obtain ⟨p5, p6⟩ := abs_le.1 l3
  have q1 : |A + B| ≤ 2 * T + 60 := by rw [abs_le]; constructor <;> linarith
  have q2 : |A + B - SS| ≤ 3 * T + 90 := by rw [abs_le]; constructor <;> linarith
  have cap : ∀ c : ℝ, 1 ≤ c → c ≤ 10^11 → Cap c := fun c h1 h2 => cap_of (le_trans (by norm_num) h1) (h2.trans (pow_le_pow_right₀ (by norm_num) (by norm_num)))
  have m1 := (ab_add ga gb (M := 2 * T + 62) (by norm_num at *; linarith) (cap _ (by linarith) (by norm_num at *; linarith))).mono
    (d := 8.001 / 10^9 + 5 / 10^13 * (Da + Db) + 10.05 / 10^14 * T) (by norm_num at *; linarith)
  have m2 := (ab_sub m1 gs (M := 3 * T + 93) (by norm_num at *; linarith) (cap _ (by linarith) (by norm_num at *; linarith)))
  exact m2.mono (by norm_num at *; linarith)

theorem exp_ab2 [Libm F64] (L : LibmUlp) {y : F64} {Y e : ℝ} (h : Ab y Y e) (he : e ≤ 1 / 2) (hY : Y ≤ 100) :
    (Libm.exp y).isFin = true ∧ |(Libm.exp y).val - Real.exp Y| ≤ (2 * e + 1 / 10^15) * Real.exp Y + 1 / 2^1074 := by
  have e0 := h.nonneg
  obtain ⟨l1, l2⟩ := abs_le.1 h.err
  have y9 : y.val ≤ 709 := by linarith
  have hE := L.exp_ulp y h.fin y9
  have hk := (Real.abs_exp_sub_one_le (x := y.val - Y) (h.err.trans (by linarith))).trans (mul_le_mul_of_nonneg_left h.err (by norm_num : (0:ℝ) ≤ 2))
  have p0 := Real.exp_pos Y
  have eE : Real.exp y.val = Real.exp Y * Real.exp (y.val - Y) := by rw [← Real.exp_add]; congr 1; ring
  have t1 : |Real.exp y.val - Real.exp Y| ≤ 2 * e * Real.exp Y := by
    rw [eE, show Real.exp Y * Real.exp (y.val - Y) - Real.exp Y = (Real.exp (y.val - Y) - 1) * Real.exp Y by ring, abs_mul, abs_of_pos p0]
    exact mul_le_mul_of_nonneg_right hk p0.le
  have t2 := abs_add_le ((Libm.exp y).val - Real.exp y.val) (Real.exp y.val - Real.exp Y)
  rw [sub_add_sub_cancel] at t2
  have t3 : Real.exp y.val ≤ 2 * Real.exp Y := by
    have := (abs_le.1 t1).2
    have : 2 * e * Real.exp Y ≤ 1 * Real.exp Y := mul_le_mul_of_nonneg_right (by linarith) p0.le
    linarith
  refine ⟨?_, ?_⟩
  · have := abs_add_le ((Libm.exp y).val - Real.exp y.val) (Real.exp y.val)
    rw [sub_add_cancel, abs_of_pos (Real.exp_pos _)] at this
    have hb : Real.exp Y ≤ 10^50 := by
      refine (Real.exp_le_exp.2 hY).trans ?_
      have h7 : Real.exp 100 = (Real.exp 1)^100 := by rw [← Real.exp_nat_mul]; norm_num
      rw [h7]
      exact (pow_le_pow_left₀ (Real.exp_pos _).le (show Real.exp 1 ≤ 3 by linarith [Real.exp_one_lt_d9]) 100).trans (by norm_num)
    have k : Real.exp y.val / 2^52 ≤ Real.exp y.val := div_le_self (Real.exp_pos _).le (by norm_num)
    have tt : (1:ℝ) / 2^1074 ≤ 1 := (div_le_one (by positivity)).2 (one_le_pow₀ (by norm_num))
    refine isFin_of_abs (b := 10^60) ?_ (pow_le_pow_right₀ (by norm_num) (by norm_num))
    generalize (1:ℝ) / 2^1074 = t at *
    generalize Real.exp Y = EY at *
    norm_num at hb t3 ⊢
    linarith
  · refine t2.trans ?_
    have k : Real.exp y.val / 2^52 ≤ 1 / 10^15 * Real.exp Y := by
      rw [div_le_iff₀ (by norm_num)]; norm_num at t3 ⊢; linarith
    rw [add_mul]
    linarith

/-- the complete beta function in binary64 -/
theorem beta_val2 [Libm F64] (L : LibmUlp) {a b : F64} (ha : 1 / 10^11 ≤ a.val) (ha1 : a.val ≤ 10^8) (hb : 1 / 10^11 ≤ b.val) (hb1 : b.val ≤ 10^8) :
    (Libm.exp (lnGamma a + lnGamma b - lnGamma (a + b))).isFin = true ∧
    |(Libm.exp (lnGamma a + lnGamma b - lnGamma (a + b))).val - eulerBeta a.val b.val| ≤
      (2.5 / 10^8 + 2 / 10^12 * (1 / a.val + 1 / b.val) + 3.2 / 10^13 * TT (a.val + b.val)) * eulerBeta a.val b.val + 1 / 2^1074 := by
  have a0 : 0 < a.val := lt_of_lt_of_le (by norm_num) ha
  have b0 : 0 < b.val := lt_of_lt_of_le (by norm_num) hb
  have hDa : 1 / a.val ≤ 10^11 := by rw [div_le_iff₀ a0]; rw [div_le_iff₀ (by norm_num)] at ha; linarith
  have hDb : 1 / b.val ≤ 10^11 := by rw [div_le_iff₀ b0]; rw [div_le_iff₀ (by norm_num)] at hb; linarith
  have TU := TT_le (add_pos a0 b0) (by norm_num at ha1 hb1 ⊢; linarith)
  have B0 := eulerBeta_pos a0 b0
  obtain ⟨f, h⟩ := exp_ab2 L (lnBeta_ab2 L ha ha1 hb hb1) (by
    generalize TT (a.val + b.val) = T at *
    generalize 1 / a.val = Da at *
    generalize 1 / b.val = Db at *
    norm_num at TU hDa hDb ⊢; linarith) (log_eulerBeta_le (le_trans (by norm_num) ha) (le_trans (by norm_num) hb))
  rw [Real.exp_log B0] at h
  refine ⟨f, h.trans ?_⟩
  refine add_le_add (mul_le_mul_of_nonneg_right ?_ B0.le) le_rfl
  generalize 1 / a.val = Da at *
  generalize 1 / b.val = Db at *
  generalize TT (a.val + b.val) = T at *
  norm_num; linarith

end Bcf
end Verif
