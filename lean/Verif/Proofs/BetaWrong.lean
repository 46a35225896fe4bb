import Verif.Proofs.BetaF
import Verif.Props.Beta

/-! Points where the branch point of `betai` selects the wrong continued fraction: values of the fraction in binary64. -/

namespace Verif
namespace Bcf
open F64

set_option maxRecDepth 100000 in
theorem cf1000 : (F64.le (-4.0) (betacf (1000.0:F64) 1000.0 0.625) && F64.le (betacf (1000.0:F64) 1000.0 0.625) (-3.9)) = true := by decide +kernel

set_option maxRecDepth 100000 in
theorem cf200 : (F64.le (-483171518.0) (betacf (200.0:F64) 200.0 0.640625) && F64.le (betacf (200.0:F64) 200.0 0.640625) (-483171517.0)) = true := by
  decide +kernel

/-- `x^a (1-x)^b / B(a,b) ≤ a` -/
theorem front_le {a b x : ℝ} (ha : 0 < a) (hb : 0 < b) (h0 : 0 < x) (h1 : x < 1) : x^a * (1-x)^b / eulerBeta a b ≤ a := by
  have e := regBeta_G ha hb h0 h1
  have h := regBeta_le_one ha hb h0.le h1.le
  have g : 1 ≤ G a b x 1 := by unfold G; exact Hyp.F_ge_one (by positivity) (Nat.cast_nonneg _) (by positivity) h0.le h1
  have f0 : 0 ≤ x^a * (1-x)^b / eulerBeta a b := by
    have := eulerBeta_pos ha hb
    have : 0 ≤ (1 - x)^b := Real.rpow_nonneg (by linarith) _
    have : 0 ≤ x^a := Real.rpow_nonneg h0.le _
    positivity
  rw [e, div_le_one ha] at h
  exact (le_mul_of_one_le_right f0 g).trans h

/-- the value of `betai` in binary64 -/
theorem betai_branch [Libm F64] {a b x : F64} (fa : a.isFin = true) (fb : b.isFin = true) (fx : x.isFin = true)
    (ha : 0 < a.val) (hb : 0 < b.val) (hab : a.val ≤ 3000 ∨ b.val ≤ 3000) (h0 : 0 < x.val) (h1 : x.val < 1) :
    betai a b x = if F64.lt x ((a + 1.0) / (a + b * 2.0)) = true then
      .ok (Libm.exp (lnGamma (a + b) - lnGamma a - lnGamma b + a * Libm.ln x + b * Libm.ln (1.0 - x)) * betacf a b x / a)
      else .ok (1.0 - Libm.exp (lnGamma (a + b) - lnGamma a - lnGamma b + a * Libm.ln x + b * Libm.ln (1.0 - x)) * betacf b a (1.0 - x) / b) := by
  have na := isFin_notNaN fa
  have nb := isFin_notNaN fb
  have nx := isFin_notNaN fx
  have n3 : (F64.ofNat 3000).isNaN = false := by decide +kernel
  have v3 : (F64.ofNat 3000).val = 3000 := by
    have := val_of_int (x := F64.ofNat 3000) 3000 (by decide +kernel); rw [this]; norm_num
  have c1 : F64.le 0.0 x = true := le_iff.2 ⟨nn_zero, nx, by rw [zero_val]; exact h0.le⟩
  have c2 : F64.le x 1.0 = true := le_iff.2 ⟨nx, by decide +kernel, by rw [one_val]; exact h1.le⟩
  have c3 : F64.eq x 0.0 = false := by
    rw [Bool.eq_false_iff]; intro h
    have := (eq_iff.1 h).2.2
    rw [zero_val] at this; linarith
  have c4 : F64.eq x 1.0 = false := by
    rw [Bool.eq_false_iff]; intro h
    have := (eq_iff.1 h).2.2
    rw [one_val] at this; linarith
  have c5 : (F64.lt (F64.ofNat 3000) a && F64.lt (F64.ofNat 3000) b) = false := by
    rw [Bool.and_eq_false_iff]
    rcases hab with h | h
    · exact Or.inl ((lt_false_iff n3 na).2 (by rw [v3]; exact h))
    · exact Or.inr ((lt_false_iff n3 nb).2 (by rw [v3]; exact h))
  rw [betai_eq, pos_iff.2 ⟨na, ha⟩, pos_iff.2 ⟨nb, hb⟩, c1, c2, c3, c4, c5]
  rfl

/-! ## slow convergence near one, `a = b = 1/2` -/

theorem good_half {x : ℝ} (h0 : 0 < x) (h1 : x < 1) : Good (1/2) (1/2) x :=
  ⟨by norm_num, by norm_num, h0, h1, by norm_num; linarith⟩

theorem conv_inc {x : ℝ} (h0 : 0 < x) (h1 : x < 1) (k : ℕ) {r : ℝ} (hr : g (1/2) (1/2) (k + 1) = r / (1 + r)) (r0 : 0 < r) (g0 : g (1/2) (1/2) k ≤ 1)
    (hd : 0 ≤ (betaFraction (1/2) (1/2) x).convs (k + 1) - (betaFraction (1/2) (1/2) x).convs k) :
    0 ≤ (betaFraction (1/2) (1/2) x).convs (k + 2) - (betaFraction (1/2) (1/2) x).convs (k + 1) ∧
    (betaFraction (1/2) (1/2) x).convs (k + 2) - (betaFraction (1/2) (1/2) x).convs (k + 1) ≤
      r * ((betaFraction (1/2) (1/2) x).convs (k + 1) - (betaFraction (1/2) (1/2) x).convs k) := by
  have H := good_half h0 h1
  have d0 := den_lower H k
  have d1 := den_lower H (k + 1)
  have d2 := (den_lower H (k + 2)).1
  have gn := g_nonneg H.ha H.hb k
  rw [GenContFract.conv_eq_num_div_den, GenContFract.conv_eq_num_div_den, GenContFract.conv_eq_num_div_den] at *
  have e : (betaFraction (1/2) (1/2) x).nums (k + 2) / (betaFraction (1/2) (1/2) x).dens (k + 2) - (betaFraction (1/2) (1/2) x).nums (k + 1) / (betaFraction (1/2) (1/2) x).dens (k + 1) =
      ((1 - g (1/2) (1/2) k) * g (1/2) (1/2) (k + 1) * x * (betaFraction (1/2) (1/2) x).dens k / (betaFraction (1/2) (1/2) x).dens (k + 2)) *
      ((betaFraction (1/2) (1/2) x).nums (k + 1) / (betaFraction (1/2) (1/2) x).dens (k + 1) - (betaFraction (1/2) (1/2) x).nums k / (betaFraction (1/2) (1/2) x).dens k) := by
    have s1 := numS (a := 1/2) (b := 1/2) (x := x) k
    have s2 := denS (a := 1/2) (b := 1/2) (x := x) k
    rw [coeff_g H.ha] at s1 s2
    have n0 := d0.1.ne'
    have n1 := d1.1.ne'
    have n2 := d2.ne'
    generalize (1 - g (1/2) (1/2) k) * g (1/2) (1/2) (k + 1) * x = q at *
    rw [div_sub_div _ _ n2 n1, div_sub_div _ _ n1 n0, div_mul_div_comm, div_eq_div_iff (mul_ne_zero n2 n1) (mul_ne_zero n2 (mul_ne_zero n1 n0)), s1, s2]
    ring
  rw [e]
  have r1 : 0 < 1 + r := by linarith
  have q : (1 - g (1/2) (1/2) k) * g (1/2) (1/2) (k + 1) * x * (betaFraction (1/2) (1/2) x).dens k / (betaFraction (1/2) (1/2) x).dens (k + 2) ≤ r := by
    rw [div_le_iff₀ d2]
    have t1 : (1 - g (1/2) (1/2) k) * (betaFraction (1/2) (1/2) x).dens k ≤ (betaFraction (1/2) (1/2) x).dens (k + 1) := by
      refine le_trans (mul_le_mul_of_nonneg_right ?_ d0.1.le) d0.2
      have := mul_le_of_le_one_right gn h1.le
      linarith
    have t2 : (1 / (1 + r)) * (betaFraction (1/2) (1/2) x).dens (k + 1) ≤ (betaFraction (1/2) (1/2) x).dens (k + 2) := by
      refine le_trans (mul_le_mul_of_nonneg_right ?_ d1.1.le) d1.2
      rw [hr]
      have : r / (1 + r) * x ≤ r / (1 + r) := mul_le_of_le_one_right (by positivity) h1.le
      have : 1 - r / (1 + r) = 1 / (1 + r) := by field_simp; ring
      linarith
    rw [hr]
    have z0 : 0 ≤ (1 - g (1/2) (1/2) k) * (betaFraction (1/2) (1/2) x).dens k := mul_nonneg (by linarith) d0.1.le
    generalize (1 - g (1/2) (1/2) k) = u at *
    generalize (betaFraction (1/2) (1/2) x).dens k = D0 at *
    generalize (betaFraction (1/2) (1/2) x).dens (k + 1) = D1 at *
    generalize (betaFraction (1/2) (1/2) x).dens (k + 2) = D2 at *
    have t3 : u * D0 * x ≤ D1 := (mul_le_of_le_one_right z0 h1.le).trans t1
    have t4 := mul_le_mul_of_nonneg_left t3 (show 0 ≤ r / (1 + r) by positivity)
    have t5 := mul_le_mul_of_nonneg_left t2 r0.le
    have e5 : r * (1 / (1 + r) * D1) = r / (1 + r) * D1 := by ring
    linarith
  have q0 : 0 ≤ (1 - g (1/2) (1/2) k) * g (1/2) (1/2) (k + 1) * x * (betaFraction (1/2) (1/2) x).dens k / (betaFraction (1/2) (1/2) x).dens (k + 2) := by
    have := sub_nonneg.2 g0
    have := g_nonneg H.ha H.hb (k + 1)
    have := d0.1
    positivity
  exact ⟨mul_nonneg q0 hd, mul_le_mul_of_nonneg_right q hd⟩

theorem gh_odd (m : ℕ) : g (1/2) (1/2) (2 * m + 1) = (((m:ℝ) + 1) / (m + 1/2)) / (1 + ((m:ℝ) + 1) / (m + 1/2)) := by
  rw [g_odd]
  have : (0:ℝ) ≤ m := Nat.cast_nonneg m
  field_simp
  ring

theorem gh_even (m : ℕ) : g (1/2) (1/2) (2 * m + 2) = (((m:ℝ) + 1) / (m + 3/2)) / (1 + ((m:ℝ) + 1) / (m + 3/2)) := by
  rw [show 2 * m + 2 = 2 * (m + 1) by ring, g_even]
  have : (0:ℝ) ≤ m := Nat.cast_nonneg m
  push_cast
  field_simp
  ring

theorem gh_le (k : ℕ) : g (1/2) (1/2) k ≤ 1 := by
  rcases Nat.even_or_odd' k with ⟨m, rfl | rfl⟩
  · exact g_even_le (by norm_num) m
  · exact g_odd_le (by norm_num) m (by have : (0:ℝ) ≤ m := Nat.cast_nonneg m; linarith)

theorem conv_odd {x : ℝ} (h0 : 0 < x) (h1 : x < 1) (m : ℕ) :
    0 ≤ (betaFraction (1/2) (1/2) x).convs (2 * m + 2) - (betaFraction (1/2) (1/2) x).convs (2 * m + 1) ∧
    (betaFraction (1/2) (1/2) x).convs (2 * m + 2) - (betaFraction (1/2) (1/2) x).convs (2 * m + 1) ≤ 2 ∧
    0 ≤ (betaFraction (1/2) (1/2) x).convs (2 * m + 3) - (betaFraction (1/2) (1/2) x).convs (2 * m + 2) ∧
    (betaFraction (1/2) (1/2) x).convs (2 * m + 3) - (betaFraction (1/2) (1/2) x).convs (2 * m + 2) ≤ ((m:ℝ) + 1) / (m + 3/2) * 2 := by
  induction m with
  | zero =>
    have c0 : (betaFraction (1/2) (1/2) x).convs 0 = 0 := by rw [GenContFract.conv_eq_num_div_den, num0, zero_div]
    have c1 : (betaFraction (1/2) (1/2) x).convs 1 = 1 := by rw [GenContFract.conv_eq_num_div_den, num1, den1, div_one]
    have i1 := conv_inc h0 h1 0 (gh_odd 0) (by norm_num) (gh_le 0) (by rw [c0, c1]; norm_num)
    have i2 := conv_inc h0 h1 1 (gh_even 0) (by norm_num) (gh_le 1) i1.1
    rw [c0, c1] at i1
    norm_num at i1 i2 ⊢
    refine ⟨by linarith, by linarith, by linarith, by linarith⟩
  | succ m ih =>
    have hm : (0:ℝ) ≤ m := Nat.cast_nonneg m
    have i1 := conv_inc h0 h1 (2 * m + 2) (r := (((m + 1 : ℕ):ℝ) + 1) / ((m + 1 : ℕ) + 1/2)) (gh_odd (m + 1)) (by positivity) (gh_le _) ih.2.2.1
    have i2 := conv_inc h0 h1 (2 * m + 3) (r := (((m + 1 : ℕ):ℝ) + 1) / ((m + 1 : ℕ) + 3/2)) (gh_even (m + 1)) (by positivity) (gh_le _) i1.1
    have k : (betaFraction (1/2) (1/2) x).convs (2 * m + 2 + 2) - (betaFraction (1/2) (1/2) x).convs (2 * m + 2 + 1) ≤ 2 := by
      refine i1.2.trans ?_
      refine (mul_le_mul_of_nonneg_left ih.2.2.2 (by positivity)).trans ?_
      push_cast
      rw [div_mul_eq_mul_div, div_mul_eq_mul_div, mul_div_assoc', div_div, div_le_iff₀ (by positivity)]
      nlinarith
    refine ⟨i1.1, k, i2.1, i2.2.trans ?_⟩
    exact mul_le_mul_of_nonneg_left k (by positivity)

theorem conv_le {x : ℝ} (h0 : 0 < x) (h1 : x < 1) (n : ℕ) : (betaFraction (1/2) (1/2) x).convs (2 * n + 1) ≤ 4 * n + 1 := by
  induction n with
  | zero =>
    have c1 : (betaFraction (1/2) (1/2) x).convs 1 = 1 := by rw [GenContFract.conv_eq_num_div_den, num1, den1, div_one]
    rw [mul_zero, zero_add, c1]; norm_num
  | succ n ih =>
    obtain ⟨_, k2, _, k4⟩ := conv_odd h0 h1 n
    have hn : (0:ℝ) ≤ n := Nat.cast_nonneg n
    have : ((n:ℝ) + 1) / (n + 3/2) ≤ 1 := (div_le_one (by positivity)).2 (by linarith)
    rw [show 2 * (n + 1) + 1 = 2 * n + 3 by ring]
    push_cast
    linarith

theorem betacf_half_le [Cfg] {x : ℝ} (h0 : 0 < x) (h1 : x ≤ 1 - 1 / 10^20) : betacf (1/2) (1/2) x ≤ 40000 := by
  have f : (1 / 2 ^ 970 : ℝ) ≤ 1 / 10^20 :=
    one_div_le_one_div_of_le (by norm_num) (le_trans (by norm_num : (10:ℝ)^20 ≤ 2^70) (pow_le_pow_right₀ (by norm_num) (by norm_num)))
  have h1' : x < 1 := by have : (0:ℝ) < 1 / 10^20 := by positivity
                         linarith
  obtain ⟨j, j1, j2, e, -⟩ := betacf_convergent (1/2) (1/2) x (by norm_num) (betaFraction_unguarded (1/2) (1/2) x (by norm_num) (by norm_num) h0.le (by linarith)
    (by
      have : (1 / 2 ^ 970 : ℝ) ≤ 1 / 4 := f.trans (by norm_num)
      generalize (1 / 2 ^ 970 : ℝ) = t at *
      norm_num at this ⊢; linarith) 20000)
  rw [e]
  obtain ⟨n, rfl⟩ : ∃ n, j = n + 1 := ⟨j - 1, by omega⟩
  have k := conv_le h0 h1' n
  have k2 := (conv_odd h0 h1' n).2.1
  have : (n:ℝ) ≤ 9999 := by exact_mod_cast (by omega : n ≤ 9999)
  rw [show 2 * (n + 1) = 2 * n + 2 by ring]
  linarith

theorem eulerBeta_half : eulerBeta (1/2) (1/2) = Real.pi := by
  rw [eulerBeta_gamma (by norm_num) (by norm_num), Real.Gamma_one_half_eq, show (1/2:ℝ) + 1/2 = 1 by norm_num, Real.Gamma_one, div_one,
    Real.mul_self_sqrt Real.pi_pos.le]

theorem regBeta_half_small {y : ℝ} (h0 : 0 < y) (h1 : y ≤ 1 / 10^14) : regBeta (1/2) (1/2) y ≤ 1 / 100 := by
  unfold regBeta
  rw [eulerBeta_half]
  have y1 : y < 1 := by norm_num at h1; linarith
  have r := incBeta_rec (a := 1/2) (b := 1/2) (x := y) (by norm_num) h0.le y1
  have s := incBeta_shift (a := 1/2) (b := 1/2) (x := y) (by norm_num) h0.le y1
  have n := incBeta_nonneg (a := 1/2) (b := 1/2) h0.le y1.le
  have q : y^(1/2:ℝ) * (1 - y)^(1/2:ℝ) ≤ 1 / 10^7 := by
    have q1 : y^(1/2:ℝ) ≤ 1 / 10^7 := by
      rw [← Real.sqrt_eq_rpow, Real.sqrt_le_left (by norm_num)]; norm_num at h1 ⊢; linarith
    have q2 : (1 - y)^(1/2:ℝ) ≤ 1 := Real.rpow_le_one (by linarith) (by linarith) (by norm_num)
    have q3 : 0 ≤ (1 - y)^(1/2:ℝ) := Real.rpow_nonneg (by linarith) _
    exact (mul_le_mul q1 q2 q3 (by norm_num)).trans (by norm_num)
  rw [div_le_iff₀ Real.pi_pos]
  have pi3 := Real.pi_gt_three
  have sy : y * incBeta (1/2) (1/2) y ≤ 1 / 10^14 * incBeta (1/2) (1/2) y := mul_le_mul_of_nonneg_right h1 n
  norm_num at r s q sy n ⊢
  linarith

end Bcf
end Verif
