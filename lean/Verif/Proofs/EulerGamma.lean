import Verif.Proofs.ErfcxTail
import Mathlib.NumberTheory.Harmonic.EulerMascheroni
import Mathlib.Analysis.Complex.ExponentialBounds

/-! Euler's constant and `ln 2` to seventeen digits. -/

namespace Verif
namespace Eul
open Filter Topology Real

theorem log2 : |Real.log 2 - 0.69314718055994530941723| ≤ 1e-22 := by
  have t : |(2⁻¹ : ℝ)| = 2⁻¹ := by rw [abs_of_pos]; norm_num
  have z := Real.abs_log_sub_add_sum_range_le (show |(2⁻¹ : ℝ)| < 1 by rw [t]; norm_num) 76
  rw [t] at z
  rw [show (1:ℝ) - 2⁻¹ = 2⁻¹ by norm_num, log_inv, ← sub_eq_add_neg, _root_.abs_sub_comm] at z
  have z2 : |∑ i ∈ Finset.range 76, (2⁻¹:ℝ) ^ (i + 1) / ((i:ℝ) + 1) - 0.69314718055994530941723| ≤ 0.5e-22 := by
    norm_num [Finset.sum_range_succ]
  refine le_trans (_root_.abs_sub_le _ _ _) (le_trans (add_le_add z z2) ?_)
  norm_num

/-- `H_n - ln n - p(n)` -/
noncomputable def gs (p : ℝ → ℝ) (n : ℕ) : ℝ := harmonic n - Real.log n - p n

/-- its step -/
noncomputable def gd (p : ℝ → ℝ) (t : ℝ) : ℝ := 1 / (t + 1) - (Real.log (t + 1) - Real.log t) - (p (t + 1) - p t)

theorem gs_step (p : ℝ → ℝ) (n : ℕ) : gs p (n + 1) - gs p n = gd p n := by
  unfold gs gd
  rw [harmonic_succ]; push_cast; ring

theorem gs_lim {p : ℝ → ℝ} (hp : Tendsto p atTop (𝓝 0)) : Tendsto (gs p) atTop (𝓝 Real.eulerMascheroniConstant) := by
  have h := Real.tendsto_harmonic_sub_log.sub (hp.comp tendsto_natCast_atTop_atTop)
  rw [sub_zero] at h
  exact h

theorem log_gap : Tendsto (fun t : ℝ => Real.log (t + 1) - Real.log t) atTop (𝓝 0) := by
  have h : Tendsto (fun t : ℝ => Real.log (1 + 1 / t)) atTop (𝓝 (Real.log (1 + 0))) := by
    refine Tendsto.log ?_ (by norm_num)
    exact tendsto_const_nhds.add ((tendsto_inv_atTop_zero (𝕜 := ℝ)).congr fun t => (one_div t).symm)
  rw [add_zero, Real.log_one] at h
  refine h.congr' ?_
  filter_upwards [eventually_gt_atTop 0] with t ht
  rw [← Real.log_div (by linarith) ht.ne']
  congr 1; field_simp

theorem gd_lim {p : ℝ → ℝ} (hp : Tendsto p atTop (𝓝 0)) : Tendsto (gd p) atTop (𝓝 0) := by
  have s : Tendsto (fun t : ℝ => t + 1) atTop atTop := tendsto_atTop_add_const_right atTop 1 tendsto_id
  have h1 : Tendsto (fun t : ℝ => 1 / (t + 1)) atTop (𝓝 0) := by
    exact (tendsto_inv_atTop_zero.comp s).congr fun t => (one_div (t+1)).symm
  have h2 := (h1.sub log_gap).sub ((hp.comp s).sub hp)
  simp only [sub_zero] at h2
  exact h2

/-- the truncated correction -/
noncomputable def cor (a : ℝ) (t : ℝ) : ℝ := 1 / (2 * t) - 1 / (12 * t ^ 2) + 1 / (120 * t ^ 4) - 1 / (252 * t ^ 6) + a / t ^ 8

theorem inv_deriv (c : ℝ) (k : ℕ) {t : ℝ} (ht : 0 < t) : HasDerivAt (fun t : ℝ => c / t ^ k) (-(c * k / t ^ (k + 1))) t := by
  have h := ((hasDerivAt_pow k t).inv (by positivity)).const_mul c
  refine (h.congr_deriv ?_).congr_of_eventuallyEq ?_
  · cases k with
    | zero => simp
    | succ k => rw [Nat.add_sub_cancel]; field_simp; ring
  · filter_upwards with z; simp [div_eq_mul_inv]

theorem inv_lim (c : ℝ) {k : ℕ} (hk : k ≠ 0) : Tendsto (fun t : ℝ => c / t ^ k) atTop (𝓝 0) :=
  tendsto_const_nhds.div_atTop (tendsto_pow_atTop hk)

noncomputable def dcor (a : ℝ) (t : ℝ) : ℝ := -(1 / (2 * t ^ 2)) + 1 / (6 * t ^ 3) - 1 / (30 * t ^ 5) + 1 / (42 * t ^ 7) - 8 * a / t ^ 9

theorem cor_eq (a : ℝ) : cor a = fun t => (1 / 2) / t ^ 1 - (1 / 12) / t ^ 2 + (1 / 120) / t ^ 4 - (1 / 252) / t ^ 6 + a / t ^ 8 := by
  funext t; unfold cor; rw [pow_one]; simp only [div_div]

theorem cor_lim (a : ℝ) : Tendsto (cor a) atTop (𝓝 0) := by
  rw [cor_eq]
  have := ((((inv_lim (1/2) one_ne_zero).sub (inv_lim (1/12) two_ne_zero)).add (inv_lim (1/120) four_ne_zero)).sub
    (inv_lim (1/252) (by norm_num : (6:ℕ) ≠ 0))).add (inv_lim a (by norm_num : (8:ℕ) ≠ 0))
  simpa using this

theorem cor_deriv (a : ℝ) {t : ℝ} (ht : 0 < t) : HasDerivAt (cor a) (dcor a t) t := by
  rw [cor_eq]
  have := ((((inv_deriv (1/2) 1 ht).sub (inv_deriv (1/12) 2 ht)).add (inv_deriv (1/120) 4 ht)).sub
    (inv_deriv (1/252) 6 ht)).add (inv_deriv a 8 ht)
  refine this.congr_deriv ?_
  unfold dcor
  push_cast
  field_simp
  ring

theorem gd_deriv (a : ℝ) {t : ℝ} (ht : 0 < t) :
    HasDerivAt (gd (cor a)) (-(1 / (t + 1) ^ 2) - (1 / (t + 1) - 1 / t) - (dcor a (t + 1) - dcor a t)) t := by
  have s : HasDerivAt (fun t : ℝ => t + 1) 1 t := (hasDerivAt_id t).add_const 1
  have h1 := s.inv (by linarith : t + 1 ≠ 0)
  have h2 := s.log (by linarith : t + 1 ≠ 0)
  have h3 := Real.hasDerivAt_log ht.ne'
  have h4 := (cor_deriv a (by linarith : 0 < t + 1)).comp t s
  have h := (h1.sub (h2.sub h3)).sub (h4.sub (cor_deriv a ht))
  have e : gd (cor a) = fun t => (fun t : ℝ => t + 1)⁻¹ t - (Real.log (t + 1) - Real.log t) - ((cor a ∘ fun t => t + 1) t - cor a t) := by
    funext t; simp [gd]
  rw [e]
  refine h.congr_deriv ?_
  rw [mul_one, inv_eq_one_div t, neg_div]

theorem gd_up {t : ℝ} (ht : 0 < t) : gd (cor 0) t ≤ 0 := by
  have := nonneg_of_deriv_nonpos_gt (a := 0) (f := fun t => -gd (cor 0) t)
    (f' := fun t => -(-(1 / (t + 1) ^ 2) - (1 / (t + 1) - 1 / t) - (dcor 0 (t + 1) - dcor 0 t)))
    (fun x hx => (gd_deriv 0 hx).neg) ?_ (by simpa using (gd_lim (cor_lim 0)).neg) ht
  · linarith
  · intro x hx
    have e : -(1 / (x + 1) ^ 2) - (1 / (x + 1) - 1 / x) - (dcor 0 (x + 1) - dcor 0 x) =
        (1/42 + 1/6 * x + 7/15 * x^2 + 3/5 * x^3 + 3/10 * x^4) / (x ^ 7 * (x + 1) ^ 7) := by
      unfold dcor; field_simp; ring
    rw [e, neg_nonpos]; positivity

theorem gd_lo {t : ℝ} (ht : 0 < t) : 0 ≤ gd (cor (1/240)) t := by
  refine nonneg_of_deriv_nonpos_gt (a := 0) (f := gd (cor (1/240)))
    (fun x hx => gd_deriv (1/240) hx) ?_ (gd_lim (cor_lim _)) ht
  · intro x hx
    have e : -(1 / (x + 1) ^ 2) - (1 / (x + 1) - 1 / x) - (dcor (1/240) (x + 1) - dcor (1/240) x) =
        -((1/30 + 3/10 * x + 247/210 * x^2 + 181/70 * x^3 + 709/210 * x^4 + 5/2 * x^5 + 5/6 * x^6) / (x ^ 9 * (x + 1) ^ 9)) := by
      unfold dcor; field_simp; ring
    rw [e, neg_nonpos]; positivity

theorem gamma_le {n : ℕ} (hn : n ≠ 0) : Real.eulerMascheroniConstant ≤ gs (cor 0) n := by
  have anti : ∀ m, n ≤ m → gs (cor 0) m ≤ gs (cor 0) n := by
    intro m hm
    induction m, hm using Nat.le_induction with
    | base => exact le_rfl
    | succ m hm ih =>
      have h1 := gs_step (cor 0) m
      have h2 := gd_up (t := (m:ℝ)) (by exact_mod_cast (by omega : 0 < m))
      linarith
  refine le_of_tendsto (gs_lim (cor_lim 0)) ?_
  filter_upwards [eventually_ge_atTop n] with m hm using anti m hm

theorem gamma_ge {n : ℕ} (hn : n ≠ 0) : gs (cor (1/240)) n ≤ Real.eulerMascheroniConstant := by
  have mono : ∀ m, n ≤ m → gs (cor (1/240)) n ≤ gs (cor (1/240)) m := by
    intro m hm
    induction m, hm using Nat.le_induction with
    | base => exact le_rfl
    | succ m hm ih =>
      have h1 := gs_step (cor (1/240)) m
      have h2 := gd_lo (t := (m:ℝ)) (by exact_mod_cast (by omega : 0 < m))
      linarith
  refine ge_of_tendsto (gs_lim (cor_lim (1/240))) ?_
  filter_upwards [eventually_ge_atTop n] with m hm using mono m hm

theorem gamma_close : |Real.eulerMascheroniConstant - 0.5772156649015328606| ≤ 2e-17 := by
  have h1 := gamma_le (n := 64) (by norm_num)
  have h2 := gamma_ge (n := 64) (by norm_num)
  have l := abs_le.1 log2
  have e : Real.log ((64:ℕ):ℝ) = 6 * Real.log 2 := by
    rw [show ((64:ℕ):ℝ) = 2 ^ 6 by norm_num, Real.log_pow]; norm_num
  have hh : ((harmonic 64 : ℚ) : ℝ) = 623171679694215690971693339 / 131362987122535807501262400 := by
    have : harmonic 64 = 623171679694215690971693339 / 131362987122535807501262400 := by
      norm_num [harmonic, Finset.sum_range_succ]
    rw [this]; push_cast; norm_num
  unfold gs cor at h1 h2
  rw [e, hh] at h1 h2
  norm_num at h1 h2 l
  rw [abs_le]
  constructor <;> norm_num <;> linarith [l.1, l.2]

end Eul
end Verif
