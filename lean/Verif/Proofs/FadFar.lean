import Verif.Proofs.FadAsyG

/-! The branch of `faddeeva` for `|z|² > 4.8·10^15`. -/

namespace Verif
namespace Fad
open Complex F64

/-- division by a number of either sign -/
theorem ab_div' {a b : F64} {A B d e M : ℝ} (ha : Ab a A d) (hb : Ab b B e) (hB : B ≠ 0) (he : e ≤ |B| / 2) (hM : |A| / |B| + 2 * (d + |A| * (e / |B|)) / |B| ≤ M) (hc : Cap M) :
    Ab (a / b) (A / B) (2 * (d + |A| * (e / |B|)) / |B| + M / 2^52) := by
  rcases lt_or_gt_of_ne hB with h | h
  · rw [abs_of_neg h] at *
    have := ab_div (ab_neg ha) (ab_neg hb) (by linarith) he (by rw [abs_neg]; exact hM) hc
    rw [abs_neg, neg_div_neg_eq] at this
    have hb0 : b.val ≠ 0 := by
      have := abs_le.1 hb.err
      intro h0
      rw [h0] at this
      linarith
    have v : ((-a) / (-b)).val = (a / b).val := by
      rw [(div_spec (by rw [isFin_neg]; exact ha.fin) (by rw [isFin_neg]; exact hb.fin) (by rw [val_neg]; exact neg_ne_zero.2 hb0)).2.1, (div_spec ha.fin hb.fin hb0).2.1,
        val_neg, val_neg, neg_div_neg_eq]
    have hf := this.fin
    have her := this.err
    rw [isFin_iff_val, v, ← isFin_iff_val] at hf
    rw [v] at her
    exact ⟨hf, her⟩
  · rw [abs_of_pos h] at *
    exact ab_div ha hb h he hM hc

theorem cap200 {M : ℝ} (h1 : 1 / 10^200 ≤ M) (h2 : M ≤ 10^200) : Cap M := by
  refine ⟨le_trans ?_ h1, (cap_of (M := 10^200) (le_trans (by norm_num) (show (1:ℝ) ≤ 10^200 by norm_num)) (pow_le_pow_right₀ (by norm_num) (by norm_num))).hi.trans' h2⟩
  refine one_div_le_one_div_of_le (by positivity) ?_
  calc (10:ℝ)^200 ≤ (2^4)^200 := pow_le_pow_left₀ (by norm_num) (by norm_num) _
    _ = 2^800 := by rw [← pow_mul]
    _ ≤ _ := pow_le_pow_right₀ (by norm_num) (by norm_num)

theorem isp_ab : Ab (INV_SQRT_PI : F64) (kap * (1/2)) (1 / 10^15) := by
  have k1 := le_val_of_sv (x := (0.5641895835477563 : F64)) 5641895835477562 10000000000000000 (by norm_num) (by decide +kernel)
  have k2 := val_le_of_sv (x := (0.5641895835477563 : F64)) 5641895835477564 10000000000000000 (by norm_num) (by decide +kernel)
  have hk := kap_bounds
  refine ⟨by decide +kernel, ?_⟩
  show |(0.5641895835477563 : F64).val - kap * (1/2)| ≤ _
  push_cast at k1 k2
  obtain ⟨h1, h2⟩ := hk
  norm_num at h1 h2
  rw [abs_le]; constructor <;> norm_num <;> linarith

/-- the larger coordinate `a` and the smaller one `b` -/
theorem far_core {a b s : F64} {n : ℝ} (fa : a.isFin = true) (fb : b.isFin = true) (hab : |b.val| ≤ |a.val|) (hn : n^2 = a.val^2 + b.val^2) (n1 : 1 ≤ n) (n2 : n ≤ 10^151)
    (hs : s = a + b / a * b ∨ s = b / a * b + a) :
    Ab (INV_SQRT_PI / s) (kap * (1/2) * (a.val / n^2)) (5 / 10^15 * (1 / n)) ∧ Ab (INV_SQRT_PI / s * (b / a)) (kap * (1/2) * (b.val / n^2)) (5 / 10^15 * (1 / n)) := by
  have n0 : 0 < n := by linarith
  have N0 : 0 < n^2 := by positivity
  have sqab : b.val^2 ≤ a.val^2 := sq_le_sq.2 hab
  have a0 : a.val ≠ 0 := by
    intro h
    rw [h] at sqab hn
    have : b.val^2 = 0 := le_antisymm (by simpa using sqab) (sq_nonneg _)
    rw [this] at hn
    norm_num at hn; linarith
  have pa : 0 < |a.val| := abs_pos.2 a0
  have ban : |a.val| ≤ n := abs_le_of_sq_le_sq (by rw [hn]; nlinarith [sq_nonneg b.val]) n0.le
  have bbn : |b.val| ≤ n := hab.trans ban
  have i1 : 1 / n ≤ 1 := by rw [div_le_one n0]; exact n1
  have i2 : 1 / 10^151 ≤ 1 / n := one_div_le_one_div_of_le n0 n2
  have p0 : 0 < 1 / n := by positivity
  -- the quotient
  have q1 : |b.val / a.val| ≤ 1 := by rw [abs_div, div_le_one pa]; exact hab
  have t : Ab (b / a) (b.val / a.val) (2.5 / 10^16 * 1) := by
    refine (ab_div' (ab_self fb) (ab_self fa) a0 (by positivity) (M := 1.1) ?_ (cap1 (by norm_num) (by norm_num))).mono ?_
    · rw [abs_div] at q1
      rw [zero_div, mul_zero, add_zero, mul_zero, zero_div]; linarith
    · rw [zero_div, mul_zero, add_zero, mul_zero, zero_div]; norm_num
  have capn : ∀ {c : ℝ}, 1 ≤ c → c ≤ 100 → Cap (c * n) := by
    intro c h1 h2
    refine cap200 (le_trans (by norm_num) (show (1:ℝ) ≤ c * n by nlinarith)) ?_
    calc c * n ≤ 100 * 10^151 := mul_le_mul h2 n2 n0.le (by norm_num)
      _ ≤ _ := by norm_num
  have u := rm t (ab0 fb n) q1 bbn (by norm_num) (by norm_num) (by norm_num) (by norm_num) (by rw [one_mul]; exact capn (by norm_num) (by norm_num))
  -- the denominator
  have eB : a.val + b.val / a.val * b.val = n^2 / a.val := by rw [hn]; field_simp
  set B := n^2 / a.val with hB
  have aB : |B| = n^2 / |a.val| := by rw [hB, abs_div, abs_of_pos N0]
  have lB : n ≤ |B| := by rw [aB, le_div_iff₀ pa]; nlinarith
  have uB : |B| ≤ 1.5 * n := by
    rw [aB, div_le_iff₀ pa]
    have : n ≤ 1.5 * |a.val| := by
      refine le_of_sq_le_sq ?_ (by positivity)
      rw [mul_pow, sq_abs, hn]; norm_num; nlinarith [sq_nonneg a.val]
    nlinarith
  have B0 : B ≠ 0 := by intro h; rw [h, abs_zero] at lB; linarith
  have sB : Ab s B (9 / 10^16 * n) := by
    have hM : |B| + (0 + (2.5 / 10^16 + 0 + 2.5 / 10^16) * (1 * n)) ≤ 1.6 * n := by norm_num at uB ⊢; linarith
    rcases hs with h | h
    · rw [h]
      have := ab_add (ab_self fa) u (M := 1.6 * n) (by rw [eB]; exact hM) (capn (by norm_num) (by norm_num))
      rw [eB] at this
      exact this.mono (by norm_num; linarith)
    · rw [h]
      have := ab_add u (ab_self fa) (M := 1.6 * n) (by rw [add_comm (b.val / a.val * b.val), eB, add_comm _ (0:ℝ)]; exact hM) (capn (by norm_num) (by norm_num))
      rw [add_comm (b.val / a.val * b.val), eB] at this
      exact this.mono (by norm_num; linarith)
  have hk := kap_le
  have ka : |kap * (1/2)| ≤ 0.57 := by rw [abs_of_pos (by have := kap_pos; linarith)]; norm_num at hk ⊢; linarith
  have pB : 0 < |B| := by linarith
  have iB : 1 / |B| ≤ 1 / n := one_div_le_one_div_of_le n0 lB
  have eb : 9 / 10^16 * n / |B| ≤ 9 / 10^16 := by
    rw [div_le_iff₀ pB]
    exact mul_le_mul_of_nonneg_left lB (by norm_num)
  have err : 2 * (1 / 10^15 + |kap * (1/2)| * (9 / 10^16 * n / |B|)) / |B| ≤ 3.5 / 10^15 * (1 / n) := by
    have h1 : |kap * (1/2)| * (9 / 10^16 * n / |B|) ≤ 0.57 * (9 / 10^16) := mul_le_mul ka eb (by positivity) (by norm_num)
    calc 2 * (1 / 10^15 + |kap * (1/2)| * (9 / 10^16 * n / |B|)) / |B| = 2 * (1 / 10^15 + |kap * (1/2)| * (9 / 10^16 * n / |B|)) * (1 / |B|) := by ring
      _ ≤ 3.5 / 10^15 * (1 / n) := mul_le_mul (by norm_num at h1 ⊢; linarith) iB (by positivity) (by norm_num)
  have capi : ∀ {c : ℝ}, 1/10 ≤ c → c ≤ 100 → Cap (c * (1 / n)) := by
    intro c h1 h2
    refine cap200 ?_ ?_
    · calc (1:ℝ) / 10^200 ≤ 1/10 * (1 / 10^151) := by norm_num
        _ ≤ _ := mul_le_mul h1 i2 (by norm_num) (by linarith)
    · calc c * (1 / n) ≤ 100 * 1 := mul_le_mul h2 i1 p0.le (by norm_num)
        _ ≤ _ := by norm_num
  have den := ab_div' isp_ab sB B0 (by nlinarith) (M := 0.7 * (1 / n)) (by
    have : |kap * (1/2)| / |B| ≤ 0.57 * (1 / n) := by
      rw [div_eq_mul_one_div]
      exact mul_le_mul ka iB (by positivity) (by norm_num)
    refine (add_le_add this err).trans ?_
    rw [← add_mul]
    exact mul_le_mul_of_nonneg_right (by norm_num) p0.le) (capi (by norm_num) (by norm_num))
  have eV : kap * (1/2) / B = kap * (1/2) * (a.val / n^2) := by rw [hB]; field_simp
  rw [eV] at den
  have den2 : Ab (INV_SQRT_PI / s) (kap * (1/2) * (a.val / n^2)) (6.2 / 10^15 * (0.6 * (1 / n))) := by
    refine den.mono ?_
    refine (add_le_add err le_rfl).trans ?_
    calc 3.5 / 10^15 * (1 / n) + 0.7 * (1 / n) / 2^52 = (3.5 / 10^15 + 0.7 / 2^52) * (1 / n) := by ring
      _ ≤ (6.2 / 10^15 * 0.6) * (1 / n) := mul_le_mul_of_nonneg_right (by norm_num) p0.le
      _ = _ := by ring
  refine ⟨den2.mono ?_, ?_⟩
  · rw [← mul_assoc]; exact mul_le_mul_of_nonneg_right (by norm_num) p0.le
  · have bv : |kap * (1/2) * (a.val / n^2)| ≤ 0.6 * (1 / n) := by
      rw [← eV, abs_div, div_eq_mul_one_div]
      exact mul_le_mul (ka.trans (by norm_num)) iB (by positivity) (by norm_num)
    have := rm den2 t bv q1 (by norm_num) (by norm_num) (by norm_num) (by norm_num) (by
      rw [mul_one, ← mul_assoc]; exact capi (by norm_num) (by norm_num))
    have ev : kap * (1/2) * (a.val / n^2) * (b.val / a.val) = kap * (1/2) * (b.val / n^2) := by field_simp
    rw [ev] at this
    refine this.mono ?_
    rw [mul_one, ← mul_assoc]; exact mul_le_mul_of_nonneg_right (by norm_num) p0.le

end Fad
end Verif
