import Verif.Proofs.BesselIn2
import Verif.Proofs.Rel
import Verif.Proofs.Gcf
import Verif.Proofs.Bessel2
import Verif.Props.Utils

/-! Rounding errors of the downward recurrence of `In`. -/

namespace Verif
namespace Bes
open F64

/-- one rounding -/
noncomputable def om : ℝ := 1 + 1 / 2 ^ 53
theorem om_gt : 1 < om := by unfold om; norm_num
theorem om_pos : 0 < om := by linarith [om_gt]
theorem om_ge (k : ℕ) : 1 ≤ om ^ k := one_le_pow₀ om_gt.le
theorem om_mono {k l : ℕ} (h : k ≤ l) : om ^ k ≤ om ^ l := pow_le_pow_right₀ om_gt.le h

theorem om_le {k : ℕ} (h : (k:ℝ) ≤ 1e12) : om ^ k ≤ 1 + 1.001 * (k / 2 ^ 53) := by
  have hk : (0:ℝ) ≤ k := by positivity
  have h1 : 1 - k * (1 / 2 ^ 53 : ℝ) ≤ (1 - 1 / 2 ^ 53) ^ k := by
    have := one_add_mul_le_pow (a := -(1 / 2 ^ 53 : ℝ)) (by norm_num) k
    linarith [this, show (1 + -(1 / 2 ^ 53 : ℝ)) ^ k = (1 - 1 / 2 ^ 53) ^ k by rw [← sub_eq_add_neg]]
  have h2 : om ^ k * (1 - 1 / 2 ^ 53 : ℝ) ^ k ≤ 1 := by
    rw [← mul_pow]; refine pow_le_one₀ ?_ ?_ <;> unfold om <;> norm_num
  have h3 : om ^ k * (1 - k * (1 / 2 ^ 53 : ℝ)) ≤ 1 := (mul_le_mul_of_nonneg_left h1 (pow_nonneg om_pos.le _)).trans h2
  have e : (k:ℝ) * (1 / 2 ^ 53) = k / 2 ^ 53 := by ring
  rw [e] at h3
  have ht : (k:ℝ) / 2 ^ 53 ≤ 1.2e-4 := by
    rw [div_le_iff₀ (by positivity)]; refine h.trans (by norm_num)
  have ht0 : (0:ℝ) ≤ k / 2 ^ 53 := by positivity
  generalize (k:ℝ) / 2 ^ 53 = t at *
  norm_num at ht ⊢
  have : om ^ k ≤ 1 / (1 - t) := by rw [le_div_iff₀ (by linarith)]; exact h3
  refine this.trans ?_
  rw [div_le_iff₀ (by linarith)]
  nlinarith

theorem om_half {k : ℕ} (h : (k:ℝ) ≤ 1e12) : om ^ k - 1 ≤ 1.3e-4 := by
  have h1 := om_le h
  have ht : (k:ℝ) / 2 ^ 53 ≤ 1.2e-4 := by
    rw [div_le_iff₀ (by positivity)]; refine h.trans (by norm_num)
  norm_num at *
  linarith

theorem gr_round {a : F64} {x A : ℝ} {k : ℕ} (hv : a.val = RN x) (hA : Mid A) (hk : (k:ℝ) ≤ 1e12) (hx : |x - A| ≤ (om ^ k - 1) * A) :
    Rel a A (om ^ (k + 1) - 1) := by
  have h := rel_round hv hA ((om_half hk).trans (by norm_num)) hx
  refine h.mono (le_of_eq ?_)
  rw [pow_succ om k]
  generalize om ^ k = w
  unfold om; ring

theorem gr_mul {a b : F64} {A B : ℝ} {k l : ℕ} (ha : Rel a A (om ^ k - 1)) (hb : Rel b B (om ^ l - 1)) (hm : Mid (A * B))
    (hk : ((k + l : ℕ):ℝ) ≤ 1e12) : Rel (a * b) (A * B) (om ^ (k + l + 1) - 1) := by
  refine gr_round (mul_spec ha.fin hb.fin).2.1 hm hk ?_
  have h1 : |a.val * b.val - A * B| ≤ |a.val - A| * |b.val - B| + |a.val - A| * B + A * |b.val - B| := by
    rw [show a.val * b.val - A * B = (a.val - A) * (b.val - B) + (a.val - A) * B + A * (b.val - B) by ring]
    refine (abs_add_three _ _ _).trans ?_
    rw [abs_mul, abs_mul, abs_mul, abs_of_pos ha.pos, abs_of_pos hb.pos]
  have a1 := mul_le_mul ha.err hb.err (abs_nonneg _) ((abs_nonneg _).trans ha.err)
  have a2 := mul_le_mul_of_nonneg_right ha.err hb.pos.le
  have a3 := mul_le_mul_of_nonneg_left hb.err ha.pos.le
  refine h1.trans ((add_le_add (add_le_add a1 a2) a3).trans (le_of_eq ?_))
  rw [pow_add]; ring

/-- the summand `b` may be zero -/
theorem gr_add {a b : F64} {A B : ℝ} {k : ℕ} (ha : Rel a A (om ^ k - 1)) (hf : b.isFin = true)
    (hb : |b.val - B| ≤ (om ^ k - 1) * B) (hm : Mid (A + B)) (hk : (k:ℝ) ≤ 1e12) : Rel (a + b) (A + B) (om ^ (k + 1) - 1) := by
  refine gr_round (add_spec ha.fin hf).2 hm hk ?_
  rw [show a.val + b.val - (A + B) = (a.val - A) + (b.val - B) by ring]
  refine (abs_add_le _ _).trans ?_
  have := ha.err
  linarith

theorem gr_mono {a : F64} {A : ℝ} {k l : ℕ} (h : Rel a A (om ^ k - 1)) (hkl : k ≤ l) : Rel a A (om ^ l - 1) :=
  h.mono (sub_le_sub_right (om_mono hkl) 1)

theorem gr_exact {a : F64} (hf : a.isFin = true) (h0 : 0 < a.val) : Rel a a.val (om ^ 0 - 1) :=
  ⟨hf, h0, by rw [sub_self, abs_zero, pow_zero, sub_self, zero_mul]⟩

/-! ## frexp, ldexp -/

theorem zp512 : (2:ℝ) ^ (-IEXP) = 1 / 2 ^ 512 := by
  unfold IEXP; rw [zpow_neg, one_div]; norm_cast

/-- the rescaling test -/
theorem big_iff {a : F64} (hf : a.isFin = true) (h0 : 1 / 2 ^ 1000 ≤ a.val) : decide (IEXP < (Arith.frexp a).2) = true ↔ 2 ^ 512 ≤ a.val := by
  have hp : 0 < a.val := lt_of_lt_of_le (by positivity) h0
  have hN : a.Normal := ⟨hf, by
    rw [abs_of_pos hp]; refine le_trans ?_ h0
    rw [one_div, ← zpow_natCast, ← zpow_neg]
    exact zpow_le_zpow_right₀ (by norm_num) (by norm_num)⟩
  obtain ⟨h1, h2, -, h4, -⟩ := frexp_exact_partial a hN
  rw [ar_frexp, decide_eq_true_eq]
  generalize (F64.frexp a).2 = e at *
  generalize (F64.frexp a).1.val = f at *
  have hz : (0:ℝ) < 2 ^ e := by positivity
  have hfp : 0 < f := by
    by_contra h; push Not at h
    have := mul_nonpos_of_nonpos_of_nonneg h hz.le
    linarith
  rw [abs_of_pos hfp] at h1 h2
  unfold IEXP
  constructor
  · intro h
    rw [h4]
    have : (2:ℝ) ^ (513:ℤ) ≤ 2 ^ e := zpow_le_zpow_right₀ (by norm_num) (by omega)
    have e1 : (2:ℝ) ^ (513:ℤ) = 2 * 2 ^ 512 := by rw [show (513:ℤ) = ((512 + 1 : ℕ):ℤ) by norm_num, zpow_natCast, pow_succ']
    rw [e1] at this
    nlinarith
  · intro h
    by_contra hc
    have : (2:ℝ) ^ e ≤ 2 ^ (512:ℤ) := zpow_le_zpow_right₀ (by norm_num) (by omega)
    have e1 : (2:ℝ) ^ (512:ℤ) = 2 ^ 512 := by rw [show (512:ℤ) = ((512 : ℕ):ℤ) by norm_num, zpow_natCast]
    rw [e1] at this
    rw [h4] at h
    generalize (2:ℝ) ^ 512 = w at *
    nlinarith

/-- rescaling is exact on normal results -/
theorem scale_exact {a : F64} (hf : a.isFin = true) (h0 : 1 / 2 ^ 1022 ≤ a.val / 2 ^ 512) :
    (Arith.ldexp a (-IEXP)).isFin = true ∧ (Arith.ldexp a (-IEXP)).val = a.val / 2 ^ 512 := by
  have w : (0:ℝ) < 2 ^ 512 := by positivity
  have hp : 0 < a.val / 2 ^ 512 := lt_of_lt_of_le (by positivity) h0
  have hp2 : 0 < a.val := by rw [lt_div_iff₀ w, zero_mul] at hp; exact hp
  have hz : (2:ℝ) ^ (-1022 : ℤ) = 1 / 2 ^ 1022 := by rw [zpow_neg, one_div]; norm_cast
  have hle : a.val / 2 ^ 512 ≤ a.val := div_le_self hp2.le (one_le_pow₀ (by norm_num))
  have hH := isFin_iff_val.1 hf
  rw [abs_of_pos hp2] at hH
  have h := ldexp_exact_partial a (-IEXP) ⟨hf, by rw [abs_of_pos hp2, hz]; exact h0.trans hle⟩
    (by rw [zp512, mul_one_div, abs_of_pos hp, hz]; exact h0) (by rw [zp512, mul_one_div, abs_of_pos hp]; exact lt_of_le_of_lt hle hH)
  rw [zp512, mul_one_div] at h
  exact ⟨h.2.1, h.1⟩

theorem scale_zero : (Arith.ldexp (0.0 : F64) (-IEXP)) = (0.0 : F64) := by decide +kernel

end Bes
end Verif
