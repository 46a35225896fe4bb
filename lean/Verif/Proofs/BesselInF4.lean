import Verif.Proofs.BesselInF3
import Verif.Proofs.BesselF3
import Verif.Proofs.Bessel

namespace Verif
namespace Bes
open F64

theorem I0_le_exp {x : ℝ} (hx : 0 ≤ x) : besselIR 0 x ≤ Real.exp x := by
  have hm : AntitoneOn (fun x => Real.exp (-x) * besselIR 0 x) (Set.Ici 0) := by
    have hd : ∀ y, 0 < y → HasDerivAt (fun x => Real.exp (-x) * besselIR 0 x) (Real.exp (-y) * (besselIR 1 y - besselIR 0 y)) y := by
      intro y hy
      have h := ((hasDerivAt_neg y).exp).mul (I_deriv 0 hy.ne')
      refine h.congr_deriv ?_
      push_cast; ring
    refine antitoneOn_of_deriv_nonpos (convex_Ici 0) ?_ ?_ ?_
    · exact ((Real.continuous_exp.comp continuous_neg).mul (I_cont 0)).continuousOn
    · intro y hy
      rw [interior_Ici] at hy
      exact (hd y hy).differentiableAt.differentiableWithinAt
    · intro y hy
      rw [interior_Ici] at hy
      have hy' : (0:ℝ) < y := hy
      rw [(hd y hy).deriv]
      exact mul_nonpos_of_nonneg_of_nonpos (Real.exp_pos _).le (by linarith [I_anti 0 hy'.le])
  have h := hm (Set.mem_Ici.2 le_rfl) (Set.mem_Ici.2 hx) hx
  simp only [neg_zero, Real.exp_zero, one_mul] at h
  have z : besselIR 0 0 = 1 := by
    rw [besselIR_eq, show (0:ℝ) ^ 2 / 4 = 0 by norm_num]
    unfold SB
    rw [tsum_eq_single 0 (by intro k hk; simp [hk])]
    simp
  rw [z, Real.exp_neg, inv_mul_eq_div, div_le_one (Real.exp_pos x)] at h
  exact h

theorem I0_ge_one (x : ℝ) : 1 ≤ besselIR 0 x := by
  rw [besselIR_eq, pow_zero, one_mul]; exact sb_ge_one 0 (by norm_num) (by positivity)

theorem tox_rel {x : F64} (h0 : 1 / 2 ^ 400 ≤ |x.val|) (h1 : |x.val| ≤ 690) : Rel (2.0 / x.abs) (2 / |x.val|) (om ^ 1 - 1) := by
  have hx0 : 0 < |x.val| := lt_of_lt_of_le (by positivity) h0
  have hf : x.isFin = true := isFin_of_abs h1 (by norm_num)
  have e2 : (2.0 : F64).val = 2 := by rw [val_of_int (x := (2.0 : F64)) 2 (by decide +kernel)]; norm_num
  have hv := val_abs x
  have hd := (div_spec (a := 2.0) (b := x.abs) (by decide +kernel) (by rw [isFin_abs]; exact hf) (by rw [hv]; exact hx0.ne')).2.1
  rw [e2, hv] at hd
  refine gr_round (k := 0) hd ⟨?_, ?_⟩ (by norm_num) (by simp)
  · rw [div_le_div_iff₀ (by positivity) hx0, one_mul]
    refine h1.trans ?_
    calc (690:ℝ) ≤ 2 ^ 10 := by norm_num
      _ ≤ 2 ^ 1000 := pow_le_pow_right₀ (by norm_num) (by norm_num)
      _ ≤ 2 * 2 ^ 1000 := le_mul_of_one_le_left (by positivity) (by norm_num)
  · rw [div_le_iff₀ hx0]
    have := mul_le_mul_of_nonneg_left h0 (by positivity : (0:ℝ) ≤ 2 ^ 1000)
    refine le_trans ?_ this
    rw [mul_one_div, show (1000:ℕ) = 600 + 400 from rfl, pow_add, mul_div_cancel_right₀ _ (by positivity)]
    calc (2:ℝ) = 2 ^ 1 := by norm_num
      _ ≤ 2 ^ 600 := pow_le_pow_right₀ (by norm_num) (by norm_num)

/-- `2^-800` -/
def c800 : F64 := ⟨false, 223 * 2 ^ 52, by decide⟩
theorem c800_val : c800.val = 1 / 2 ^ 800 := by
  have := val_of_sv (x := c800) 1 (2 ^ 800) (by positivity) (by decide +kernel)
  rw [this]; push_cast; rfl

theorem not_cut {x : F64} (h0 : 1 / 2 ^ 400 ≤ |x.val|) (h1 : |x.val| ≤ 690) : ¬ F64.le (x * x) (8.0 * Arith.minPos) = true := by
  have hf : x.isFin = true := isFin_of_abs h1 (by norm_num)
  intro hle
  have h2 := (le_iff.1 hle).2.2
  have h3 : (8.0 * Arith.minPos : F64).val < c800.val := (lt_iff.1 (by decide +kernel : F64.lt (8.0 * Arith.minPos) c800 = true)).2.2
  rw [(mul_spec hf hf).2.1] at h2
  have h4 : RN (1 / 2 ^ 800) ≤ RN (x.val * x.val) := by
    refine RN_mono ?_
    have := mul_self_le_mul_self (by positivity) h0
    rw [abs_mul_abs_self] at this
    refine le_trans (le_of_eq ?_) this
    rw [div_mul_div_comm, one_mul, ← pow_add]
  rw [← c800_val, RN_val (a := c800) (by decide +kernel)] at h4
  linarith

end Bes
end Verif
