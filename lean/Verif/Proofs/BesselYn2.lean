import Verif.Proofs.BesselYn

/-! Bounds of `J_0`, `J_1`, `Y_0`, `Y_1`, and of the coefficients of an error that runs through the recurrence. -/

namespace Verif
namespace Bes
open ZPoly Real

/-- `f0' = -f1`, `f1' = f0 - f1/x` for `x ≥ 8`: `x (f0² + f1²) - f0 f1` hardly grows -/
theorem amp_bound {f0 f1 : ℝ → ℝ} (h0 : ∀ x, 0 < x → HasDerivAt f0 (-f1 x) x) (h1 : ∀ x, 0 < x → HasDerivAt f1 (f0 x - f1 x / x) x)
    {x : ℝ} (hx : 8 ≤ x) : x * (f0 x ^ 2 + f1 x ^ 2) ≤ 1.1415 * (8 * (f0 8 ^ 2 + f1 8 ^ 2) - f0 8 * f1 8) := by
  set F : ℝ → ℝ := fun x => x * (f0 x ^ 2 + f1 x ^ 2) - f0 x * f1 x with hF
  have hG : ∀ x, 8 ≤ x → 15 / 16 * (x * (f0 x ^ 2 + f1 x ^ 2)) ≤ F x := by
    intro x hx
    have h1 : f0 x * f1 x ≤ (f0 x ^ 2 + f1 x ^ 2) / 2 := by nlinarith [sq_nonneg (f0 x - f1 x)]
    have h2 : 8 * (f0 x ^ 2 + f1 x ^ 2) ≤ x * (f0 x ^ 2 + f1 x ^ 2) := mul_le_mul_of_nonneg_right hx (by positivity)
    simp only [hF]
    linarith
  have hdF : ∀ x, 8 ≤ x → HasDerivAt F (f0 x * f1 x / x) x := by
    intro x hx
    have hx0 : 0 < x := by linarith
    have d := ((hasDerivAt_id x).mul (((h0 x hx0).pow 2).add ((h1 x hx0).pow 2))).sub ((h0 x hx0).mul (h1 x hx0))
    refine d.congr_deriv ?_
    simp only [id, Pi.add_apply, Pi.pow_apply]
    field_simp
    ring
  have hdE : ∀ x, 8 ≤ x → HasDerivAt (fun x : ℝ => exp (8 / 15 / x)) (exp (8 / 15 / x) * (-(8 / 15) / x ^ 2)) x := by
    intro x hx
    have hx0 : x ≠ 0 := by linarith
    have d := ((hasDerivAt_inv hx0).const_mul (8 / 15 : ℝ)).exp
    refine d.congr_deriv ?_
    rw [div_eq_mul_inv (8 / 15 : ℝ) x]
    ring
  have hA : AntitoneOn (fun x => F x * exp (8 / 15 / x)) (Set.Ici 8) := by
    refine antitoneOn_of_deriv_nonpos (convex_Ici 8) (fun x hx => ((hdF x hx).mul (hdE x hx)).continuousAt.continuousWithinAt) ?_ ?_
    · intro x hx
      rw [interior_Ici] at hx
      exact ((hdF x hx.le).mul (hdE x hx.le)).differentiableAt.differentiableWithinAt
    · intro x hx
      rw [interior_Ici] at hx
      have hx8 : 8 ≤ x := le_of_lt hx
      have hx0 : 0 < x := by linarith
      have hd : deriv (fun x => F x * exp (8 / 15 / x)) x = _ := ((hdF x hx8).mul (hdE x hx8)).deriv
      rw [hd]
      have hg := hG x hx8
      have h1 : f0 x * f1 x ≤ (f0 x ^ 2 + f1 x ^ 2) / 2 := by nlinarith [sq_nonneg (f0 x - f1 x)]
      have e : f0 x * f1 x / x * exp (8 / 15 / x) + F x * (exp (8 / 15 / x) * (-(8 / 15) / x ^ 2)) =
          exp (8 / 15 / x) / x ^ 2 * (x * (f0 x * f1 x) - 8 / 15 * F x) := by field_simp; ring
      rw [e]
      refine mul_nonpos_of_nonneg_of_nonpos (by positivity) ?_
      have := mul_le_mul_of_nonneg_left h1 hx0.le
      linarith
  have a := hA (Set.mem_Ici.2 le_rfl) (Set.mem_Ici.2 hx) hx
  simp only at a
  have hx0 : 0 < x := by linarith
  have hFx : 0 ≤ F x := le_trans (by positivity) (hG x hx)
  have hF8 : 0 ≤ F 8 := le_trans (by positivity) (hG 8 le_rfl)
  have e1 : 1 ≤ exp (8 / 15 / x) := one_le_exp (by positivity)
  have e2 : exp (8 / 15 / 8) ≤ 1.07 := by
    have := Real.exp_bound' (x := 8 / 15 / 8) (by norm_num) (by norm_num) (n := 3) (by norm_num)
    refine this.trans ?_
    norm_num [Finset.sum_range_succ, Nat.factorial]
  have e3 : F x ≤ F x * exp (8 / 15 / x) := le_mul_of_one_le_right hFx e1
  have e4 : F 8 * exp (8 / 15 / 8) ≤ F 8 * 1.07 := by gcongr
  have hg := hG x hx
  have h8 : F 8 = 8 * (f0 8 ^ 2 + f1 8 ^ 2) - f0 8 * f1 8 := rfl
  rw [← h8]
  linarith

theorem sq_two {a b c : ℝ} (h : a ^ 2 + b ^ 2 ≤ c ^ 2 / 2) (hc : 0 ≤ c) : |a| + |b| ≤ c := by
  refine abs_le_of_sq_le_sq' ?_ hc |>.2
  nlinarith [sq_nonneg (|a| - |b|), sq_abs a, sq_abs b]

theorem J_amp2 {x : ℝ} (hx : 8 ≤ x) : x * (besselJR 0 x ^ 2 + besselJR 1 x ^ 2) ≤ 0.73 := by
  have h := amp_bound (f0 := besselJR 0) (f1 := besselJR 1) (fun x _ => J0_deriv x) (fun x hx => J1_deriv hx.ne') hx
  have j0 := abs_le.1 J0_8
  have j1 := abs_le.1 J1_8
  have b : 8 * (besselJR 0 8 ^ 2 + besselJR 1 8 ^ 2) - besselJR 0 8 * besselJR 1 8 ≤ 0.637 := by
    have a0 : 0.17165 ≤ besselJR 0 8 := by linarith [j0.1]
    have a1 : besselJR 0 8 ≤ 0.17166 := by linarith [j0.2]
    have a2 : 0.23463 ≤ besselJR 1 8 := by linarith [j1.1]
    have a3 : besselJR 1 8 ≤ 0.23464 := by linarith [j1.2]
    nlinarith [mul_le_mul a0 a2 (by norm_num) (by linarith)]
  linarith

theorem J_amp {x : ℝ} (hx : 8 ≤ x) : √x * (|besselJR 0 x| + |besselJR 1 x|) ≤ 1.21 := by
  have h := J_amp2 hx
  have hs : √x ^ 2 = x := Real.sq_sqrt (by linarith)
  have k := sq_two (a := √x * besselJR 0 x) (b := √x * besselJR 1 x) (c := 1.21) (by
    rw [mul_pow, mul_pow, hs]; norm_num at *; linarith) (by norm_num)
  rw [abs_mul, abs_mul, abs_of_nonneg (Real.sqrt_nonneg x)] at k
  linarith

theorem Y_amp2 {x : ℝ} (hx : 8 ≤ x) : x * (besselYR 0 x ^ 2 + besselYR 1 x ^ 2) ≤ 0.73 := by
  have h := amp_bound (f0 := besselYR 0) (f1 := besselYR 1) (fun x hx => Y0_deriv hx) (fun x hx => Y1_deriv hx) hx
  have j0 := abs_le.1 Y0_8
  have j1 := abs_le.1 Y1_8
  have b : 8 * (besselYR 0 8 ^ 2 + besselYR 1 8 ^ 2) - besselYR 0 8 * besselYR 1 8 ≤ 0.637 := by
    have a0 : 0.22352 ≤ besselYR 0 8 := by linarith [j0.1]
    have a1 : besselYR 0 8 ≤ 0.22353 := by linarith [j0.2]
    have a2 : 0.15806 ≤ -besselYR 1 8 := by linarith [j1.2]
    have a3 : -besselYR 1 8 ≤ 0.15807 := by linarith [j1.1]
    nlinarith [mul_le_mul a1 a3 (by linarith) (by norm_num)]
  linarith

theorem Y_amp {x : ℝ} (hx : 8 ≤ x) : √x * (|besselYR 0 x| + |besselYR 1 x|) ≤ 1.21 := by
  have h := Y_amp2 hx
  have hs : √x ^ 2 = x := Real.sq_sqrt (by linarith)
  have k := sq_two (a := √x * besselYR 0 x) (b := √x * besselYR 1 x) (c := 1.21) (by
    rw [mul_pow, mul_pow, hs]; norm_num at *; linarith) (by norm_num)
  rw [abs_mul, abs_mul, abs_of_nonneg (Real.sqrt_nonneg x)] at k
  linarith

/-- errors `δ/√x` in the two first values, `x ≥ 8` -/
theorem ca_right {x e0 e1 δ : ℝ} (hx : 8 ≤ x) (h0 : |e0| ≤ δ / √x) (h1 : |e1| ≤ δ / √x) : |caJ x e0 e1| ≤ 1.91 * δ ∧ |caY x e0 e1| ≤ 1.91 * δ := by
  have hx0 : 0 < x := by linarith
  have hs : 0 < √x := Real.sqrt_pos.2 hx0
  have hss : √x * √x = x := Real.mul_self_sqrt hx0.le
  rw [le_div_iff₀ hs] at h0 h1
  have hp : π / 2 ≤ 1.5708 := by linarith [Real.pi_lt_d6]
  have hδ : 0 ≤ δ := le_trans (by positivity) h0
  have key : ∀ A B, √x * (|A| + |B|) ≤ 1.21 → |π * x / 2 * (e1 * A - e0 * B)| ≤ 1.91 * δ := by
    intro A B h
    have e : π * x / 2 * (e1 * A - e0 * B) = π / 2 * ((e1 * √x) * (√x * A) - (e0 * √x) * (√x * B)) := by
      rw [show (e1 * √x) * (√x * A) - (e0 * √x) * (√x * B) = (√x * √x) * (e1 * A - e0 * B) by ring, hss]; ring
    have t := abs_sub ((e1 * √x) * (√x * A)) ((e0 * √x) * (√x * B))
    rw [abs_mul (e1 * √x), abs_mul (e0 * √x), abs_mul e1, abs_mul e0, abs_mul (√x) A, abs_mul (√x) B, abs_of_pos hs] at t
    have a1 := mul_le_mul_of_nonneg_right h1 (by positivity : 0 ≤ √x * |A|)
    have a0 := mul_le_mul_of_nonneg_right h0 (by positivity : 0 ≤ √x * |B|)
    have a2 := mul_le_mul_of_nonneg_left h hδ
    rw [e, abs_mul, abs_of_pos (by positivity)]
    calc π / 2 * |(e1 * √x) * (√x * A) - (e0 * √x) * (√x * B)| ≤ 1.5708 * (δ * 1.21) := by
          gcongr
          linarith
      _ ≤ _ := by linarith
  constructor
  · exact key _ _ (Y_amp hx)
  · have := key (besselJR 0 x) (besselJR 1 x) (J_amp hx)
    unfold caY
    rw [← abs_neg]
    refine le_trans (le_of_eq ?_) this
    congr 1; ring

/-! ## below 8 -/

theorem W0_pc : chkAll 0 [18 * WL0] (smul 10 W0z) 1 32 = true := by decide +kernel
theorem W1_pc : chkAll 0 [13 * WL1] (smul 10 W1z) 4 8 = true := by decide +kernel

theorem W0_le {x : ℝ} (h0 : 0 < x) (h8 : x < 8) : |Wn 0 (-(x ^ 2 / 4))| ≤ 1.81 := by
  have hy : x ^ 2 < 64 := by nlinarith
  have h := chkAll_sound 0 _ _ 1 (x ^ 2) 32 W0_pc (sq_nonneg x) (by norm_num; exact hy)
  rw [ev_smul] at h
  have p := Wn_poly 0 (by norm_num) _ WL0_pos _ W0_ok W0_len (sq_nonneg x) hy.le
  have hL : (0:ℝ) < WL0 := by exact_mod_cast WL0_pos
  have b : |ev W0z (x ^ 2) / WL0| ≤ 1.8 := by
    rw [abs_div, abs_of_pos hL, div_le_iff₀ hL]
    rw [abs_mul] at h
    simp only [ev] at h
    push_cast at h
    norm_num at h ⊢
    linarith
  have t := abs_add_le (Wn 0 (-(x ^ 2 / 4)) - ev W0z (x ^ 2) / WL0) (ev W0z (x ^ 2) / WL0)
  rw [sub_add_cancel] at t
  norm_num at *
  linarith

theorem W1_le {x : ℝ} (h0 : 0 < x) (h8 : x < 8) : |Wn 1 (-(x ^ 2 / 4))| ≤ 1.31 := by
  have hy : x ^ 2 < 64 := by nlinarith
  have h := chkAll_sound 0 _ _ 4 (x ^ 2) 8 W1_pc (sq_nonneg x) (by norm_num; exact hy)
  rw [ev_smul] at h
  have p := Wn_poly 1 (by norm_num) _ WL1_pos _ W1_ok W1_len (sq_nonneg x) hy.le
  have hL : (0:ℝ) < WL1 := by exact_mod_cast WL1_pos
  have b : |ev W1z (x ^ 2) / WL1| ≤ 1.3 := by
    rw [abs_div, abs_of_pos hL, div_le_iff₀ hL]
    rw [abs_mul] at h
    simp only [ev] at h
    push_cast at h
    norm_num at h ⊢
    linarith
  have t := abs_add_le (Wn 1 (-(x ^ 2 / 4)) - ev W1z (x ^ 2) / WL1) (ev W1z (x ^ 2) / WL1)
  rw [sub_add_cancel] at t
  norm_num at *
  linarith

theorem Y0_le {x : ℝ} (h0 : 0 < x) (h8 : x < 8) : |besselYR 0 x| ≤ 0.64 * (1 + |log x|) := by
  have J := (BesX.J_le_one x).1
  have p := twopi_le
  have p0 : 0 < 2 / π := by positivity
  have W := W0_le h0 h8
  have g := qg_close
  have l0 := abs_nonneg (log x)
  have a1 : |2 / π * besselJR 0 x * log x| ≤ 0.637 * 1 * |log x| := by
    rw [abs_mul, abs_mul, abs_of_pos p0]; gcongr
  have a2 : |1 / π * Wn 0 (-(x ^ 2 / 4))| ≤ 0.3185 * 1.81 := by
    rw [abs_mul, abs_of_pos (by positivity), show 1 / π = 2 / π / 2 by ring]; gcongr; linarith
  have a3 : |2 / π * ((Real.eulerMascheroniConstant - Real.log 2 - qg) * besselJR 0 x)| ≤ 0.637 * (3e-17 * 1) := by
    rw [abs_mul, abs_mul, abs_of_pos p0]; gcongr
  rw [Y0_split h0]
  have t1 := abs_add_le (2 / π * besselJR 0 x * log x + 1 / π * Wn 0 (-(x ^ 2 / 4))) (2 / π * ((Real.eulerMascheroniConstant - Real.log 2 - qg) * besselJR 0 x))
  have t2 := abs_add_le (2 / π * besselJR 0 x * log x) (1 / π * Wn 0 (-(x ^ 2 / 4)))
  linarith

theorem Y1_le {x : ℝ} (h0 : 0 < x) (h8 : x < 8) : x * |besselYR 1 x| ≤ 1.67 * (1 + x) * (1 + |log x|) := by
  have J := (BesX.J_le_one x).2
  have p := twopi_le
  have p0 : 0 < 2 / π := by positivity
  have W := W1_le h0 h8
  have g := qg_close
  have l0 := abs_nonneg (log x)
  have e : x * besselYR 1 x = 2 / π * (besselJR 1 x * (x * log x) - 1) + x * (x * (1 / (2 * π) * Wn 1 (-(x ^ 2 / 4)))) +
    x * (2 / π * ((Real.eulerMascheroniConstant - Real.log 2 - qg) * besselJR 1 x)) := by
    rw [Y1_split h0]; field_simp
  have a1 : |2 / π * (besselJR 1 x * (x * log x) - 1)| ≤ 0.637 * (x * |log x| + 1) := by
    rw [abs_mul, abs_of_pos p0]
    have t := abs_sub (besselJR 1 x * (x * log x)) 1
    rw [abs_mul, abs_mul, abs_one, abs_of_pos h0] at t
    have : |besselJR 1 x| * (x * |log x|) ≤ 1 * (x * |log x|) := by gcongr
    gcongr
    linarith
  have a2 : |x * (x * (1 / (2 * π) * Wn 1 (-(x ^ 2 / 4))))| ≤ x * (8 * (0.15925 * 1.31)) := by
    rw [abs_mul, abs_mul, abs_mul, abs_of_pos h0, abs_of_pos (by positivity : 0 < 1 / (2 * π)), show 1 / (2 * π) = 2 / π / 4 by field_simp; norm_num]
    gcongr
    linarith
  have a3 : |x * (2 / π * ((Real.eulerMascheroniConstant - Real.log 2 - qg) * besselJR 1 x))| ≤ x * (0.637 * (3e-17 * 1)) := by
    rw [abs_mul, abs_mul, abs_mul, abs_of_pos p0, abs_of_pos h0]; gcongr
  have ea : x * |besselYR 1 x| = |x * besselYR 1 x| := by rw [abs_mul, abs_of_pos h0]
  rw [ea, e]
  have t1 := abs_add_le (2 / π * (besselJR 1 x * (x * log x) - 1) + x * (x * (1 / (2 * π) * Wn 1 (-(x ^ 2 / 4)))))
    (x * (2 / π * ((Real.eulerMascheroniConstant - Real.log 2 - qg) * besselJR 1 x)))
  have t2 := abs_add_le (2 / π * (besselJR 1 x * (x * log x) - 1)) (x * (x * (1 / (2 * π) * Wn 1 (-(x ^ 2 / 4)))))
  have xl : 0 ≤ x * |log x| := by positivity
  linarith

/-- errors in the two first values, `x < 8` -/
theorem ca_left {x e0 e1 α β : ℝ} (h0 : 0 < x) (h8 : x < 8) (hα : 0 ≤ α) (hβ : 0 ≤ β) (h1 : |e0| ≤ α * (1 + |log x|))
    (h2 : x * |e1| ≤ β * (1 + x) * (1 + |log x|)) :
    |caJ x e0 e1| ≤ (2.63 * α + 1.01 * β) * (1 + x) * (1 + |log x|) ^ 2 ∧ |caY x e0 e1| ≤ 1.571 * (α + β) * (1 + x) * (1 + |log x|) := by
  have J := BesX.J_le_one x
  have y0 := Y0_le h0 h8
  have y1 := Y1_le h0 h8
  have l0 := abs_nonneg (log x)
  set P := 1 + |log x| with hP
  have hP0 : 0 ≤ P := by linarith
  have hp : π / 2 ≤ 1.571 := by linarith [Real.pi_lt_d6]
  constructor
  · have e : caJ x e0 e1 = π / 2 * ((x * e1) * besselYR 0 x - e0 * (x * besselYR 1 x)) := by unfold caJ; ring
    have t := abs_sub ((x * e1) * besselYR 0 x) (e0 * (x * besselYR 1 x))
    rw [abs_mul (x * e1), abs_mul x e1, abs_mul e0, abs_mul x, abs_of_pos h0] at t
    have a1 : x * |e1| * |besselYR 0 x| ≤ (β * (1 + x) * P) * (0.64 * P) := by gcongr
    have a2 : |e0| * (x * |besselYR 1 x|) ≤ (α * P) * (1.67 * (1 + x) * P) := by gcongr
    rw [e, abs_mul, abs_of_pos (by positivity)]
    have hPP : 0 ≤ (1 + x) * P ^ 2 := by positivity
    calc π / 2 * |(x * e1) * besselYR 0 x - e0 * (x * besselYR 1 x)| ≤ 1.571 * ((β * (1 + x) * P) * (0.64 * P) + (α * P) * (1.67 * (1 + x) * P)) := by
          gcongr; linarith
      _ = (1.571 * 0.64 * β + 1.571 * 1.67 * α) * ((1 + x) * P ^ 2) := by ring
      _ ≤ (2.63 * α + 1.01 * β) * ((1 + x) * P ^ 2) := mul_le_mul_of_nonneg_right (by linarith) hPP
      _ = _ := by ring
  · have e : caY x e0 e1 = π / 2 * (x * (e0 * besselJR 1 x) - (x * e1) * besselJR 0 x) := by unfold caY; ring
    have t := abs_sub (x * (e0 * besselJR 1 x)) ((x * e1) * besselJR 0 x)
    rw [abs_mul x (e0 * _), abs_mul (x * e1), abs_mul x e1, abs_mul e0, abs_of_pos h0] at t
    have a1 : x * |e1| * |besselJR 0 x| ≤ (β * (1 + x) * P) * 1 := by gcongr; exact J.1
    have a2 : x * (|e0| * |besselJR 1 x|) ≤ (1 + x) * ((α * P) * 1) := by gcongr; linarith; exact J.2
    rw [e, abs_mul, abs_of_pos (by positivity)]
    calc π / 2 * |x * (e0 * besselJR 1 x) - (x * e1) * besselJR 0 x| ≤ 1.571 * ((β * (1 + x) * P) * 1 + (1 + x) * ((α * P) * 1)) := by
          gcongr; linarith
      _ = _ := by ring

end Bes
end Verif
