import Verif.Proofs.BesselYnF2

/-! Initial errors of the upward recurrence for `Y_n`, and its error for small `x`. -/

namespace Verif
namespace Bes
open Real

theorem xP_le {x : ℝ} (h0 : 0 < x) (h1 : x ≤ 1) : x * (1 + |log x|) ≤ 1 := by
  have l := Real.one_sub_inv_le_log_of_pos h0
  rw [abs_of_nonpos (Real.log_nonpos h0.le h1)]
  have : x * (1 + -log x) ≤ x * x⁻¹ := mul_le_mul_of_nonneg_left (by linarith) h0.le
  rwa [mul_inv_cancel₀ h0.ne'] at this

theorem J0_ge {x : ℝ} (h0 : 0 < x) (h1 : x ≤ 1) : 0.7 ≤ besselJR 0 x := by
  have hv : |-(x ^ 2 / 4)| ≤ 1 / 4 := by
    rw [abs_neg, abs_of_nonneg (by positivity)]; nlinarith
  have h := sb_trunc 0 1 (-(x ^ 2 / 4)) (by norm_num at *; linarith)
  have p : |-(x ^ 2 / 4)| ^ 2 ≤ (1 / 4) ^ 2 := pow_le_pow_left₀ (abs_nonneg _) hv 2
  rw [besselJR_eq]
  simp only [hs, Nat.factorial, pow_zero, one_mul] at h ⊢
  norm_num at h p ⊢
  have := (abs_le.1 h).1
  nlinarith

theorem J1_le {x : ℝ} (h0 : 0 < x) (h1 : x ≤ 1) : besselJR 1 x ≤ x / 2 := by
  have hv : |-(x ^ 2 / 4)| ≤ 1 / 4 := by
    rw [abs_neg, abs_of_nonneg (by positivity)]; nlinarith
  have h := sb_trunc 1 1 (-(x ^ 2 / 4)) (by norm_num at *; linarith)
  rw [abs_neg, abs_of_nonneg (by positivity : 0 ≤ x ^ 2 / 4)] at h
  rw [besselJR_eq]
  simp only [hs, Nat.factorial] at h
  norm_num at h ⊢
  have h2 := (abs_le.1 h).2
  have : SB 1 (-(x ^ 2 / 4)) ≤ 1 := by
    have e : x ^ 2 ≤ 1 := by nlinarith
    nlinarith [sq_nonneg x]
  have := mul_le_mul_of_nonneg_left this (by positivity : 0 ≤ x / 2)
  linarith

/-- `J_n` is negligible beside `Y_n` for `x ≤ 1` -/
theorem J_small {x : ℝ} (h0 : 0 < x) (h1 : x ≤ 1) {n : ℕ} (hn : 1 ≤ n) : (1 + |log x|) ^ 2 * besselJR n x ≤ 2.9 * |besselYR n x| := by
  have xP := xP_le h0 h1
  have l0 := abs_nonneg (log x)
  set P := 1 + |log x| with hP
  have P1 : 1 ≤ P := by rw [hP]; linarith
  have hK0 : x ≤ ((0:ℕ):ℝ) + 1 := by norm_num; exact h1
  have hK1 : x ≤ ((1:ℕ):ℝ) + 1 := by norm_num; linarith
  have st := qq_step h0 hK0 le_rfl
  have jn := J_pos2 h0 hK0 (show 0 ≤ n by omega)
  have q1 := qq_ge h0 hK1 hn
  have jp := jj_pos h0 hK0 le_rfl
  have y0 := Y0_le h0 (by linarith)
  have j0 := J0_ge h0 h1
  have j1 := J1_le h0 h1
  have j1p := J_pos2 h0 hK0 (show 0 ≤ 1 by omega)
  have j0u := (abs_le.1 (BesX.J_le_one x).1).2
  have q0 : -(0.92 * P) ≤ qq x 0 := by
    have : |qq x 0| ≤ 0.92 * P := by
      unfold qq
      rw [abs_div, abs_neg, abs_of_pos (by linarith : 0 < besselJR 0 x), div_le_iff₀ (by linarith)]
      nlinarith
    linarith [neg_abs_le (qq x 0)]
  have ju : jj x 0 ≤ 0.7855 * x ^ 2 := by
    unfold jj
    have hp : π * x / 2 ≤ 1.571 * x := by nlinarith [Real.pi_lt_d6]
    calc π * x / 2 * (besselJR 0 x * besselJR (0 + 1) x) ≤ 1.571 * x * (1 * (x / 2)) := by
          have : 0 ≤ besselJR (0 + 1) x := j1p.le
          gcongr
      _ = _ := by ring
  set d := qq x (0 + 1) - qq x 0 with hd
  have d0 : 0 < d := by
    by_contra hc
    have := mul_nonpos_of_nonpos_of_nonneg (not_lt.1 hc) jp.le
    linarith
  have dx : 1 ≤ d * (0.7855 * x ^ 2) := by
    have := mul_le_mul_of_nonneg_left ju d0.le
    linarith
  have xP2 : x ^ 2 * P ≤ x * 1 := by nlinarith
  have PP : P ^ 2 * x ^ 2 ≤ 1 := by
    have := pow_le_pow_left₀ (by positivity) xP 2
    rw [mul_pow] at this; linarith
  -- `qq n ≥ 0.35/x²`
  have qn : 0.35 ≤ qq x n * x ^ 2 := by
    have a : d - 0.92 * P ≤ qq x n := by
      have : qq x (0 + 1) ≤ qq x n := q1
      linarith
    have b := mul_le_mul_of_nonneg_right a (sq_nonneg x)
    nlinarith
  have yn : qq x n * besselJR n x ≤ |besselYR n x| := by
    unfold qq
    rw [div_mul_cancel₀ _ jn.ne']
    exact neg_le_abs _
  have qq0 : 0 ≤ qq x n := by
    by_contra hc
    have := mul_nonpos_of_nonpos_of_nonneg (not_le.1 hc).le (sq_nonneg x)
    linarith
  have fin : P ^ 2 ≤ 2.9 * qq x n := by
    have x2 : 0 < x ^ 2 := by positivity
    by_contra hc
    have := mul_lt_mul_of_pos_right (not_le.1 hc) x2
    linarith
  calc P ^ 2 * besselJR n x ≤ 2.9 * qq x n * besselJR n x := mul_le_mul_of_nonneg_right fin jn.le
    _ = 2.9 * (qq x n * besselJR n x) := by ring
    _ ≤ _ := by linarith

/-- orders `n ≥ 1` for `x ≤ 1`: relative error -/
theorem yn_small {x : ℝ} {f : ℕ → ℝ} {n : ℕ} (h0 : 0 < x) (h1 : x ≤ 1) (hl : |log x| ≤ 1000) (hn : 1 ≤ n) (hn' : n ≤ 10 ^ 6)
    (hf : RStep x f (1 / 2 ^ 1073) (2 ^ 1010) n) (hY : ∀ j, j ≤ n → |besselYR j x| ≤ 2 ^ 1000)
    (e0 : |f 0 - besselYR 0 x| ≤ 2.9e-14 + 1.45e-14 * |log x|) (e1 : |f 1 - besselYR 1 x| ≤ 3.6e-14 + 1.45e-14 * |log x| + 7e-16 / x) :
    |f n - besselYR n x| ≤ (8e-13 + 160 * n * (n + 5) / 2 ^ 53) * |besselYR n x| := by
  have xP := xP_le h0 h1
  have l0 := abs_nonneg (log x)
  have xl : 0 ≤ x * |log x| := by positivity
  have hK0 : x ≤ ((0:ℕ):ℝ) + 1 := by norm_num; exact h1
  have jn := J_pos2 h0 hK0 (show 0 ≤ n by omega)
  have j1p := J_pos2 h0 hK0 (show 0 ≤ 1 by omega)
  have y0 := Y0_le h0 (by linarith)
  have j0 := J0_ge h0 h1
  have j1 := J1_le h0 h1
  have J := BesX.J_le_one x
  have js := J_small h0 h1 hn
  have xe1 : x * |f 1 - besselYR 1 x| ≤ 3.67e-14 := by
    have := mul_le_mul_of_nonneg_left e1 h0.le
    have e : x * (3.6e-14 + 1.45e-14 * |log x| + 7e-16 / x) = 3.6e-14 * x + 1.45e-14 * (x * |log x|) + 7e-16 := by field_simp
    rw [e] at this
    have : x * (1 + |log x|) = x + x * |log x| := by ring
    linarith
  obtain ⟨ca, -⟩ := ca_left (e0 := f 0 - besselYR 0 x) (e1 := f 1 - besselYR 1 x) h0 (by linarith) (α := 2.9e-14) (β := 3.67e-14) (by norm_num) (by norm_num)
    (by linarith) (by nlinarith)
  set P := 1 + |log x| with hP
  have P1 : 1 ≤ P := by rw [hP]; linarith
  have ha : |va x (fun i => f i - besselYR i x) 0| ≤ 2.3e-13 * P ^ 2 := by
    refine (show |va x (fun i => f i - besselYR i x) 0| ≤ _ from ca).trans ?_
    have : 0 ≤ P ^ 2 := by positivity
    nlinarith
  have hp : π * x / 2 ≤ 1.571 * x := by nlinarith [Real.pi_lt_d6]
  have hb : |vb x (fun i => f i - besselYR i x) 0| ≤ 8.3e-14 := by
    unfold vb
    rw [abs_mul, abs_of_nonneg (by positivity)]
    have t := abs_sub ((f 0 - besselYR 0 x) * besselJR (0 + 1) x) ((f (0 + 1) - besselYR (0 + 1) x) * besselJR 0 x)
    rw [abs_mul, abs_mul] at t
    have a1 : |f 0 - besselYR 0 x| * |besselJR (0 + 1) x| ≤ 2.9e-14 * P * (1 / 2) := by
      rw [abs_of_pos j1p]
      have : besselJR (0 + 1) x ≤ 1 / 2 := j1.trans (by linarith)
      refine mul_le_mul (by linarith) this j1p.le (by positivity)
    have a2 : |f (0 + 1) - besselYR (0 + 1) x| * |besselJR 0 x| ≤ |f 1 - besselYR 1 x| * 1 := mul_le_mul_of_nonneg_left J.1 (abs_nonneg _)
    calc π * x / 2 * |(f 0 - besselYR 0 x) * besselJR (0 + 1) x - (f (0 + 1) - besselYR (0 + 1) x) * besselJR 0 x|
        ≤ 1.571 * x * (1.45e-14 * P + |f 1 - besselYR 1 x|) := by
          refine mul_le_mul hp (by linarith) (abs_nonneg _) (by positivity)
      _ = 1.571 * (1.45e-14 * (x * P) + x * |f 1 - besselYR 1 x|) := by ring
      _ ≤ _ := by linarith
  have hD := D_le h0 hK0 (M := 1 + 3 * (0.64 * P)) (by linarith [(abs_le.1 J.1).2]) ((abs_le.1 J.2).2)
  have hD' : (1 + QQb x 0 0) * jj x 0 ≤ 5 := by
    refine hD.trans ?_
    have : 1.571 * x * (1 + 3 * (0.64 * P)) = 1.571 * x + 3.01632 * (x * P) := by ring
    rw [this]; linarith
  have hq : |qq x 0| ≤ 0.92 * P := by
    unfold qq
    rw [abs_div, abs_neg, abs_of_pos (by linarith : 0 < besselJR 0 x), div_le_iff₀ (by linarith)]
    nlinarith
  have P2 : P ≤ 1001 := by linarith
  have n0 : (0:ℝ) ≤ n := Nat.cast_nonneg n
  have n6 : (n:ℝ) ≤ 10 ^ 6 := by exact_mod_cast hn'
  have Q2 : 0.92 * P ≤ 2 ^ 1000 := by
    have : (1000:ℝ) ≤ 2 ^ 1000 := by
      calc (1000:ℝ) ≤ 2 ^ 10 := by norm_num
        _ ≤ 2 ^ 1000 := pow_le_pow_right₀ (by norm_num) (by norm_num)
    exact le_trans (by linarith only [P2]) this
  have EP : 2.3e-13 * P ^ 2 ≤ 1 / 4 := by
    have : P ^ 2 ≤ 1001 ^ 2 := pow_le_pow_left₀ (by linarith only [P1]) P2 2
    linarith only [this]
  have βu : 21 * (n:ℝ) * (5 + n) / 2 ^ 53 ≤ 1 / 4 := by
    calc 21 * (n:ℝ) * (5 + n) / 2 ^ 53 ≤ 21 * 10 ^ 6 * (5 + 10 ^ 6) / 2 ^ 53 := by gcongr
      _ ≤ _ := by norm_num
  have r := yn_dn h0 hK0 (by omega) hf hD' hY hq Q2 (h1.trans (one_le_pow₀ (by norm_num))) ha hb EP (by norm_num) βu
  clear hY hf Q2
  refine r.trans ?_
  set β := 21 * (n:ℝ) * (5 + n) / 2 ^ 53 with hβ
  have β0 : 0 ≤ β := by positivity
  have PP : P * besselJR n x ≤ P ^ 2 * besselJR n x := mul_le_mul_of_nonneg_right (by nlinarith) jn.le
  have y := abs_nonneg (besselYR n x)
  have k1 := mul_le_mul_of_nonneg_left (PP.trans js) β0
  have e : 160 * (n:ℝ) * (n + 5) / 2 ^ 53 = 160 / 21 * β := by rw [hβ]; ring
  rw [e]
  have by' : 0 ≤ β * |besselYR n x| := by positivity
  calc (8.3e-14 + 2 * β) * |besselYR n x| + (2.3e-13 * P ^ 2 + 2 * β * (0.92 * P)) * besselJR n x
      = 8.3e-14 * |besselYR n x| + 2 * (β * |besselYR n x|) + 2.3e-13 * (P ^ 2 * besselJR n x) + 1.84 * (β * (P * besselJR n x)) := by ring
    _ ≤ 8.3e-14 * |besselYR n x| + 2 * (β * |besselYR n x|) + 2.3e-13 * (2.9 * |besselYR n x|) + 1.84 * (β * (2.9 * |besselYR n x|)) := by linarith
    _ ≤ _ := by linarith

theorem Y_amp1 {x : ℝ} (hx : 1 ≤ x) : besselYR 0 x ^ 2 + besselYR 1 x ^ 2 ≤ 1.07 ^ 2 := by
  have hd : ∀ x : ℝ, 1 ≤ x → HasDerivAt (fun x => besselYR 0 x ^ 2 + besselYR 1 x ^ 2) (-(2 * besselYR 1 x ^ 2 / x)) x := by
    intro x hx
    have h0 : 0 < x := by linarith
    refine (((Y0_deriv h0).pow 2).add ((Y1_deriv h0).pow 2)).congr_deriv ?_
    field_simp
    ring
  have hA : AntitoneOn (fun x => besselYR 0 x ^ 2 + besselYR 1 x ^ 2) (Set.Ici 1) := by
    refine antitoneOn_of_deriv_nonpos (convex_Ici 1) (fun x hx => (hd x hx).continuousAt.continuousWithinAt) ?_ ?_
    · intro x hx
      rw [interior_Ici] at hx
      exact (hd x hx.le).differentiableAt.differentiableWithinAt
    · intro x hx
      rw [interior_Ici] at hx
      rw [(hd x hx.le).deriv]
      have : (0:ℝ) < x := lt_trans one_pos hx
      have : 0 ≤ 2 * besselYR 1 x ^ 2 / x := by positivity
      linarith
  have h := hA (Set.self_mem_Ici) hx hx
  simp only at h
  refine h.trans ?_
  have y0 := Y0_le (x := 1) one_pos (by norm_num)
  rw [Real.log_one, abs_zero, add_zero, mul_one] at y0
  have y1 : |besselYR 1 1| ≤ 0.85 := by
    have J := (BesX.J_le_one 1).2
    have p := twopi_le
    have p0 : 0 < 2 / π := by positivity
    have W := W1_le (x := 1) one_pos (by norm_num)
    have g := qg_close
    have e : besselYR 1 1 = 2 / π * (-1) + 2 / π / 4 * Wn 1 (-(1 ^ 2 / 4)) +
        2 / π * ((Real.eulerMascheroniConstant - Real.log 2 - qg) * besselJR 1 1) := by
      have s := Y1_split (x := 1) one_pos
      rw [s, Real.log_one]
      field_simp
      ring
    have a2 : |2 / π / 4 * Wn 1 (-(1 ^ 2 / 4))| ≤ 0.637 / 4 * 1.31 := by
      rw [abs_mul, abs_of_pos (by positivity)]; gcongr
    have a3 : |2 / π * ((Real.eulerMascheroniConstant - Real.log 2 - qg) * besselJR 1 1)| ≤ 0.637 * (3e-17 * 1) := by
      rw [abs_mul, abs_mul, abs_of_pos p0]; gcongr
    rw [e]
    have b2 := abs_le.1 a2
    have b3 := abs_le.1 a3
    rw [abs_le]
    constructor <;> linarith [b2.1, b2.2, b3.1, b3.2]
  have s0 : besselYR 0 1 ^ 2 ≤ 0.64 ^ 2 := by rw [← sq_abs]; exact pow_le_pow_left₀ (abs_nonneg _) y0 2
  have s1 : besselYR 1 1 ^ 2 ≤ 0.85 ^ 2 := by rw [← sq_abs]; exact pow_le_pow_left₀ (abs_nonneg _) y1 2
  norm_num at *
  linarith

/-- orders above `x > 1` -/
theorem yn_high {x G g E : ℝ} {f : ℕ → ℝ} {n : ℕ} (h1 : 1 < x) (hu : x ≤ 2 ^ 100) (hf : RStep x f (1 / 2 ^ 1073) (2 ^ 1010) n)
    (hJ : besselJR 0 x ^ 2 + besselJR 1 x ^ 2 ≤ G ^ 2) (hY : besselYR 0 x ^ 2 + besselYR 1 x ^ 2 ≤ G ^ 2) (hG : 1 / 2 ^ 20 ≤ G)
    (hg : x * G ^ 2 ≤ g) (hB : (x + 1) * G ≤ 2 ^ 1000)
    (ha : |va x (fun i => f i - besselYR i x) 0| ≤ E) (hb : |vb x (fun i => f i - besselYR i x) 0| ≤ E)
    (hE : E + 59 * g * (x + 1) ^ 2 / 2 ^ 53 ≤ 1 / 4) (hxn : x < n) (hYn : ∀ j, j ≤ n → |besselYR j x| ≤ 2 ^ 1000)
    (hβ : 21 * n * (6.3 * x * ((x + 1) * G) + n) / 2 ^ 53 ≤ 1 / 4) :
    |f n - besselYR n x| ≤ (E + 59 * g * (x + 1) ^ 2 / 2 ^ 53 + 2 * (21 * n * (6.3 * x * ((x + 1) * G) + n) / 2 ^ 53)) * |besselYR n x| +
      (E + 59 * g * (x + 1) ^ 2 / 2 ^ 53 + 2 * (21 * n * (6.3 * x * ((x + 1) * G) + n) / 2 ^ 53) * (4.72 * g * (x + 1) ^ 2)) * besselJR n x := by
  have hx : 0 < x := by linarith only [h1]
  have G0 : 0 < G := lt_of_lt_of_le (by positivity) hG
  have g0 : 0 ≤ g := le_trans (by positivity) hg
  obtain ⟨K, hK1, hKx, hxK⟩ : ∃ K : ℕ, 1 ≤ K ∧ (K:ℝ) < x ∧ x ≤ K + 1 := by
    have c : 1 < ⌈x⌉₊ := by rw [Nat.lt_ceil]; exact_mod_cast h1
    obtain ⟨K, hK⟩ : ∃ K, ⌈x⌉₊ = K + 1 := ⟨⌈x⌉₊ - 1, by omega⟩
    refine ⟨K, by omega, ?_, ?_⟩
    · rw [← Nat.lt_ceil]; omega
    · have := Nat.le_ceil x
      rw [hK] at this; push_cast at this; exact this
  have hKn : K + 1 ≤ n := by
    have : (K:ℝ) < n := hKx.trans hxn
    exact_mod_cast this
  have aY := amp_le (f := fun k => besselYR k x) hx (fun k => Y_rec k hx) G0.le hY
  have aJ := amp_le (f := fun k => besselJR k x) hx (fun k => J_rec k hx.ne') G0.le hJ
  obtain ⟨va', vb'⟩ := yn_up hx hf hJ hY hG hg hB ha hb (hE.trans (by norm_num)) hKn hKx.le
  have q := qK_le hx G0.le hg hK1 hKx hxK aY
  have YK := (aY K hKx.le).trans (amp_le' hKx.le G0.le)
  have JK := (le_abs_self _).trans ((aJ K hKx.le).trans (amp_le' hKx.le G0.le))
  have hD := D_le hx hxK (M := 4 * ((x + 1) * G)) (by linarith only [YK, JK]) ((le_abs_self _).trans (J_abs_le_one _ _))
  have hD' : (1 + QQb x K K) * jj x K ≤ 6.3 * x * ((x + 1) * G) := by
    refine hD.trans ?_
    have : 0 ≤ x * ((x + 1) * G) := by positivity
    linarith only [this]
  have hE0 : 0 ≤ E := (abs_nonneg _).trans ha
  refine yn_dn hx hxK hKn hf hD' hYn q ?_ hu va' vb' hE hE hβ
  have a : 59 * g * (x + 1) ^ 2 / 2 ^ 53 ≤ 1 / 4 := by linarith only [hE, hE0]
  rw [div_le_iff₀ (by positivity)] at a
  have b : 4.72 * g * (x + 1) ^ 2 ≤ 2 ^ 53 := by
    have : 0 ≤ g * (x + 1) ^ 2 := by positivity
    linarith only [a, this]
  exact b.trans (pow_le_pow_right₀ (by norm_num) (by norm_num))

theorem small_log {x : ℝ} (h0 : 10 ^ (-280 : ℤ) ≤ x) (h1 : x ≤ 1) : |log x| ≤ 1000 := by
  have hx : 0 < x := lt_of_lt_of_le (by positivity) h0
  rw [abs_of_nonpos (Real.log_nonpos hx.le h1)]
  have e : exp (-1000) ≤ 10 ^ (-280 : ℤ) := by
    rw [Real.exp_neg, zpow_neg]
    apply inv_anti₀ (by positivity)
    have e1 : (2:ℝ) ≤ exp 1 := by linarith [Real.add_one_le_exp (1:ℝ)]
    calc (10:ℝ) ^ (280:ℤ) = (10 ^ 7) ^ 40 := by rw [← pow_mul]; exact zpow_natCast _ _
      _ ≤ (2 ^ 25) ^ 40 := pow_le_pow_left₀ (by norm_num) (by norm_num) _
      _ = 2 ^ 1000 := by rw [← pow_mul]
      _ ≤ exp 1 ^ 1000 := pow_le_pow_left₀ (by norm_num) e1 _
      _ = exp 1000 := by rw [← Real.exp_nat_mul]; norm_num
  have := (Real.le_log_iff_exp_le hx).2 (e.trans h0)
  linarith

theorem fin_of_err {a : F64} {y b : ℝ} (h : |a.val - y| ≤ b) (hy : |y| ≤ 2 ^ 1000) (hb : b ≤ 2 ^ 1001) : a.isFin = true := by
  apply BesX.fin_big
  have t : |a.val| ≤ |a.val - y| + |y| := by
    have := abs_add_le (a.val - y) y
    rwa [sub_add_cancel] at this
  have e : (2:ℝ) ^ 1020 = 2 ^ 20 * 2 ^ 1000 := by rw [← pow_add]
  have e' : (2:ℝ) ^ 1001 = 2 * 2 ^ 1000 := by rw [pow_succ, mul_comm]
  have p : (0:ℝ) < 2 ^ 1000 := by positivity
  rw [e'] at hb
  rw [e]
  generalize (2:ℝ) ^ 1000 = w at *
  linarith only [t, h, hy, hb, p]

theorem small_bound : (1:ℝ) / 2 ^ 960 ≤ 10 ^ (-280 : ℤ) := by
  rw [zpow_neg, one_div]
  apply inv_anti₀ (by positivity)
  calc (10:ℝ) ^ (280:ℤ) = (10 ^ 7) ^ 40 := by rw [← pow_mul]; exact zpow_natCast _ _
    _ ≤ (2 ^ 24) ^ 40 := pow_le_pow_left₀ (by norm_num) (by norm_num) _
    _ = 2 ^ 960 := by rw [← pow_mul]

/-- the initial errors for `1 ≤ x < 8` -/
theorem ca_mid {x e0 e1 : ℝ} (h1 : 1 ≤ x) (h8 : x < 8) (he0 : |e0| ≤ 2.9e-14 + 1.45e-14 * |log x|) (he1 : |e1| ≤ 3.6e-14 + 1.45e-14 * |log x| + 7e-16 / x) :
    |caJ x e0 e1| ≤ 1.8e-12 ∧ |caY x e0 e1| ≤ 1.8e-12 := by
  have hx : 0 < x := by linarith
  have l : |log x| ≤ 2.08 := by
    rw [abs_of_nonneg (Real.log_nonneg h1)]
    have a := Real.log_le_log hx h8.le
    have b : log (8:ℝ) = 3 * log 2 := by rw [show (8:ℝ) = 2 ^ 3 by norm_num, Real.log_pow]; norm_num
    linarith [Real.log_two_lt_d9]
  have d : 7e-16 / x ≤ 7e-16 := div_le_self (by norm_num) h1
  have b0 : |e0| ≤ 5.92e-14 := by linarith
  have b1 : |e1| ≤ 6.69e-14 := by linarith
  have A := Y_amp1 h1
  have y0 : |besselYR 0 x| ≤ 1.07 := abs_le_of_sq_le_sq (by nlinarith [sq_nonneg (besselYR 1 x)]) (by norm_num)
  have y1 : |besselYR 1 x| ≤ 1.07 := abs_le_of_sq_le_sq (by nlinarith [sq_nonneg (besselYR 0 x)]) (by norm_num)
  have J := BesX.J_le_one x
  have hp : π * x / 2 ≤ 12.57 := by nlinarith [Real.pi_lt_d6, Real.pi_pos]
  have key : ∀ a b u v : ℝ, |a| ≤ 6.69e-14 → |b| ≤ 1.07 → |u| ≤ 5.92e-14 → |v| ≤ 1.07 → |π * x / 2 * (a * b - u * v)| ≤ 1.8e-12 := by
    intro a b u v ha hb hu hv
    rw [abs_mul, abs_of_nonneg (by positivity)]
    have t := abs_sub (a * b) (u * v)
    rw [abs_mul, abs_mul] at t
    have m1 := mul_le_mul ha hb (abs_nonneg _) (by norm_num)
    have m2 := mul_le_mul hu hv (abs_nonneg _) (by norm_num)
    calc π * x / 2 * |a * b - u * v| ≤ 12.57 * (6.69e-14 * 1.07 + 5.92e-14 * 1.07) := mul_le_mul hp (by linarith) (abs_nonneg _) (by norm_num)
      _ ≤ _ := by norm_num
  refine ⟨key e1 _ e0 _ b1 y0 b0 y1, ?_⟩
  have h := key e1 (besselJR 0 x) e0 (besselJR 1 x) b1 (by linarith [J.1]) b0 (by linarith [J.2])
  rw [← abs_neg] at h
  unfold caY
  rwa [show π * x / 2 * (e0 * besselJR 1 x - e1 * besselJR 0 x) = -(π * x / 2 * (e1 * besselJR 0 x - e0 * besselJR 1 x)) by ring]

theorem J_le_2 {n : ℕ} {x a b y : ℝ} (ha : a ≤ 1) (hb : b ≤ 2 ^ 100) (ha0 : 0 ≤ a) (hb0 : 0 ≤ b) (hy : |y| ≤ 2 ^ 1000) : a * |y| + b * |besselJR n x| ≤ 2 ^ 1001 := by
  have j := J_abs_le_one n x
  have p : (2:ℝ) ^ 100 ≤ 2 ^ 1000 := pow_le_pow_right₀ (by norm_num) (by norm_num)
  have m1 : a * |y| ≤ 1 * 2 ^ 1000 := mul_le_mul ha hy (abs_nonneg _) (by norm_num)
  have m2 : b * |besselJR n x| ≤ 2 ^ 100 * 1 := mul_le_mul hb j (abs_nonneg _) (by positivity)
  rw [pow_succ]
  generalize (2:ℝ) ^ 1000 = w at *
  linarith only [m1, m2, p]

theorem J_pos_of_lt {n : ℕ} {x : ℝ} (hx : 0 < x) (hn : x < n) : 0 < besselJR n x :=
  J_pos2 (K := n) hx (by linarith) le_rfl

/-- a crude bound, to show that the hypotheses on overflow can be met -/
theorem Y_grow {x C M : ℝ} {n : ℕ} (hx : 0 < x) (h0 : |besselYR 0 x| ≤ C) (h1 : |besselYR 1 x| ≤ C) (hM : 2 * n / x + 1 ≤ M) (j : ℕ) (hj : j ≤ n) :
    |besselYR j x| ≤ C * M ^ n := by
  have C0 : 0 ≤ C := (abs_nonneg _).trans h0
  have q0 : 0 ≤ 2 * n / x := by positivity
  have M1 : 1 ≤ M := by linarith
  have key : ∀ k, k ≤ n → |besselYR k x| ≤ C * M ^ k ∧ |besselYR (k + 1) x| ≤ C * M ^ (k + 1) := by
    intro k
    induction k with
    | zero =>
      intro _
      refine ⟨by simpa using h0, ?_⟩
      rw [zero_add, pow_one]
      exact h1.trans (le_mul_of_one_le_right C0 M1)
    | succ k ih =>
      intro hk
      obtain ⟨a, b⟩ := ih (by omega)
      refine ⟨b, ?_⟩
      have cM : 0 ≤ C * M ^ k := by positivity
      have k1 : ((k + 1 : ℕ) : ℝ) ≤ n := by exact_mod_cast hk
      have c : ((k + 1 : ℕ) : ℝ) * (2 / x) ≤ M - 1 := by
        have : ((k + 1 : ℕ) : ℝ) * (2 / x) ≤ n * (2 / x) := mul_le_mul_of_nonneg_right k1 (by positivity)
        have e : (n:ℝ) * (2 / x) = 2 * n / x := by ring
        linarith
      rw [show k + 1 + 1 = k + 2 by ring, Y_rec k hx]
      refine (abs_sub _ _).trans ?_
      rw [abs_mul, abs_of_nonneg (by positivity)]
      calc ((k + 1 : ℕ) : ℝ) * (2 / x) * |besselYR (k + 1) x| + |besselYR k x|
          ≤ (M - 1) * (C * M ^ (k + 1)) + C * M ^ k * M := by
            refine add_le_add (mul_le_mul c b (abs_nonneg _) (by linarith)) (a.trans (le_mul_of_one_le_right cM M1))
        _ = _ := by ring
  refine (key j hj).1.trans ?_
  exact mul_le_mul_of_nonneg_left (pow_le_pow_right₀ M1 hj) C0

end Bes
end Verif
