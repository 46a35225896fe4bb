import Verif.Proofs.LanczosReal

/-! # Stirling's series brackets `log Γ`

For a correction `R` the defect of the functional equation of `(w-1/2)·log w - w + log √(2π) + R(w)` has a second derivative that is a rational
function; its sign gives the sign of the defect and so an upper or lower bound for `log Γ`. -/

namespace Verif
open Filter Topology ZPoly

/-- `c₀/wⁿ + c₁/wⁿ⁺² + …` -/
noncomputable def rs : ℕ → List ℝ → ℝ → ℝ
  | _, [], _ => 0
  | n, c :: cs, w => c / w ^ n + rs (n + 2) cs w

/-- coefficients of the derivative -/
noncomputable def drs : ℕ → List ℝ → List ℝ
  | _, [] => []
  | n, c :: cs => (-(n * c)) :: drs (n + 2) cs

theorem rs_deriv : ∀ (c : List ℝ) (n : ℕ) {w : ℝ}, 0 < w → HasDerivAt (rs n c) (rs (n + 1) (drs n c) w) w
  | [], n, w, h => by
    have : rs n [] = fun _ => (0:ℝ) := by funext; rfl
    rw [this]; exact hasDerivAt_const w _
  | c :: cs, n, w, h => by
    have h1 : HasDerivAt (fun w : ℝ => c / w ^ n) (-(n * c) / w ^ (n + 1)) w := by
      have h := (hasDerivAt_const w c).div (hasDerivAt_pow n w) (pow_ne_zero _ h.ne')
      refine h.congr_deriv ?_
      rcases n with _ | n
      · simp
      · have hw : w ≠ 0 := by positivity
        simp only [Nat.add_sub_cancel]
        push_cast
        field_simp
        ring
    have h2 := h1.add (rs_deriv cs (n + 2) h)
    have e : rs n (c :: cs) = (fun w : ℝ => c / w ^ n) + rs (n + 2) cs := by funext; rfl
    rw [e]
    exact h2

theorem rs_lim : ∀ (c : List ℝ) (n : ℕ), n ≠ 0 → Tendsto (rs n c) atTop (𝓝 0)
  | [], n, _ => by
    have : rs n [] = fun _ => (0:ℝ) := by funext; rfl
    rw [this]; exact tendsto_const_nhds
  | c :: cs, n, hn => by
    have h1 : Tendsto (fun w : ℝ => c / w ^ n) atTop (𝓝 0) := tendsto_const_nhds.div_atTop (tendsto_pow_atTop hn)
    have h2 := h1.add (rs_lim cs (n + 2) (by omega))
    rw [add_zero] at h2
    exact h2

/-- Stirling's approximation with correction `∑ cⱼ/w^(2j+1)` -/
noncomputable def stL (c : List ℝ) (w : ℝ) : ℝ := (w - 1/2) * Real.log w - w + Real.log √(2 * Real.pi) + rs 1 c w

noncomputable def stD (c : List ℝ) (w : ℝ) : ℝ := (w + 1/2) * (Real.log (w + 1) - Real.log w) - 1 + (rs 1 c (w + 1) - rs 1 c w)
noncomputable def stD1 (c : List ℝ) (w : ℝ) : ℝ :=
  (Real.log (w + 1) - Real.log w) + (w + 1/2) * (1 / (w + 1) - 1 / w) + (rs 2 (drs 1 c) (w + 1) - rs 2 (drs 1 c) w)
noncomputable def stD2 (c : List ℝ) (w : ℝ) : ℝ :=
  1 / (2 * w^2 * (w + 1)^2) + (rs 3 (drs 2 (drs 1 c)) (w + 1) - rs 3 (drs 2 (drs 1 c)) w)

theorem stL_step (c : List ℝ) (w : ℝ) : stL c (w + 1) - stL c w = stD c w + Real.log w := by
  unfold stL stD; ring

theorem logdiff_deriv {w : ℝ} (h : 0 < w) : HasDerivAt (fun w : ℝ => Real.log (w + 1) - Real.log w) (1 / (w + 1) - 1 / w) w := by
  have h1 : HasDerivAt (fun w : ℝ => Real.log (w + 1)) (1 / (w + 1)) w := ((hasDerivAt_id w).add_const (1:ℝ)).log (by simp; linarith)
  have h2 := Real.hasDerivAt_log h.ne'
  rw [← one_div] at h2
  exact h1.sub h2

theorem stD_deriv (c : List ℝ) {w : ℝ} (h : 0 < w) : HasDerivAt (stD c) (stD1 c w) w := by
  have h1 := logdiff_deriv h
  have h2 : HasDerivAt (fun w : ℝ => w + 1/2) 1 w := (hasDerivAt_id w).add_const _
  have h3 := rs_deriv c 1 h
  have h4 : HasDerivAt (fun w => rs 1 c (w + 1)) (rs (1 + 1) (drs 1 c) (w + 1)) w := by
    have := (rs_deriv c 1 (w := w + 1) (by linarith)).comp_add_const w 1
    exact this
  have := ((h2.mul h1).sub_const (1:ℝ)).add (h4.sub h3)
  refine this.congr_deriv ?_
  unfold stD1
  ring

theorem stD1_deriv (c : List ℝ) {w : ℝ} (h : 0 < w) : HasDerivAt (stD1 c) (stD2 c w) w := by
  have h1 := logdiff_deriv h
  have h2 : HasDerivAt (fun w : ℝ => w + 1/2) 1 w := (hasDerivAt_id w).add_const _
  have h5 : HasDerivAt (fun w : ℝ => 1 / (w + 1) - 1 / w) (-1 / (w + 1)^2 - -1 / w^2) w := by
    have a : HasDerivAt (fun w : ℝ => 1 / (w + 1)) (-1 / (w + 1)^2) w := by
      have h := (hasDerivAt_const w (1:ℝ)).div ((hasDerivAt_id w).add_const (1:ℝ)) (by simp; linarith)
      refine h.congr_deriv ?_
      simp
    have b : HasDerivAt (fun w : ℝ => 1 / w) (-1 / w^2) w := by
      have h := (hasDerivAt_const w (1:ℝ)).div (hasDerivAt_id w) h.ne'
      refine h.congr_deriv ?_
      simp
    exact a.sub b
  have h3 := rs_deriv (drs 1 c) 2 h
  have h4 : HasDerivAt (fun w => rs 2 (drs 1 c) (w + 1)) (rs (2 + 1) (drs 2 (drs 1 c)) (w + 1)) w := by
    have := (rs_deriv (drs 1 c) 2 (w := w + 1) (by linarith)).comp_add_const w 1
    exact this
  have := (h1.add (h2.mul h5)).add (h4.sub h3)
  refine this.congr_deriv ?_
  unfold stD2
  have hw1 : w + 1 ≠ 0 := by linarith
  have e : 1 / (w + 1) - 1 / w + (1 * (1 / (w + 1) - 1 / w) + (w + 1/2) * (-1 / (w + 1)^2 - -1 / w^2)) = 1 / (2 * w^2 * (w + 1)^2) := by
    field_simp
    ring
  rw [← e]

theorem shift_lim {f : ℝ → ℝ} {l : ℝ} (h : Tendsto f atTop (𝓝 l)) : Tendsto (fun w => f (w + 1)) atTop (𝓝 l) :=
  h.comp (tendsto_atTop_add_const_right atTop (1:ℝ) tendsto_id)

theorem stD_lim (c : List ℝ) : Tendsto (stD c) atTop (𝓝 0) := by
  have h1 := Real.tendsto_mul_log_one_add_div_atTop 1
  have h2 := (log_shift 1 0).const_mul (1/2)
  have h3 := rs_lim c 1 (by norm_num)
  have h := ((h1.add h2).sub_const 1).add ((shift_lim h3).sub h3)
  simp only [mul_zero, add_zero, sub_self] at h
  refine h.congr' ?_
  filter_upwards [eventually_gt_atTop 0] with v hv
  unfold stD
  rw [show 1 + 1 / v = (v + 1) / v by field_simp, Real.log_div (by linarith) hv.ne']
  ring

theorem stD1_lim (c : List ℝ) : Tendsto (stD1 c) atTop (𝓝 0) := by
  have h1 := log_shift 1 0
  have inv : ∀ c d : ℝ, Tendsto (fun v : ℝ => c / (v + d)) atTop (𝓝 0) := fun c d =>
    tendsto_const_nhds.div_atTop (tendsto_atTop_add_const_right atTop d tendsto_id)
  have h3 := rs_lim (drs 1 c) 2 (by norm_num)
  have h := ((h1.sub (inv (1/2) 1)).sub (inv (1/2) 0)).add ((shift_lim h3).sub h3)
  simp only [sub_zero, add_zero] at h
  refine h.congr' ?_
  filter_upwards [eventually_gt_atTop 0] with v hv
  unfold stD1
  have q1 : v + 1 ≠ 0 := by linarith
  have : (v + 1/2) * (1 / (v + 1) - 1 / v) = -(1/2) / (v + 1) - (1/2) / v := by
    field_simp
    ring
  rw [this]
  ring

/-- the sign of the second derivative decides the sign of the defect -/
theorem stD_sign (c : List ℝ) (s : ℝ) (h : ∀ w, 0 < w → 0 ≤ s * stD2 c w) {w : ℝ} (hw : 0 < w) : 0 ≤ s * stD c w := by
  have step1 : ∀ x : ℝ, 0 < x → 0 ≤ -(s * stD1 c x) := by
    intro x hx
    refine nonneg_of_deriv_nonpos (f := fun x => -(s * stD1 c x)) (f' := fun x => -(s * stD2 c x))
      (fun y hy => ((stD1_deriv c hy).const_mul s).neg) (fun y hy => by have := h y hy; linarith) ?_ hx
    have := ((stD1_lim c).const_mul s).neg
    simpa using this
  refine nonneg_of_deriv_nonpos (f := fun x => s * stD c x) (f' := fun x => s * stD1 c x)
      (fun y hy => (stD_deriv c hy).const_mul s) (fun y hy => by have := step1 y hy; linarith) ?_ hw
  have := (stD_lim c).const_mul s
  simpa using this

theorem stL_sum (c : List ℝ) (x : ℝ) : ∀ n : ℕ,
    stL c (x + n) - stL c x = ∑ m ∈ Finset.range n, stD c (x + m) + ∑ m ∈ Finset.range n, Real.log (x + m)
  | 0 => by simp
  | n+1 => by
    rw [Finset.sum_range_succ, Finset.sum_range_succ]
    have h := stL_sum c x n
    have h2 := stL_step c (x + n)
    push_cast
    rw [← add_assoc]
    linarith

theorem stL_lim (c : List ℝ) (x : ℝ) (hx : 0 < x) :
    Tendsto (fun n : ℕ => stL c (x + (n + 1 : ℕ)) - (x * Real.log n + Real.log n.factorial)) atTop (𝓝 0) := by
  have hn : Tendsto (fun n : ℕ => (n : ℝ)) atTop atTop := tendsto_natCast_atTop_atTop
  have h1 := (rs_lim c 1 (by norm_num)).comp ((tendsto_atTop_add_const_left atTop x tendsto_id).comp ((tendsto_atTop_add_const_right atTop (1:ℝ) tendsto_id).comp hn))
  have h2 := (Real.tendsto_mul_log_one_add_div_atTop (x + 1)).comp hn
  have h3 := ((log_shift (x + 1) 0).comp hn).const_mul (x + 1/2)
  have h4 := (Stirling.tendsto_stirlingSeq_sqrt_pi).log (by positivity)
  have h := ((h1.add h2).add h3).sub h4
  have h' := (h.add_const (Real.log √(2 * Real.pi) - 1/2 * Real.log 2 - (x + 1)))
  have e : 0 + (x + 1) + (x + 1/2) * 0 - Real.log √Real.pi
      + (Real.log √(2 * Real.pi) - 1/2 * Real.log 2 - (x + 1)) = 0 := by
    rw [Real.log_sqrt (by positivity), Real.log_sqrt (by positivity), Real.log_mul (by norm_num) (by positivity)]
    ring
  rw [e] at h'
  refine h'.congr' ?_
  filter_upwards [eventually_gt_atTop 0] with n hn0
  have hp : (0:ℝ) < n := by exact_mod_cast hn0
  have hs := Stirling.log_stirlingSeq_formula n
  rw [Real.log_div hp.ne' (Real.exp_ne_zero _), Real.log_exp, Real.log_mul (by norm_num) hp.ne'] at hs
  simp only [Function.comp, id]
  rw [hs]
  unfold stL
  have e2 : Real.log (1 + (x + 1) / n) = Real.log (n + (x + 1)) - Real.log n := by
    rw [← Real.log_div (by positivity) hp.ne']
    congr 1
    field_simp
  rw [e2, add_zero]
  push_cast
  rw [show x + ((n:ℝ) + 1) = n + (x + 1) by ring]
  ring

/-- one-sided bound for `log Γ` -/
theorem stL_side (c : List ℝ) (s : ℝ) (h : ∀ w, 0 < w → 0 ≤ s * stD2 c w) {x : ℝ} (hx : 0 < x) :
    0 ≤ s * (Real.log (Real.Gamma x) - stL c x) := by
  have h1 := Real.BohrMollerup.tendsto_log_gamma hx
  have h2 := stL_lim c x hx
  have h3 := ((h1.sub (tendsto_const_nhds (x := stL c x))).add h2).const_mul s
  rw [add_zero] at h3
  refine ge_of_tendsto h3 (Eventually.of_forall fun n => ?_)
  have h4 := stL_sum c x (n + 1)
  have h5 : 0 ≤ s * ∑ m ∈ Finset.range (n + 1), stD c (x + m) := by
    rw [Finset.mul_sum]
    exact Finset.sum_nonneg fun m _ => stD_sign c s h (by positivity)
  unfold Real.BohrMollerup.logGammaSeq
  refine le_trans h5 (le_of_eq ?_)
  congr 1
  linarith

/-- `B₂ₖ/(2k(2k-1))` -/
noncomputable def stC5 : List ℝ := [1/12, -1/360, 1/1260, -1/1680, 1/1188]
noncomputable def stC6 : List ℝ := [1/12, -1/360, 1/1260, -1/1680, 1/1188, -691/360360]

theorem st5_sign {w : ℝ} (h : 0 < w) : 0 ≤ (-1) * stD2 stC5 w := by
  have e : (-1) * stD2 stC5 w = (5/66*w^0 + 5/6*w^1 + 62/15*w^2 + 182/15*w^3 + 487/21*w^4 + 625/21*w^5 + 2654/105*w^6 + 1382/105*w^7 + 691/210*w^8) / (w^11 * (w + 1)^11) := by
    simp only [stD2, stC5, drs, rs]
    push_cast
    have : w + 1 ≠ 0 := by linarith
    field_simp
    ring
  rw [e]; positivity

theorem st6_sign {w : ℝ} (h : 0 < w) : 0 ≤ 1 * stD2 stC6 w := by
  have e : 1 * stD2 stC6 w = (691/2730*w^0 + 691/210*w^1 + 45431/2310*w^2 + 164947/2310*w^3 + 202241/1155*w^4 + 6395/21*w^5 + 40189/105*w^6 + 5191/15*w^7 + 6533/30*w^8 + 175/2*w^9 + 35/2*w^10) / (w^13 * (w + 1)^13) := by
    simp only [stD2, stC6, drs, rs]
    push_cast
    have : w + 1 ≠ 0 := by linarith
    field_simp
    ring
  rw [e]; positivity

/-- Stirling's series, six terms: an error of at most the last term -/
theorem stirling6 {x : ℝ} (hx : 0 < x) : stL stC6 x ≤ Real.log (Real.Gamma x) ∧ Real.log (Real.Gamma x) ≤ stL stC6 x + 691/360360 / x^11 := by
  have h1 := stL_side stC5 (-1) (fun w hw => st5_sign hw) hx
  have h2 := stL_side stC6 1 (fun w hw => st6_sign hw) hx
  have e : stL stC5 x = stL stC6 x + 691/360360 / x^11 := by
    simp only [stL, stC5, stC6, rs]
    ring
  constructor <;> linarith

end Verif
