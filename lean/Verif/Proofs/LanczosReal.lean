import Verif.Model.Gamma
import Verif.Proofs.Inst
import Verif.Proofs.ZPoly
import Mathlib.Analysis.SpecialFunctions.Gamma.BohrMollerup
import Mathlib.Analysis.SpecialFunctions.Stirling
import Mathlib.Analysis.SpecialFunctions.Complex.LogBounds
import Mathlib.Analysis.SpecialFunctions.Log.Deriv

/-! # The Lanczos approximation over the reals

`lanD v` is the defect `L(v+1) - L(v) - log v` of the functional equation for the approximation `L`.  Its second derivative is a
rational function, bounded coefficient by coefficient; integrating twice from infinity bounds the defect, and summing it up
bounds `L - log Γ`. -/

namespace Verif
open Filter Topology ZPoly

/-- `10²⁰·(c₀ + ∑ cᵢ/(v+i-1))·v(v+1)…(v+5)` -/
def lanN : List ℤ := [914161100753820360000000, 1200431913592938633707624, 656620759144394246816330, 191495597663241012424715,
  31404253480859130810290, 2745833332660142694281, 100000000018971200000]

/-- `lanN` at `v+1` -/
def lanN1 : List ℤ := shift1 lanN

theorem lanN_pos {v : ℝ} (hv : 0 ≤ v) : 0 < ev lanN v := ev_pos _ _ v (by decide) (by decide) hv
theorem lanN1_pos {v : ℝ} (hv : 0 ≤ v) : 0 < ev lanN1 v := by
  rw [lanN1, ev_shift1]; exact lanN_pos (by linarith)

/-- defect of the functional equation -/
noncomputable def lanD (v : ℝ) : ℝ :=
  Real.log (ev lanN1 v) - Real.log (ev lanN v) - Real.log (v + 6) - 1 + (v + 1/2) * Real.log (v + 11/2) - (v - 1/2) * Real.log (v + 9/2)

/-- first derivative -/
noncomputable def lanD1 (v : ℝ) : ℝ :=
  ev (der lanN1) v / ev lanN1 v - ev (der lanN) v / ev lanN v - 1 / (v + 6) + (Real.log (v + 11/2) + (v + 1/2) / (v + 11/2))
    - (Real.log (v + 9/2) + (v - 1/2) / (v + 9/2))

/-- second derivative -/
noncomputable def lanD2 (v : ℝ) : ℝ :=
  (ev (der (der lanN1)) v * ev lanN1 v - ev (der lanN1) v * ev (der lanN1) v) / ev lanN1 v ^ 2
    - (ev (der (der lanN)) v * ev lanN v - ev (der lanN) v * ev (der lanN) v) / ev lanN v ^ 2
    + 1 / (v + 6) ^ 2 + (1 / (v + 11/2) + 5 / (v + 11/2) ^ 2) - (1 / (v + 9/2) + 5 / (v + 9/2) ^ 2)

theorem hasDeriv_add (c v : ℝ) : HasDerivAt (fun v : ℝ => v + c) 1 v := (hasDerivAt_id v).add_const c

theorem lanD_deriv {v : ℝ} (hv : 0 < v) : HasDerivAt lanD (lanD1 v) v := by
  have h1 := (hasDerivAt_ev lanN1 v).log (lanN1_pos hv.le).ne'
  have h2 := (hasDerivAt_ev lanN v).log (lanN_pos hv.le).ne'
  have h3 := (hasDeriv_add 6 v).log (by linarith)
  have h4 := (hasDeriv_add (1/2) v).mul ((hasDeriv_add (11/2) v).log (by linarith))
  have h5 := ((hasDerivAt_id v).sub_const (1/2)).mul ((hasDeriv_add (9/2) v).log (by linarith))
  have h := ((((h1.sub h2).sub h3).sub_const 1).add h4).sub h5
  refine h.congr_deriv ?_
  unfold lanD1
  simp only [id]
  ring

theorem lanD1_deriv {v : ℝ} (hv : 0 < v) : HasDerivAt lanD1 (lanD2 v) v := by
  have p1 := (lanN1_pos hv.le).ne'
  have p2 := (lanN_pos hv.le).ne'
  have h1 := (hasDerivAt_ev (der lanN1) v).div (hasDerivAt_ev lanN1 v) p1
  have h2 := (hasDerivAt_ev (der lanN) v).div (hasDerivAt_ev lanN v) p2
  have h3 := (hasDerivAt_const v (1:ℝ)).div (hasDeriv_add 6 v) (by linarith)
  have h4 := ((hasDeriv_add (11/2) v).log (by linarith)).add ((hasDeriv_add (1/2) v).div (hasDeriv_add (11/2) v) (by linarith))
  have h5 := ((hasDeriv_add (9/2) v).log (by linarith)).add (((hasDerivAt_id v).sub_const (1/2)).div (hasDeriv_add (9/2) v) (by linarith))
  have h := (((h1.sub h2).sub h3).add h4).sub h5
  refine h.congr_deriv ?_
  unfold lanD2
  simp only [id]
  have q1 : v + 11/2 ≠ 0 := by linarith
  have q2 : v + 9/2 ≠ 0 := by linarith
  have q3 : v + 6 ≠ 0 := by linarith
  rw [show (1:ℝ) / (v + 11/2) + (1 * (v + 11/2) - (v + 1/2) * 1) / (v + 11/2)^2 = 1 / (v + 11/2) + 5 / (v + 11/2)^2 by ring,
    show (1:ℝ) / (v + 9/2) + (1 * (v + 9/2) - (v - 1/2) * 1) / (v + 9/2)^2 = 1 / (v + 9/2) + 5 / (v + 9/2)^2 by ring]
  ring

/-- numerator and denominator of `lanD2` -/
def lanNum : List ℤ :=
  let N := lanN
  let N1 := lanN1
  let A := sub (mul (der (der N)) N) (mul (der N) (der N))
  let B := sub (mul (der (der N1)) N1) (mul (der N1) (der N1))
  let P := mul [6, 1] [6, 1]
  let Q := mul [11, 2] [11, 2]
  let R := mul [9, 2] [9, 2]
  let NN := mul N N
  let MM := mul N1 N1
  let PQR := mul P (mul Q R)
  add (sub (mul B (mul NN PQR)) (mul A (mul MM PQR)))
    (mul (mul NN MM) (add (mul Q R) (mul P (sub (mul R (add (mul [2] [11, 2]) [20])) (mul Q (add (mul [2] [9, 2]) [20]))))))
def lanDen : List ℤ :=
  mul (mul (mul lanN lanN) (mul lanN1 lanN1)) (mul (mul [6, 1] [6, 1]) (mul (mul [11, 2] [11, 2]) (mul [9, 2] [9, 2])))

theorem lanDen_ev (v : ℝ) : ev lanDen v = ev lanN v ^ 2 * ev lanN1 v ^ 2 * ((v + 6)^2 * ((2 * v + 11)^2 * (2 * v + 9)^2)) := by
  unfold lanDen
  simp only [ev_mul]
  simp only [ev]
  push_cast
  ring

theorem lanD2_eq {v : ℝ} (hv : 0 < v) : lanD2 v = ev lanNum v / ev lanDen v := by
  have p1 := (lanN1_pos hv.le).ne'
  have p2 := (lanN_pos hv.le).ne'
  rw [lanDen_ev]
  unfold lanD2 lanNum
  simp only [ev_mul, ev_add, ev_sub]
  generalize ev (der (der lanN1)) v = x1 at *
  generalize ev (der lanN1) v = x2 at *
  generalize ev (lanN1) v = x3 at *
  generalize ev (der (der lanN)) v = y1 at *
  generalize ev (der lanN) v = y2 at *
  generalize ev (lanN) v = y3 at *
  simp only [ev]
  push_cast
  have q1 : 2 * v + 11 ≠ 0 := by linarith
  have q2 : 2 * v + 9 ≠ 0 := by linarith
  have q3 : v + 6 ≠ 0 := by linarith
  rw [show v + 11/2 = (2 * v + 11) / 2 by ring, show v + 9/2 = (2 * v + 9) / 2 by ring]
  field_simp
  ring

theorem lan_check : (nonneg (sub (smul 75 lanDen) (smul 1000000000 (mul (pow [4, 1] 4) lanNum))) &&
    nonneg (add (smul 75 lanDen) (smul 1000000000 (mul (pow [4, 1] 4) lanNum)))) = true := by decide +kernel

theorem lanD2_bound {v : ℝ} (hv : 0 < v) : |lanD2 v| ≤ 7.5e-8 / (v + 4)^4 := by
  have h := lan_check
  rw [Bool.and_eq_true] at h
  have h1 := ev_nonneg _ v h.1 hv.le
  have h2 := ev_nonneg _ v h.2 hv.le
  rw [ev_sub, ev_smul, ev_smul, ev_mul, ev_pow] at h1
  rw [ev_add, ev_smul, ev_smul, ev_mul, ev_pow] at h2
  have e4 : ev [4, 1] v = v + 4 := by simp only [ev]; push_cast; ring
  rw [e4] at h1 h2
  have hd : 0 < ev lanDen v := by
    rw [lanDen_ev]
    have p1 := lanN1_pos hv.le
    have p2 := lanN_pos hv.le
    positivity
  have hq : 0 < (v + 4)^4 := by positivity
  rw [lanD2_eq hv, abs_div, abs_of_pos hd, div_le_div_iff₀ hd hq]
  push_cast at h1 h2
  rcases abs_cases (ev lanNum v) with ⟨e, -⟩ | ⟨e, -⟩ <;> rw [e] <;> norm_num <;> nlinarith

/-! ## Limits -/

theorem shift_ratio (p : List ℤ) (a : ℤ) (ha : a ≠ 0) : Tendsto (fun v : ℝ => ev (p ++ [a]) (v + 1) / ev (p ++ [a]) v) atTop (𝓝 1) := by
  have h1 := tendsto_ev_div_pow p a
  have h2 := h1.comp (tendsto_atTop_add_const_right atTop (1:ℝ) tendsto_id)
  have h3 : Tendsto (fun v : ℝ => ((v + 1) / v) ^ p.length) atTop (𝓝 1) := by
    have : Tendsto (fun v : ℝ => (v + 1) / v) atTop (𝓝 1) := by
      have h : Tendsto (fun v : ℝ => 1 + 1 / v) atTop (𝓝 (1 + 0)) := tendsto_const_nhds.add (tendsto_const_nhds.div_atTop tendsto_id)
      rw [add_zero] at h
      refine h.congr' ?_
      filter_upwards [eventually_gt_atTop 0] with v hv
      field_simp
      
    simpa using this.pow p.length
  have ha' : (a:ℝ) ≠ 0 := by exact_mod_cast ha
  have h := (h2.div h1 ha').mul h3
  rw [div_self ha', one_mul] at h
  refine h.congr' ?_
  filter_upwards [eventually_gt_atTop 0] with v hv
  simp only [Function.comp, id, Pi.div_apply]
  rw [div_pow]
  have : (0:ℝ) < v ^ p.length := by positivity
  have : (0:ℝ) < (v+1) ^ p.length := by positivity
  by_cases hz : ev (p ++ [a]) v = 0
  · rw [hz]; simp
  · field_simp

theorem log_shift (c d : ℝ) : Tendsto (fun v : ℝ => Real.log (v + c) - Real.log (v + d)) atTop (𝓝 0) := by
  have h : Tendsto (fun v : ℝ => (v + c) / (v + d)) atTop (𝓝 1) := by
    have h1 : Tendsto (fun v : ℝ => 1 + (c - d) / (v + d)) atTop (𝓝 (1 + 0)) :=
      tendsto_const_nhds.add (tendsto_const_nhds.div_atTop (tendsto_atTop_add_const_right atTop d tendsto_id))
    rw [add_zero] at h1
    refine h1.congr' ?_
    filter_upwards [eventually_gt_atTop (-d)] with v hv
    have : v + d ≠ 0 := by linarith
    field_simp
    ring
  have h2 := h.log one_ne_zero
  rw [Real.log_one] at h2
  refine h2.congr' ?_
  filter_upwards [eventually_gt_atTop (-d), eventually_gt_atTop (-c)] with v hv hc
  rw [Real.log_div (by linarith) (by linarith)]

theorem lanN_split : lanN = lanN.dropLast ++ [100000000018971200000] := rfl

theorem logN_shift : Tendsto (fun v : ℝ => Real.log (ev lanN1 v) - Real.log (ev lanN v)) atTop (𝓝 0) := by
  have h := shift_ratio lanN.dropLast 100000000018971200000 (by decide)
  rw [← lanN_split] at h
  have h2 := h.log one_ne_zero
  rw [Real.log_one] at h2
  refine h2.congr' ?_
  filter_upwards [eventually_gt_atTop 0] with v hv
  rw [lanN1, ev_shift1, Real.log_div (lanN_pos (by linarith)).ne' (lanN_pos hv.le).ne']

theorem lanD_lim : Tendsto lanD atTop (𝓝 0) := by
  -- (v - 1/2)·log(1 + 1/(v + 9/2)) → 1
  have h1 : Tendsto (fun v : ℝ => (v + 9/2) * Real.log (1 + 1 / (v + 9/2))) atTop (𝓝 1) :=
    (Real.tendsto_mul_log_one_add_div_atTop 1).comp (tendsto_atTop_add_const_right atTop (9/2:ℝ) tendsto_id)
  have h2 := log_shift (11/2) (9/2)
  have h3 := log_shift (11/2) 6
  have h := ((logN_shift.add h3).add h1).sub ((h2.const_mul 5).add (tendsto_const_nhds (x := (1:ℝ))))
  simp only [mul_zero, zero_add, sub_self] at h
  refine h.congr' ?_
  filter_upwards [eventually_gt_atTop 0] with v hv
  have e : Real.log (1 + 1 / (v + 9/2)) = Real.log (v + 11/2) - Real.log (v + 9/2) := by
    rw [← Real.log_div (by linarith) (by linarith)]
    congr 1
    have : v + 9/2 ≠ 0 := by linarith
    field_simp
    ring
  rw [e]
  unfold lanD
  ring

theorem logDer_lim (p : List ℤ) (h : ∀ v : ℝ, 0 ≤ v → 0 < ev p v) (hn : nonneg (der p) = true) (k : ℤ)
    (hb : nonneg (sub (smul k p) (mul [0, 1] (der p))) = true) : Tendsto (fun v : ℝ => ev (der p) v / ev p v) atTop (𝓝 0) := by
  have hl : Tendsto (fun v : ℝ => (k:ℝ) / v) atTop (𝓝 0) := tendsto_const_nhds.div_atTop tendsto_id
  refine squeeze_zero' ?_ ?_ hl
  · filter_upwards [eventually_gt_atTop 0] with v hv
    exact div_nonneg (ev_nonneg _ _ hn hv.le) (h v hv.le).le
  · filter_upwards [eventually_gt_atTop 0] with v hv
    have h1 := ev_nonneg _ v hb hv.le
    rw [ev_sub, ev_smul, ev_mul] at h1
    have e : ev [0, 1] v = v := by simp only [ev]; push_cast; ring
    rw [e] at h1
    rw [div_le_div_iff₀ (h v hv.le) hv]
    linarith

theorem lanD1_lim : Tendsto lanD1 atTop (𝓝 0) := by
  have h1 := logDer_lim lanN1 (fun v => lanN1_pos) (by decide +kernel) 6 (by decide +kernel)
  have h2 := logDer_lim lanN (fun v => lanN_pos) (by decide +kernel) 6 (by decide +kernel)
  have inv : ∀ c d : ℝ, Tendsto (fun v : ℝ => c / (v + d)) atTop (𝓝 0) := fun c d =>
    tendsto_const_nhds.div_atTop (tendsto_atTop_add_const_right atTop d tendsto_id)
  have h := ((((h1.sub h2).sub (inv 1 6)).add (log_shift (11/2) (9/2))).sub (inv 5 (11/2))).add (inv 5 (9/2))
  simp only [sub_zero, add_zero] at h
  refine h.congr' ?_
  filter_upwards [eventually_gt_atTop 0] with v hv
  unfold lanD1
  have q1 : v + 11/2 ≠ 0 := by linarith
  have q2 : v + 9/2 ≠ 0 := by linarith
  rw [show (v + 1/2) / (v + 11/2) = 1 - 5 / (v + 11/2) by field_simp; ring,
    show (v - 1/2) / (v + 9/2) = 1 - 5 / (v + 9/2) by field_simp; ring]
  ring

/-- the defect is at most `1.25·10⁻⁸/(v+4)²` -/
theorem lanD_bound {v : ℝ} (hv : 0 < v) : |lanD v| ≤ 1.25e-8 / (v + 4)^2 := by
  have key : ∀ s : ℝ, |s| = 1 → 0 ≤ 1.25e-8 / (v + 4)^2 - s * lanD v := by
    intro s hs
    have hb0 : ∀ x : ℝ, 0 < x → HasDerivAt (fun x : ℝ => (1.25e-8:ℝ) / (x + 4)^2) (-(2.5e-8 / (x + 4)^3)) x := by
      intro x hx
      have h := (hasDerivAt_const x (1.25e-8:ℝ)).div ((hasDeriv_add 4 x).pow 2) (by
        have : x + 4 ≠ 0 := by linarith
        exact pow_ne_zero _ this)
      refine h.congr_deriv ?_
      have : x + 4 ≠ 0 := by linarith
      simp only [Pi.pow_apply]
      field_simp
      norm_num
      ring
    have hb1 : ∀ x : ℝ, 0 < x → HasDerivAt (fun x : ℝ => (2.5e-8:ℝ) / (x + 4)^3) (-(7.5e-8 / (x + 4)^4)) x := by
      intro x hx
      have h := (hasDerivAt_const x (2.5e-8:ℝ)).div ((hasDeriv_add 4 x).pow 3) (by
        have : x + 4 ≠ 0 := by linarith
        exact pow_ne_zero _ this)
      refine h.congr_deriv ?_
      have : x + 4 ≠ 0 := by linarith
      simp only [Pi.pow_apply]
      field_simp
      norm_num
      ring
    have lim : ∀ (c : ℝ) (n : ℕ), n ≠ 0 → Tendsto (fun x : ℝ => c / (x + 4)^n) atTop (𝓝 0) := fun c n hn =>
      tendsto_const_nhds.div_atTop ((tendsto_pow_atTop hn).comp (tendsto_atTop_add_const_right atTop (4:ℝ) tendsto_id))
    have step1 : ∀ x : ℝ, 0 < x → 0 ≤ 2.5e-8 / (x + 4)^3 + s * lanD1 x := by
      intro x hx
      refine nonneg_of_deriv_nonpos (f := fun x => 2.5e-8 / (x + 4)^3 + s * lanD1 x) (f' := fun x => -(7.5e-8 / (x + 4)^4) + s * lanD2 x)
        (fun y hy => (hb1 y hy).add ((lanD1_deriv hy).const_mul s)) (fun y hy => ?_) ?_ hx
      · have h1 : |s * lanD2 y| ≤ 7.5e-8 / (y + 4)^4 := by rw [abs_mul, hs, one_mul]; exact lanD2_bound hy
        have := (abs_le.1 h1).2
        linarith
      · have := (lim 2.5e-8 3 (by norm_num)).add (lanD1_lim.const_mul s)
        simpa using this
    refine nonneg_of_deriv_nonpos (f := fun x => 1.25e-8 / (x + 4)^2 - s * lanD x) (f' := fun x => -(2.5e-8 / (x + 4)^3) - s * lanD1 x)
      (fun y hy => (hb0 y hy).sub ((lanD_deriv hy).const_mul s)) (fun y hy => ?_) ?_ hv
    · have := step1 y hy
      linarith
    · have := (lim 1.25e-8 2 (by norm_num)).sub (lanD_lim.const_mul s)
      simpa using this
  rw [abs_le]
  have h1 := key 1 (by norm_num)
  have h2 := key (-1) (by norm_num)
  constructor <;> linarith

/-! ## From the defect to `log Γ` -/

/-- `10²⁰·v(v+1)…(v+5)` -/
def lanP : List ℤ := [0, 12000000000000000000000, 27400000000000000000000, 22500000000000000000000, 8500000000000000000000,
  1500000000000000000000, 100000000000000000000]

theorem lanP_ev (v : ℝ) : ev lanP v = 10^20 * (v * (v + 1) * (v + 2) * (v + 3) * (v + 4) * (v + 5)) := by
  simp only [lanP, ev]
  push_cast
  ring

theorem lanP_pos {v : ℝ} (hv : 0 < v) : 0 < ev lanP v := by
  rw [lanP_ev]
  positivity

/-- the approximation with the Lanczos sum written as one fraction -/
noncomputable def lanL (v : ℝ) : ℝ :=
  Real.log √(2 * Real.pi) + Real.log (ev lanN v / ev lanP v) - (v + 9/2) + Real.log (v + 9/2) * (v - 1/2)

theorem lanL_step {v : ℝ} (hv : 0 < v) : lanL (v + 1) - lanL v = lanD v + Real.log v := by
  have p1 := lanN_pos hv.le
  have p2 := lanP_pos hv
  have p3 := lanN_pos (v := v + 1) (by linarith)
  have p4 := lanP_pos (v := v + 1) (by linarith)
  unfold lanL lanD
  rw [Real.log_div p1.ne' p2.ne', Real.log_div p3.ne' p4.ne', lanN1, ev_shift1]
  have e : Real.log (ev lanP (v + 1)) + Real.log v = Real.log (ev lanP v) + Real.log (v + 6) := by
    rw [← Real.log_mul p4.ne' hv.ne', ← Real.log_mul p2.ne' (by linarith)]
    congr 1
    rw [lanP_ev, lanP_ev]
    ring
  rw [show v + 1 + 9/2 = v + 11/2 by ring, show v + 1 - 1/2 = v + 1/2 by ring]
  linarith

theorem lanL_sum {x : ℝ} (hx : 0 < x) : ∀ n : ℕ,
    lanL (x + n) - lanL x = ∑ m ∈ Finset.range n, lanD (x + m) + ∑ m ∈ Finset.range n, Real.log (x + m)
  | 0 => by simp
  | n+1 => by
    rw [Finset.sum_range_succ, Finset.sum_range_succ]
    have h := lanL_sum hx n
    have h2 := lanL_step (v := x + n) (by positivity)
    push_cast
    rw [← add_assoc]
    linarith

theorem lanD_sum {x : ℝ} (hx : 0 < x) (n : ℕ) : |∑ m ∈ Finset.range n, lanD (x + m)| ≤ 1.25e-8 / (x + 7/2) := by
  have h : ∀ n : ℕ, |∑ m ∈ Finset.range n, lanD (x + m)| ≤ 1.25e-8 / (x + 7/2) - 1.25e-8 / (x + n + 7/2) := by
    intro n
    induction n with
    | zero => simp
    | succ n ih =>
      rw [Finset.sum_range_succ]
      refine (abs_add_le _ _).trans ?_
      have h1 := lanD_bound (v := x + n) (by positivity)
      have h2 : (1.25e-8:ℝ) / (x + n + 4)^2 ≤ 1.25e-8 / (x + n + 7/2) - 1.25e-8 / (x + (n + 1 : ℕ) + 7/2) := by
        push_cast
        have hp : 0 < x + n := by positivity
        rw [show x + ((n:ℝ) + 1) + 7/2 = (x + n) + 9/2 by ring]
        generalize x + (n:ℝ) = y at hp ⊢
        have e : (1.25e-8:ℝ) / (y + 7/2) - 1.25e-8 / (y + 9/2) = 1.25e-8 / ((y + 7/2) * (y + 9/2)) := by
          field_simp
          norm_num
        rw [e]
        apply div_le_div_of_nonneg_left (by norm_num) (by positivity)
        nlinarith
      linarith
  refine (h n).trans ?_
  have : (0:ℝ) ≤ 1.25e-8 / (x + n + 7/2) := by positivity
  linarith

theorem lanS_lim : Tendsto (fun v : ℝ => Real.log (ev lanN v / ev lanP v)) atTop (𝓝 (Real.log 1.000000000189712)) := by
  have h1 := tendsto_ev_div_pow lanN.dropLast 100000000018971200000
  have h2 := tendsto_ev_div_pow lanP.dropLast 100000000000000000000
  have h := (h1.div h2 (by norm_num)).log (by norm_num)
  rw [← show lanN = lanN.dropLast ++ [100000000018971200000] from rfl, ← show lanP = lanP.dropLast ++ [100000000000000000000] from rfl,
    show lanN.dropLast.length = 6 from rfl, show lanP.dropLast.length = 6 from rfl] at h
  have e : ((100000000018971200000 : ℤ) : ℝ) / ((100000000000000000000 : ℤ) : ℝ) = 1.000000000189712 := by norm_num
  rw [e] at h
  refine h.congr' ?_
  filter_upwards [eventually_gt_atTop 0] with v hv
  simp only [Pi.div_apply]
  have := lanP_pos hv
  congr 1
  field_simp

theorem lanL_lim (x : ℝ) (hx : 0 < x) : Tendsto (fun n : ℕ => lanL (x + (n + 1 : ℕ)) - (x * Real.log n + Real.log n.factorial)) atTop
    (𝓝 (Real.log 1.000000000189712)) := by
  have hn : Tendsto (fun n : ℕ => (n : ℝ)) atTop atTop := tendsto_natCast_atTop_atTop
  have h1 := lanS_lim.comp ((tendsto_atTop_add_const_left atTop x tendsto_id).comp ((tendsto_atTop_add_const_right atTop (1:ℝ) tendsto_id).comp hn))
  have h2 := (Real.tendsto_mul_log_one_add_div_atTop (x + 11/2)).comp hn
  have h3 := ((log_shift (x + 11/2) 0).comp hn).const_mul (x + 1/2)
  have h4 := (Stirling.tendsto_stirlingSeq_sqrt_pi).log (by positivity)
  have h := ((h1.add h2).add h3).sub h4
  have h' := (h.add_const (Real.log √(2 * Real.pi) - 1/2 * Real.log 2 - (x + 11/2)))
  have e : Real.log 1.000000000189712 + (x + 11/2) + (x + 1/2) * 0 - Real.log √Real.pi
      + (Real.log √(2 * Real.pi) - 1/2 * Real.log 2 - (x + 11/2)) = Real.log 1.000000000189712 := by
    rw [Real.log_sqrt (by positivity), Real.log_sqrt (by positivity), Real.log_mul (by norm_num) (by positivity)]
    ring
  rw [e] at h'
  refine h'.congr' ?_
  filter_upwards [eventually_gt_atTop 0] with n hn0
  have hp : (0:ℝ) < n := by exact_mod_cast hn0
  have hs := Stirling.log_stirlingSeq_formula n
  rw [Real.log_div hp.ne' (Real.exp_ne_zero _), Real.log_exp, Real.log_mul (by norm_num) hp.ne'] at hs
  simp only [Function.comp, id]
  rw [hs]
  unfold lanL
  have e2 : Real.log (1 + (x + 11/2) / n) = Real.log (n + (x + 11/2)) - Real.log n := by
    rw [← Real.log_div (by positivity) hp.ne']
    congr 1
    field_simp
  rw [e2, add_zero]
  push_cast
  rw [show x + ((n:ℝ) + 1) + 9/2 = n + (x + 11/2) by ring]
  ring

theorem lanL_acc {x : ℝ} (hx : 0 < x) : |lanL x - Real.log (Real.Gamma x) - Real.log 1.000000000189712| ≤ 1.25e-8 / (x + 7/2) := by
  have h1 := Real.BohrMollerup.tendsto_log_gamma hx
  have h2 := lanL_lim x hx
  have h3 := ((tendsto_const_nhds (x := lanL x)).sub h1).sub h2
  refine le_of_tendsto h3.abs (Eventually.of_forall fun n => ?_)
  have h4 := lanL_sum hx (n + 1)
  have h5 := lanD_sum hx (n + 1)
  unfold Real.BohrMollerup.logGammaSeq
  rw [← abs_neg]
  refine le_trans (le_of_eq ?_) h5
  congr 1
  linarith

theorem lnGamma_eq_lanL {v : ℝ} (hv : 0 < v) : lnGamma v = lanL v := by
  have e : lanczosSum (v - 1.0) + lg5n7Head = ev lanN v / ev lanP v := by
    have h0 : v ≠ 0 := hv.ne'
    have h1 : v + 1 ≠ 0 := by positivity
    have h2 : v + 2 ≠ 0 := by positivity
    have h3 : v + 3 ≠ 0 := by positivity
    have h4 : v + 4 ≠ 0 := by positivity
    have h5 : v + 5 ≠ 0 := by positivity
    rw [lanP_ev]
    simp only [lanczosSum, lg5n7Tail, lg5n7Head, lanN, ev, List.range, List.range.loop, List.zip, List.zipWith, List.foldl, Arith.ofNat]
    push_cast
    rw [show v - 1.0 + 1 = v by norm_num, show v - 1.0 + 2 = v + 1 by norm_num; ring, show v - 1.0 + 3 = v + 2 by norm_num; ring,
      show v - 1.0 + 4 = v + 3 by norm_num; ring, show v - 1.0 + 5 = v + 4 by norm_num; ring, show v - 1.0 + 6 = v + 5 by norm_num; ring]
    rw [eq_div_iff (by positivity), show (0.0:ℝ) = 0 by norm_num]
    field_simp
    ring
  unfold lnGamma lanL
  simp only [e]
  show Real.log √(2.0 * Real.pi) + Real.log (ev lanN v / ev lanP v) - (v - 1.0 + 5.0 + 0.5) + Real.log (v - 1.0 + 5.0 + 0.5) * (v - 1.0 + 0.5) = _
  norm_num
  rw [show v - 1 + 5 + 1/2 = v + 9/2 by ring, show v - 1 + 1/2 = v - 1/2 by ring]

end Verif
