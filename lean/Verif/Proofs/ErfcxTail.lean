import Verif.Proofs.ErfcxReal
import Verif.Proofs.ErfcxAcc
import Verif.Proofs.ZPoly
import Verif.Proofs.FlErr

/-! # erfcx outside the table: Maclaurin series and asymptotic expansions (over the reals) -/

namespace Verif
open Filter Topology ZPoly

namespace ZPoly
/-- coefficientwise absolute value -/
def absl : List ℤ → List ℤ
  | [] => []
  | a :: p => |a| :: absl p

theorem absl_nonneg : ∀ (p : List ℤ) {X : ℝ}, 0 ≤ X → 0 ≤ ev (absl p) X
  | [], _, _ => le_refl _
  | a :: p, X, h => by
    have := absl_nonneg p h
    simp only [absl, ev]
    push_cast
    positivity

theorem ev_abs_le : ∀ (p : List ℤ) {x X : ℝ}, |x| ≤ X → |ev p x| ≤ ev (absl p) X
  | [], _, _, _ => by simp [ev, absl]
  | a :: p, x, X, h => by
    have ih := ev_abs_le p h
    simp only [ev, absl]
    push_cast
    refine (abs_add_le _ _).trans (add_le_add (le_refl _) ?_)
    rw [abs_mul]
    exact mul_le_mul h ih (abs_nonneg _) ((abs_nonneg _).trans h)
end ZPoly

theorem nonneg_of_deriv_nonpos_gt {a : ℝ} {f f' : ℝ → ℝ} (h : ∀ x, a < x → HasDerivAt f (f' x) x) (hneg : ∀ x, a < x → f' x ≤ 0)
    (lim : Tendsto f atTop (𝓝 0)) {x : ℝ} (hx : a < x) : 0 ≤ f x := by
  have hanti : AntitoneOn f (Set.Ioi a) := by
    refine antitoneOn_of_deriv_nonpos (convex_Ioi a) (fun y hy => (h y hy).continuousAt.continuousWithinAt) ?_ ?_
    · intro y hy; rw [interior_Ioi] at hy; exact (h y hy).differentiableAt.differentiableWithinAt
    · intro y hy; rw [interior_Ioi] at hy; rw [(h y hy).deriv]; exact hneg y hy
  refine le_of_tendsto lim ?_
  filter_upwards [eventually_ge_atTop x] with y hy
  exact hanti hx (lt_of_lt_of_le hx hy) hy

/-- a function that satisfies the differential equation of erfcx up to `ε·2/√π` on `(a,∞)` and vanishes at infinity is erfcx up to a relative error `ε` -/
theorem ode_tail {a ε : ℝ} {f f' : ℝ → ℝ} (hf : ∀ x, a < x → HasDerivAt f (f' x) x) (hr : ∀ x, a < x → |f' x - 2 * x * f x + kap| ≤ ε * kap)
    (lim : Tendsto f atTop (𝓝 0)) {x : ℝ} (hx : a < x) : |f x - erfcxR x| ≤ ε * erfcxR x := by
  have key : ∀ s : ℝ, |s| = 1 → 0 ≤ ε * erfcR x - s * (Real.exp (-x^2) * f x - erfcR x) := by
    intro s hs
    refine nonneg_of_deriv_nonpos_gt (a := a) (f := fun x => ε * erfcR x - s * (Real.exp (-x^2) * f x - erfcR x))
      (f' := fun x => ε * (-(kap * Real.exp (-x^2))) - s * (Real.exp (-x^2) * (f' x - 2 * x * f x + kap))) ?_ ?_ ?_ hx
    · intro y hy
      have h1 : HasDerivAt (fun y : ℝ => Real.exp (-y^2)) (Real.exp (-y^2) * -(2 * y)) y := by
        have := (hasDerivAt_pow 2 y).neg.exp
        simpa using this
      have d := ((erfcR_deriv y).const_mul ε).sub (((h1.mul (hf y hy)).sub (erfcR_deriv y)).const_mul s)
      refine d.congr_deriv ?_
      ring
    · intro y hy
      have : |s * (f' y - 2 * y * f y + kap)| ≤ ε * kap := by rw [abs_mul, hs, one_mul]; exact hr y hy
      have h3 := (abs_le.1 this).1
      have he := Real.exp_pos (-y^2)
      have h4 : 0 ≤ Real.exp (-y^2) * (ε * kap + s * (f' y - 2 * y * f y + kap)) := mul_nonneg he.le (by linarith)
      linarith
    · have hG : Tendsto (fun z : ℝ => Real.exp (-z^2) * f z) atTop (𝓝 0) := by
        refine squeeze_zero_norm' ?_ (by simpa using lim.norm)
        filter_upwards with y
        rw [norm_mul, Real.norm_eq_abs (Real.exp _), abs_of_pos (Real.exp_pos _)]
        refine mul_le_of_le_one_left (norm_nonneg _) ?_
        rw [Real.exp_le_one_iff]; nlinarith [sq_nonneg y]
      have := (erfcR_tendsto.const_mul ε).sub ((hG.sub erfcR_tendsto).const_mul s)
      simpa using this
  have h1 := key 1 (by norm_num)
  have h2 := key (-1) (by norm_num)
  have h3 : |Real.exp (-x^2) * f x - erfcR x| ≤ ε * erfcR x := by
    rw [abs_le]; constructor <;> linarith
  have he := Real.exp_pos (x^2)
  have e1 : Real.exp (x^2) * Real.exp (-x^2) = 1 := by rw [← Real.exp_add]; simp
  have : f x - erfcxR x = Real.exp (x^2) * (Real.exp (-x^2) * f x - erfcR x) := by
    unfold erfcxR
    rw [mul_sub, ← mul_assoc, e1, one_mul]
  rw [this, abs_mul, abs_of_pos he]
  unfold erfcxR
  have := mul_le_mul_of_nonneg_left h3 he.le
  linarith

/-! ## Asymptotic expansions -/

/-- `x ↦ A(1/x²)/x`, coefficients in units of `10⁻¹⁷` -/
noncomputable def asyF (a : List ℤ) (x : ℝ) : ℝ := ev a (1 / x^2) / 10^17 / x

/-- `10¹⁷·(2A + wA + 2w²A')` -/
def asyQ (a : List ℤ) : List ℤ := add (mul [2, 1] a) (mul [0, 0, 2] (der a))

theorem asyF_deriv (a : List ℤ) {x : ℝ} (hx : 0 < x) :
    HasDerivAt (asyF a) (2 * x * asyF a x - ev (asyQ a) (1 / x^2) / 10^17) x := by
  have d0 : HasDerivAt (fun x : ℝ => 1 / x^2) (-2 / x^3) x := by
    have := (hasDerivAt_const x (1:ℝ)).div (hasDerivAt_pow 2 x) (by positivity)
    refine this.congr_deriv ?_
    field_simp
    norm_num
    ring
  have d := (((hasDerivAt_ev a (1 / x^2)).comp x d0).div_const ((10:ℝ)^17)).div (hasDerivAt_id x) hx.ne'
  refine d.congr_deriv ?_
  unfold asyF asyQ
  rw [ev_add, ev_mul, ev_mul]
  simp only [Function.comp, id, ev]
  push_cast
  generalize ev a (1 / x^2) = p
  generalize ev (der a) (1 / x^2) = q
  field_simp
  ring

theorem asyF_lim (a : List ℤ) : Tendsto (asyF a) atTop (𝓝 0) := by
  have h1 : Tendsto (fun x : ℝ => 1 / x^2) atTop (𝓝 0) := tendsto_const_nhds.div_atTop (tendsto_pow_atTop (by norm_num))
  have h2 : Tendsto (fun x : ℝ => ev a (1 / x^2) / 10^17) atTop (𝓝 (ev a 0 / 10^17)) :=
    ((hasDerivAt_ev a 0).continuousAt.tendsto.comp h1).div_const _
  exact h2.div_atTop tendsto_id

theorem asy_acc (a : List ℤ) {X ε : ℝ} (hX : 0 < X) (h : ∀ w, 0 ≤ w → w ≤ 1 / X^2 → |kap - ev (asyQ a) w / 10^17| ≤ ε * kap) {x : ℝ} (hx : X < x) :
    |asyF a x - erfcxR x| ≤ ε * erfcxR x := by
  refine ode_tail (a := X) (fun y hy => asyF_deriv a (hX.trans hy)) (fun y hy => ?_) (asyF_lim a) hx
  have hy0 := hX.trans hy
  have := h (1 / y^2) (by positivity) (one_div_le_one_div_of_le (by positivity) (by gcongr))
  convert this using 2
  ring

def asy10 : List ℤ := [56418958354775630, -28209479177387814, 42314218766081724, -105785546915204300, 370249414203215070, -1666122363914467600,
  9163673001529573000, -59563874509942220000, 446729058824566700000, -3797197000008816400000, 36073371500083760000000]
def asy6 : List ℤ := [56418958354775630, -28209479177387814, 42314218766081724, -105785546915204300, 370249414203215070, -1666122363914467600,
  9163673001529573000]
def asy3 : List ℤ := [56418958354775630, -28209479177387814, 42314218766081724, -105785546915204300]

theorem asy_resid (a : List ℤ) (q0 : ℤ) (qs : List ℤ) (hq : asyQ a = q0 :: qs) {w W : ℝ} (h0 : 0 ≤ w) (hw : w ≤ W) :
    |kap - ev (asyQ a) w / 10^17| ≤ |kap - q0 / 10^17| + W * ev (absl qs) W / 10^17 := by
  rw [hq]
  simp only [ev]
  have h1 : |w| ≤ W := by rwa [abs_of_nonneg h0]
  have h2 := ev_abs_le qs h1
  have h3 : |w * ev qs w| ≤ W * ev (absl qs) W := by
    rw [abs_mul]; exact mul_le_mul h1 h2 (abs_nonneg _) (h0.trans hw)
  rw [show kap - (q0 + w * ev qs w) / 10^17 = (kap - q0 / 10^17) - w * ev qs w / 10^17 by ring]
  refine (abs_sub _ _).trans ?_
  rw [abs_div, abs_of_pos (by positivity : (0:ℝ) < 10^17)]
  have : |w * ev qs w| / 10^17 ≤ W * ev (absl qs) W / 10^17 := by gcongr
  linarith

theorem kap_a0 : |kap - ((112837916709551260 : ℤ) : ℝ) / 10^17| ≤ 3 / 10^17 := by
  have := kap_bounds
  rw [abs_le]; push_cast
  constructor <;> norm_num <;> linarith [this.1, this.2]

theorem asy10_acc {x : ℝ} (hx : 12 ≤ x) : |asyF asy10 x - erfcxR x| ≤ 1 / 10^15 * erfcxR x := by
  refine asy_acc asy10 (X := 11.9) (by norm_num) (fun w h0 hw => ?_) (by linarith)
  refine (asy_resid asy10 _ _ rfl h0 hw).trans ?_
  refine le_trans (add_le_add kap_a0 (le_refl _)) ?_
  have := kap_bounds.1
  norm_num [ev, absl, asy10, add, smul, mul, der]
  linarith

theorem asy6_acc {x : ℝ} (hx : 23 ≤ x) : |asyF asy6 x - erfcxR x| ≤ 1 / 10^15 * erfcxR x := by
  refine asy_acc asy6 (X := 22.9) (by norm_num) (fun w h0 hw => ?_) (by linarith)
  refine (asy_resid asy6 _ _ rfl h0 hw).trans ?_
  refine le_trans (add_le_add kap_a0 (le_refl _)) ?_
  have := kap_bounds.1
  norm_num [ev, absl, asy6, add, smul, mul, der]
  linarith

theorem asy3_acc {x : ℝ} (hx : 149 ≤ x) : |asyF asy3 x - erfcxR x| ≤ 1 / 10^15 * erfcxR x := by
  refine asy_acc asy3 (X := 148) (by norm_num) (fun w h0 hw => ?_) (by linarith)
  refine (asy_resid asy3 _ _ rfl h0 hw).trans ?_
  refine le_trans (add_le_add kap_a0 (le_refl _)) ?_
  have := kap_bounds.1
  norm_num [ev, absl, asy3, add, smul, mul, der]
  linarith

/-- the leading term alone -/
theorem asy0_acc {x : ℝ} (hx : 6e7 ≤ x) : |kap / 2 / x - erfcxR x| ≤ 1 / 10^15 * erfcxR x := by
  have hd : ∀ y : ℝ, 5e7 < y → HasDerivAt (fun y => kap / 2 / y) (-(kap / 2 / y^2)) y := by
    intro y hy
    have := (hasDerivAt_const y (kap / 2)).div (hasDerivAt_id y) (by simp only [id]; linarith)
    refine this.congr_deriv ?_
    simp only [id]
    ring
  refine ode_tail (a := 5e7) (f := fun y => kap / 2 / y) hd (fun y hy => ?_) (tendsto_const_nhds.div_atTop tendsto_id) (by linarith)
  have hy0 : 0 < y := by linarith
  have hk := kap_pos
  rw [show -(kap / 2 / y^2) - 2 * y * (kap / 2 / y) + kap = -(kap / 2 / y^2) by field_simp; ring, abs_neg, abs_of_pos (by positivity)]
  rw [div_le_iff₀ (by positivity)]
  have : (25e14 : ℝ) ≤ y^2 := by nlinarith
  nlinarith

/-! ## Maclaurin series -/

theorem mac_real {ρ : ℝ} {P P' : ℝ → ℝ} (hP : ∀ t, HasDerivAt P (P' t) t) (h0 : P 0 = 1) (hR : ∀ t, |t| ≤ 1/8 → |P' t - 2 * t * P t + kap| ≤ ρ)
    {x : ℝ} (hx : |x| ≤ 1/8) : |P x - erfcxR x| ≤ ρ / 7 := by
  have hρ : 0 ≤ ρ := (abs_nonneg _).trans (hR 0 (by norm_num))
  have hd : ∀ t ∈ Set.Icc (-(1/8):ℝ) (1/8), HasDerivWithinAt (fun t => Real.exp (-t^2) * P t - erfcR t) (Real.exp (-t^2) * (P' t - 2 * t * P t + kap))
      (Set.Icc (-(1/8)) (1/8)) t := by
    intro t _
    have h1 : HasDerivAt (fun y : ℝ => Real.exp (-y^2)) (Real.exp (-t^2) * -(2 * t)) t := by
      have := (hasDerivAt_pow 2 t).neg.exp
      simpa using this
    have d := (h1.mul (hP t)).sub (erfcR_deriv t)
    refine (d.congr_deriv ?_).hasDerivWithinAt
    ring
  have hb : ∀ t ∈ Set.Icc (-(1/8):ℝ) (1/8), ‖Real.exp (-t^2) * (P' t - 2 * t * P t + kap)‖ ≤ ρ := by
    intro t ht
    rw [norm_mul, Real.norm_eq_abs, Real.norm_eq_abs, abs_of_pos (Real.exp_pos _)]
    refine le_trans (mul_le_of_le_one_left (abs_nonneg _) ?_) (hR t (abs_le.2 ht))
    rw [Real.exp_le_one_iff]; nlinarith [sq_nonneg t]
  have h := (convex_Icc (-(1/8):ℝ) (1/8)).norm_image_sub_le_of_norm_hasDerivWithin_le hd hb (x := 0) (y := x) (by constructor <;> norm_num) (abs_le.1 hx)
  simp only [h0, erfcR_zero, ne_eq, OfNat.ofNat_ne_zero, not_false_eq_true, zero_pow, neg_zero, Real.exp_zero, mul_one, sub_self, sub_zero, Real.norm_eq_abs] at h
  have h2 : |Real.exp (-x^2) * P x - erfcR x| ≤ ρ / 8 := h.trans (by nlinarith)
  have he := Real.exp_pos (x^2)
  have e1 : Real.exp (x^2) * Real.exp (-x^2) = 1 := by rw [← Real.exp_add]; simp
  have e2 : P x - erfcxR x = Real.exp (x^2) * (Real.exp (-x^2) * P x - erfcR x) := by
    unfold erfcxR
    rw [mul_sub, ← mul_assoc, e1, one_mul]
  rw [e2, abs_mul, abs_of_pos he]
  have hx2 : x^2 ≤ 1/64 := by rw [← sq_abs]; nlinarith [abs_nonneg x]
  have h3 : Real.exp (x^2) ≤ 8/7 := by
    have h4 := Real.exp_bound_div_one_sub_of_interval (sq_nonneg x) (by linarith)
    refine h4.trans ?_
    rw [div_le_div_iff₀ (by linarith) (by norm_num)]
    linarith
  calc Real.exp (x^2) * |Real.exp (-x^2) * P x - erfcR x| ≤ 8/7 * (ρ / 8) := mul_le_mul h3 h2 (abs_nonneg _) (by norm_num)
    _ = ρ / 7 := by ring

/-- the coefficients of `erfcxMaclaurin` from the square on, in units of `10⁻²⁰` -/
def macC : List ℤ := [100000000000000000000, -75225277806367510000, 50000000000000000000, -30090111122547003000, 16666666666666666000, -8597174606442000000,
  4166666666666666400, -1910483245876000000, 833333333333333300, -347360590159272740, 138888888888888900, -53440090793734270, 19841269841269840]

noncomputable def macF (x : ℝ) : ℝ := 1 + x * (-kap + x * (ev macC x / 10^20))

theorem macF_acc {x : ℝ} (hx : |x| ≤ 1/8) : |macF x - erfcxR x| ≤ 1 / 10^16 := by
  have hd : ∀ t, HasDerivAt macF (-kap + (2 * t * (ev macC t / 10^20) + t^2 * (ev (der macC) t / 10^20))) t := by
    intro t
    have h0 := (hasDerivAt_ev macC t).div_const ((10:ℝ)^20)
    have h := (((hasDerivAt_id t).mul (((hasDerivAt_id t).mul h0).const_add (-kap)))).const_add 1
    refine h.congr_deriv ?_
    simp only [id]
    show 1 * (-kap + t * (ev macC t / 10^20)) + t * (1 * (ev macC t / 10^20) + t * (ev (der macC) t / 10^20)) = _
    ring
  have h := mac_real (ρ := 7 / 10^16) hd (by unfold macF; simp) (fun t ht => ?_) hx
  · refine h.trans (by norm_num)
  · -- residual
    let q : List ℤ := sub (sub (add (smul 2 macC) (mul [0, 1] (der macC))) [200000000000000000000, -225675833419102520000]) (mul [0, 0, 2] macC)
    have e : -kap + (2 * t * (ev macC t / 10^20) + t^2 * (ev (der macC) t / 10^20)) - 2 * t * macF t + kap
        = t^2 * (2 * (kap - 1.1283791670955126)) + t * (ev q t / 10^20) := by
      simp only [q]
      rw [ev_sub, ev_sub, ev_add, ev_smul, ev_mul, ev_mul]
      unfold macF
      simp only [ev]
      push_cast
      ring
    rw [e]
    have h1 := ev_abs_le q ht
    have h2 : ev (absl q) (1/8) ≤ 10^20 * (3 / 10^15) := by
      norm_num [q, absl, macC, add, sub, smul, mul, der, ev]
    have hk := kap_bounds
    have h3 : |kap - 1.1283791670955126| ≤ 1 / 10^16 := by rw [abs_le]; constructor <;> linarith [hk.1, hk.2]
    have ht2 : t^2 ≤ 1/64 := by rw [← sq_abs]; nlinarith [abs_nonneg t]
    refine (abs_add_le _ _).trans ?_
    rw [abs_mul, abs_mul, abs_mul, abs_div, abs_of_nonneg (sq_nonneg t), abs_of_pos (by positivity : (0:ℝ) < 10^20), abs_of_pos (by norm_num : (0:ℝ) < 2)]
    have h5 : |ev q t| / 10^20 ≤ 3 / 10^15 := by rw [div_le_iff₀ (by positivity)]; linarith
    have h6 : |t| * (|ev q t| / 10^20) ≤ 1/8 * (3 / 10^15) := mul_le_mul ht h5 (by positivity) (by norm_num)
    have h7 : t^2 * (2 * |kap - 1.1283791670955126|) ≤ 1/64 * (2 * (1 / 10^16)) := mul_le_mul ht2 (by linarith) (by positivity) (by norm_num)
    refine (add_le_add h7 h6).trans (by norm_num)

end Verif
