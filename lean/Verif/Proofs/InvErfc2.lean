import Verif.Proofs.InvErfc
import Verif.Props.ErfcxAll

/-! One Halley step of `inverfc` (src/error.rs:81-84), with perturbed ingredients. -/

namespace Verif
namespace InvErfc

/-- `(erfc(x) - erfc(x+v)) / (2/√π·e^(-x²))`, the Newton step from `x` towards `x+v` -/
noncomputable def QQ (x v : ℝ) : ℝ := (erfcR x - erfcR (x + v)) * Real.exp (x^2) / kap

theorem QQ_zero (x : ℝ) : QQ x 0 = 0 := by unfold QQ; simp

theorem QQ_neg (x v : ℝ) : QQ x (-v) = -QQ (-x) v := by
  unfold QQ
  have h1 := erfcR_neg x
  have h2 := erfcR_neg (x + -v)
  rw [show -(x + -v) = -x + v by ring] at h2
  rw [h1, h2, neg_sq]
  ring

theorem QQ_deriv (x v : ℝ) : HasDerivAt (QQ x) (Real.exp (-(2 * x * v + v^2))) v := by
  have h0 : HasDerivAt (fun v => x + v) 1 v := (hasDerivAt_id v).const_add x
  have h1 := (erfcR_deriv (x + v)).comp v h0
  have h2 := (((h1.const_sub (erfcR x)).mul_const (Real.exp (x^2))).div_const kap)
  refine h2.congr_deriv ?_
  have hk := kap_pos.ne'
  rw [show -(2 * x * v + v^2) = -(x + v)^2 + x^2 by ring, Real.exp_add]
  field_simp

theorem exp_second {w : ℝ} (h : |w| ≤ 0.2) : |Real.exp (-w) - 1 + w| ≤ 0.55 * w^2 := by
  have hb := Real.exp_bound (x := -w) (by rw [abs_neg]; norm_num at h ⊢; linarith) (n := 3) (by norm_num)
  simp only [Finset.sum_range_succ, Finset.sum_range_zero, Nat.factorial, abs_neg] at hb
  have hc : |w|^3 ≤ 0.2 * w^2 := by
    rw [show |w|^3 = |w| * |w|^2 by ring, sq_abs]
    exact mul_le_mul_of_nonneg_right h (sq_nonneg w)
  have ha := abs_le.1 hb
  rw [abs_le]
  norm_num at ha hc ⊢
  constructor <;> nlinarith [ha.1, ha.2, sq_nonneg w]

/-- third-order expansion of the Newton step -/
theorem QQ_bound_pos {x d X h : ℝ} (hx : |x| ≤ X) (hd0 : 0 ≤ d) (hd : d ≤ h) (hXh : (2 * X + h) * h ≤ 0.2) :
    |QQ x d - d + x * d^2| ≤ (0.55 * (2 * X + h)^2 + 1) / 3 * d^3 := by
  have hX : 0 ≤ X := (abs_nonneg x).trans hx
  have hh : 0 ≤ h := hd0.trans hd
  have key : ∀ σ : ℝ, |σ| = 1 → 0 ≤ σ * (QQ x d - d + x * d^2) + (0.55 * (2 * X + h)^2 + 1) / 3 * d^3 := by
    intro σ hσ
    have hder : ∀ v, HasDerivAt (fun v => σ * (QQ x v - v + x * v^2) + (0.55 * (2 * X + h)^2 + 1) / 3 * v^3)
        (σ * (Real.exp (-(2 * x * v + v^2)) - 1 + x * (2 * v)) + (0.55 * (2 * X + h)^2 + 1) / 3 * (3 * v^2)) v := by
      intro v
      have a := (((QQ_deriv x v).sub (hasDerivAt_id v)).add ((hasDerivAt_pow 2 v).const_mul x)).const_mul σ
      have b := (hasDerivAt_pow 3 v).const_mul ((0.55 * (2 * X + h)^2 + 1) / 3)
      refine (a.add b).congr_deriv ?_
      norm_num
    have mono : MonotoneOn (fun v => σ * (QQ x v - v + x * v^2) + (0.55 * (2 * X + h)^2 + 1) / 3 * v^3) (Set.Icc 0 h) := by
      refine monotoneOn_of_deriv_nonneg (convex_Icc 0 h) (fun v _ => (hder v).continuousAt.continuousWithinAt)
        (fun v _ => (hder v).differentiableAt.differentiableWithinAt) fun v hv => ?_
      rw [interior_Icc] at hv
      rw [(hder v).deriv]
      have hv0 := hv.1.le
      have hw : |2 * x * v + v^2| ≤ (2 * X + h) * v := by
        rw [show 2 * x * v + v^2 = (2 * x + v) * v by ring, abs_mul, abs_of_nonneg hv0]
        refine mul_le_mul_of_nonneg_right ?_ hv0
        refine (abs_add_le _ _).trans ?_
        rw [abs_mul, abs_of_nonneg hv0, abs_two]
        linarith [hv.2]
      have hw2 : |2 * x * v + v^2| ≤ 0.2 := hw.trans ((mul_le_mul_of_nonneg_left hv.2.le (by linarith)).trans hXh)
      have he := exp_second hw2
      have hsq : (2 * x * v + v^2)^2 ≤ ((2 * X + h) * v)^2 := sq_le_sq' (by linarith [(abs_le.1 hw).1]) (abs_le.1 hw).2
      have hs : |σ * (Real.exp (-(2 * x * v + v^2)) - 1 + x * (2 * v))| ≤ 0.55 * ((2 * X + h) * v)^2 + v^2 := by
        rw [abs_mul, hσ, one_mul, show Real.exp (-(2 * x * v + v^2)) - 1 + x * (2 * v) = (Real.exp (-(2 * x * v + v^2)) - 1 + (2 * x * v + v^2)) - v^2 by ring]
        refine (abs_sub _ _).trans ?_
        rw [abs_of_nonneg (sq_nonneg v)]
        have : (0.55:ℝ) * (2 * x * v + v^2)^2 ≤ 0.55 * ((2 * X + h) * v)^2 := mul_le_mul_of_nonneg_left hsq (by norm_num)
        linarith
      have := (abs_le.1 hs).1
      rw [mul_pow] at this
      linarith
    have := mono (Set.left_mem_Icc.2 hh) (Set.mem_Icc.2 ⟨hd0, hd⟩) hd0
    simpa [QQ_zero] using this
  have h1 := key 1 (by norm_num)
  have h2 := key (-1) (by norm_num)
  rw [abs_le]
  constructor <;> linarith

theorem QQ_bound {x d X h : ℝ} (hx : |x| ≤ X) (hd : |d| ≤ h) (hXh : (2 * X + h) * h ≤ 0.2) :
    |QQ x d - d + x * d^2| ≤ (0.55 * (2 * X + h)^2 + 1) / 3 * h^3 := by
  have hh : 0 ≤ h := (abs_nonneg d).trans hd
  have hc : 0 ≤ (0.55 * (2 * X + h)^2 + 1) / 3 := by positivity
  have up : (0.55 * (2 * X + h)^2 + 1) / 3 * |d|^3 ≤ (0.55 * (2 * X + h)^2 + 1) / 3 * h^3 :=
    mul_le_mul_of_nonneg_left (pow_le_pow_left₀ (abs_nonneg d) hd 3) hc
  refine le_trans ?_ up
  rcases le_or_gt 0 d with h0 | h0
  · rw [abs_of_nonneg h0] at hd ⊢
    exact QQ_bound_pos hx h0 hd hXh
  · rw [abs_of_neg h0] at hd ⊢
    have := QQ_bound_pos (x := -x) (d := -d) (by rwa [abs_neg]) (by linarith) hd hXh
    have e := QQ_neg x (-d)
    rw [neg_neg] at e
    rw [show QQ x d - d + x * d^2 = -(QQ (-x) (-d) - -d + -x * (-d)^2) by rw [e]; ring, abs_neg]
    exact this

/-- One Halley step from `x`, aiming at `x + d`: `n` is an error in the Newton step, `θ` a relative error in the derivative. -/
theorem halley {x d X h n θ : ℝ} (hx : |x| ≤ X) (hd : |d| ≤ h) (hXh : X * h ≤ 0.07) (hh : h ≤ 0.004) (hX : X ≤ 28) (hn : |n| ≤ 1 / 10^5) (hθ : |θ| ≤ 1 / 10^5) :
    0.9 ≤ 1 + θ - x * (QQ x d + n) ∧ |QQ x d + n| ≤ 1.1 * h + |n| ∧
    |(QQ x d + n) / (1 + θ - x * (QQ x d + n)) - d| ≤ (2 * X^2 + 1) * h^3 + 1.2 * |n| + 1.1 * |θ| * h := by
  have hX0 : 0 ≤ X := (abs_nonneg x).trans hx
  have hh0 : 0 ≤ h := (abs_nonneg d).trans hd
  have hb := QQ_bound hx hd (by nlinarith)
  generalize QQ x d = q at *
  set r : ℝ := (0.55 * (2 * X + h)^2 + 1) / 3 * h^3 with hr
  have hh3 : 0 ≤ h^3 := by positivity
  have hX2 : 0 ≤ X^2 * h^3 := by positivity
  have hr1 : r ≤ (0.734 * X^2 + 0.39) * h^3 := by
    rw [hr]
    refine mul_le_mul_of_nonneg_right ?_ hh3
    nlinarith
  have hr0 : 0 ≤ r := by rw [hr]; positivity
  have hxd2 : |x * d^2| ≤ X * h^2 := by
    rw [abs_mul, abs_pow]
    exact mul_le_mul hx (pow_le_pow_left₀ (abs_nonneg d) hd 2) (by positivity) hX0
  have hqd : |q - d| ≤ X * h^2 + r := by
    rw [show q - d = (q - d + x * d^2) - x * d^2 by ring]
    exact (abs_sub _ _).trans (by linarith)
  have hxd : |x * d| ≤ X * h := by rw [abs_mul]; exact mul_le_mul hx hd (abs_nonneg d) hX0
  have hA : |q - d + x * q * d| ≤ (1.8 * X^2 + 0.43) * h^3 := by
    rw [show q - d + x * q * d = (q - d + x * d^2) + x * d * (q - d) by ring]
    refine (abs_add_le _ _).trans ?_
    rw [abs_mul (x * d)]
    have : |x * d| * |q - d| ≤ X * h * (X * h^2 + r) := mul_le_mul hxd hqd (abs_nonneg _) (by positivity)
    have h2 : X * h * r ≤ 0.07 * r := mul_le_mul_of_nonneg_right hXh hr0
    nlinarith
  have hrh : r ≤ 0.005 * h := by
    have h1 : X^2 * h^3 ≤ 0.0049 * h := by
      rw [show X^2 * h^3 = (X * h)^2 * h by ring]
      refine mul_le_mul_of_nonneg_right ?_ hh0
      have : 0 ≤ X * h := by positivity
      nlinarith
    have h2 : h^3 ≤ 0.000016 * h := by
      rw [show h^3 = h^2 * h by ring]
      exact mul_le_mul_of_nonneg_right (by nlinarith) hh0
    nlinarith
  have hq : |q| ≤ 1.08 * h := by
    rw [show q = (q - d) + d by ring]
    refine (abs_add_le _ _).trans ?_
    have : X * h^2 ≤ 0.07 * h := by rw [show X * h^2 = X * h * h by ring]; exact mul_le_mul_of_nonneg_right hXh hh0
    linarith
  have hq' : |q + n| ≤ 1.08 * h + |n| := (abs_add_le _ _).trans (by linarith)
  have hxq : |x * (q + n)| ≤ 0.0765 := by
    rw [abs_mul]
    have h1 : |x| * |q + n| ≤ X * (1.08 * h + |n|) := mul_le_mul hx hq' (abs_nonneg _) hX0
    have h2 : X * |n| ≤ 28 * (1 / 10^5) := mul_le_mul hX hn (abs_nonneg _) (by norm_num)
    norm_num at h2 ⊢
    nlinarith
  have hD : 0.923 ≤ 1 + θ - x * (q + n) := by
    have a := (abs_le.1 hxq).2
    have b := (abs_le.1 hθ).1
    norm_num at a b ⊢
    linarith
  refine ⟨by norm_num at hD ⊢; linarith, by linarith, ?_⟩
  have hD0 : 0 < 1 + θ - x * (q + n) := lt_of_lt_of_le (by norm_num) hD
  have e : (q + n) / (1 + θ - x * (q + n)) - d = ((q - d + x * q * d) + n * (1 + x * d) - θ * d) / (1 + θ - x * (q + n)) := by
    rw [div_sub' hD0.ne']
    congr 1
    ring
  rw [e, abs_div, abs_of_pos hD0, div_le_iff₀ hD0]
  have hN : |q - d + x * q * d + n * (1 + x * d) - θ * d| ≤ (1.8 * X^2 + 0.43) * h^3 + 1.07 * |n| + |θ| * h := by
    refine (abs_sub _ _).trans ?_
    refine (add_le_add_left (abs_add_le _ _) _).trans ?_
    rw [abs_mul n, abs_mul θ]
    have h1 : |1 + x * d| ≤ 1.07 := by
      refine (abs_add_le _ _).trans ?_
      have := hxd.trans hXh
      rw [abs_one]; norm_num at this ⊢; linarith
    have h2 : |n| * |1 + x * d| ≤ |n| * 1.07 := mul_le_mul_of_nonneg_left h1 (abs_nonneg n)
    have h3 : |θ| * |d| ≤ |θ| * h := mul_le_mul_of_nonneg_left hd (abs_nonneg θ)
    linarith
  refine hN.trans ?_
  have hS : 0 ≤ (2 * X^2 + 1) * h^3 + 1.2 * |n| + 1.1 * |θ| * h := by positivity
  refine le_trans ?_ (mul_le_mul_of_nonneg_left hD hS)
  have p1 := abs_nonneg n
  have p2 : 0 ≤ |θ| * h := by positivity
  nlinarith

end InvErfc
end Verif
