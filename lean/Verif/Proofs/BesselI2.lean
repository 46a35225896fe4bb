import Verif.Proofs.BesselI
import Mathlib.Analysis.SpecialFunctions.Exponential

/-! `i0` and `i1` for `x ≥ 15` in exact arithmetic: the error. -/

namespace Verif
namespace Bes
open ZPoly Real

/-- the rational function `A/B` at `t = 15/x` -/
noncomputable def rg (A B : List ℤ) (x : ℝ) : ℝ := ev A (15 / x) / ev B (15 / x)

theorem rg_deriv (A B : List ℤ) {x : ℝ} (hx : 0 < x) (hB : ev B (15 / x) ≠ 0) :
    HasDerivAt (rg A B) (ev (dd A B) (15 / x) / ev B (15 / x) ^ 2 * (-((15 / x) ^ 2 / 15))) x := by
  have hy : HasDerivAt (fun x : ℝ => 15 / x) (-((15 / x) ^ 2 / 15)) x := by
    have h := (hasDerivAt_inv hx.ne').const_mul 15
    refine (h.congr_deriv ?_).congr_of_eventuallyEq ?_
    · field_simp
    · filter_upwards with z; rw [div_eq_mul_inv]
  have h3 := ((hasDerivAt_ev A (15 / x)).comp x hy).div ((hasDerivAt_ev B (15 / x)).comp x hy) hB
  refine h3.congr_deriv ?_
  simp only [Function.comp_apply]
  rw [dd, ev_sub, ev_mul, ev_mul]
  field_simp
  ring

theorem iQ0_pos {t : ℝ} (h0 : 0 ≤ t) (h1 : t ≤ 1) : 0 < ev iQ0 t := by
  rw [iQ0, ev_comp]
  refine ev_pos_of (by decide +kernel) (by decide +kernel) ?_
  simp [ev]; linarith

theorem I1QQ_pos {w : ℝ} (h0 : 0 ≤ w) (h1 : w ≤ 1) : 0 < ev I1QQz w := by
  have h := pos01 0 6 h0 h1 (sub I1QQz [1]) (by decide +kernel) (by decide +kernel)
  rw [ev_sub] at h
  simp only [ev] at h
  norm_num at h
  linarith

theorem iQ1_pos {t : ℝ} (h0 : 0 ≤ t) (h1 : t ≤ 1) : 0 < ev iQ1 t := by
  have hs : (0:ℤ) < iQ0.headD 0 * (comp I1PPz [1, -1]).headD 0 := by decide +kernel
  have h : 0 < ev I1QQz (ev [1, -1] t) := I1QQ_pos (by simp [ev]; linarith) (by simp [ev]; linarith)
  rw [iQ1, ev_smul, ev_comp]
  have : (0:ℝ) < ((iQ0.headD 0 * (comp I1PPz [1, -1]).headD 0 : ℤ) : ℝ) := by exact_mod_cast hs
  positivity

noncomputable def V0 (x : ℝ) : ℝ := √x * (rexp (-x) * besselIR 0 x)
noncomputable def V1 (x : ℝ) : ℝ := √x * (rexp (-x) * besselIR 1 x)

theorem V0_deriv {x : ℝ} (hx : 0 < x) : HasDerivAt V0 (V0 x / (2 * x) - V0 x + V1 x) x := by
  have he : HasDerivAt (fun x : ℝ => rexp (-x)) (-rexp (-x)) x := by
    have := (hasDerivAt_neg x).exp; exact this.congr_deriv (by ring)
  refine (sqrtJ_deriv hx (he.mul (I0_deriv x))).congr_deriv ?_
  unfold V0 V1; simp only [Pi.mul_apply]; ring

theorem V1_deriv {x : ℝ} (hx : 0 < x) : HasDerivAt V1 (V0 x - V1 x - V1 x / (2 * x)) x := by
  have he : HasDerivAt (fun x : ℝ => rexp (-x)) (-rexp (-x)) x := by
    have := (hasDerivAt_neg x).exp; exact this.congr_deriv (by ring)
  refine (sqrtJ_deriv hx (he.mul (I1_deriv hx.ne'))).congr_deriv ?_
  unfold V0 V1; simp only [Pi.mul_apply]; field_simp; ring

noncomputable def sI (x : ℝ) : ℝ := rg iP0 iQ0 x + rg iP1 iQ1 x - (V0 x + V1 x)
noncomputable def dI (x : ℝ) : ℝ := rg iP0 iQ0 x - rg iP1 iQ1 x - (V0 x - V1 x)

theorem sI_deriv {x : ℝ} (hx : 15 ≤ x) : HasDerivAt sI (dI x / (2 * x) + ev Nsig (15 / x) / (30 * ev iDen (15 / x))) x := by
  have hx0 : 0 < x := by linarith
  have t0 : 0 ≤ 15 / x := by positivity
  have t1 : 15 / x ≤ 1 := by rw [div_le_one hx0]; exact hx
  have q0 := (iQ0_pos t0 t1).ne'
  have q1 := (iQ1_pos t0 t1).ne'
  have h := ((rg_deriv iP0 iQ0 hx0 q0).add (rg_deriv iP1 iQ1 hx0 q1)).sub ((V0_deriv hx0).add (V1_deriv hx0))
  refine h.congr_deriv ?_
  simp only [dI, rg, Nsig, iDen, iG, iH, iU, iV, ev_sub, ev_add, ev_smul, ev_sh, ev_mul, ev_mul4]
  have hi : ∀ q : ℝ, q / (2 * x) = 15 / x * q / 30 := by intro q; field_simp; ring
  rw [hi, hi, hi]
  generalize V0 x = v0
  generalize V1 x = v1
  generalize 15 / x = t at *
  generalize ev iP0 t = p0 at *
  generalize ev iQ0 t = e0 at *
  generalize ev iP1 t = p1 at *
  generalize ev iQ1 t = e1 at *
  generalize ev (dd iP0 iQ0) t = g0
  generalize ev (dd iP1 iQ1) t = g1
  push_cast
  field_simp
  ring

theorem dI_deriv {x : ℝ} (hx : 15 ≤ x) : HasDerivAt dI (-2 * dI x + sI x / (2 * x) + ev Ndel (15 / x) / (30 * ev iDen (15 / x))) x := by
  have hx0 : 0 < x := by linarith
  have t0 : 0 ≤ 15 / x := by positivity
  have t1 : 15 / x ≤ 1 := by rw [div_le_one hx0]; exact hx
  have q0 := (iQ0_pos t0 t1).ne'
  have q1 := (iQ1_pos t0 t1).ne'
  have h := ((rg_deriv iP0 iQ0 hx0 q0).sub (rg_deriv iP1 iQ1 hx0 q1)).sub ((V0_deriv hx0).sub (V1_deriv hx0))
  refine h.congr_deriv ?_
  simp only [dI, sI, rg, Ndel, iDen, iG, iH, iU, iV, ev_sub, ev_add, ev_smul, ev_sh, ev_mul, ev_mul4]
  have hi : ∀ q : ℝ, q / (2 * x) = 15 / x * q / 30 := by intro q; field_simp; ring
  rw [hi, hi, hi]
  generalize V0 x = v0
  generalize V1 x = v1
  generalize 15 / x = t at *
  generalize ev iP0 t = p0 at *
  generalize ev iQ0 t = e0 at *
  generalize ev iP1 t = p1 at *
  generalize ev iQ1 t = e1 at *
  generalize ev (dd iP0 iQ0) t = g0
  generalize ev (dd iP1 iQ1) t = g1
  push_cast
  field_simp
  ring

theorem sig_bound {x : ℝ} (hx : 15 ≤ x) : |ev Nsig (15 / x) / (30 * ev iDen (15 / x))| ≤ 2.25e-13 / x ^ 2 := by
  have hx0 : 0 < x := by linarith
  have t0 : 0 ≤ 15 / x := by positivity
  have t1 : 15 / x ≤ 1 := by rw [div_le_one hx0]; exact hx
  have hD : 0 < ev iDen (15 / x) := by
    have := iQ0_pos t0 t1
    have := iQ1_pos t0 t1
    rw [iDen, ev_mul4]; positivity
  have h := chk01_sound 400 _ (by norm_num) 24 _ _ cert_sig t0 t1
  rw [ev_tail _ head_sig.1, ev_tail _ head_sig.2, abs_div, abs_of_pos (by positivity : 0 < 30 * ev iDen (15 / x)), div_le_iff₀ (by positivity),
    abs_mul, abs_mul, abs_of_nonneg t0]
  rw [ev_smul] at h
  push_cast at h
  calc 15 / x * (15 / x * |ev Nsig.tail.tail (15 / x)|) ≤ 15 / x * (15 / x * (1 / 10000000000000000 * (300 * ev iDen (15 / x)))) := by gcongr
    _ = _ := by field_simp; norm_num

theorem del_bound {x : ℝ} (hx : 15 ≤ x) : |ev Ndel (15 / x) / (30 * ev iDen (15 / x))| ≤ 7.5e-13 / x := by
  have hx0 : 0 < x := by linarith
  have t0 : 0 ≤ 15 / x := by positivity
  have t1 : 15 / x ≤ 1 := by rw [div_le_one hx0]; exact hx
  have hD : 0 < ev iDen (15 / x) := by
    have := iQ0_pos t0 t1
    have := iQ1_pos t0 t1
    rw [iDen, ev_mul4]; positivity
  have h := chk01_sound 400 _ (by norm_num) 24 _ _ cert_del t0 t1
  rw [ev_tail _ head_del, abs_div, abs_of_pos (by positivity : 0 < 30 * ev iDen (15 / x)), div_le_iff₀ (by positivity),
    abs_mul, abs_of_nonneg t0]
  rw [ev_smul] at h
  push_cast at h
  calc 15 / x * |ev Ndel.tail (15 / x)| ≤ 15 / x * (1 / 1000000000000000 * (1500 * ev iDen (15 / x))) := by gcongr
    _ = _ := by field_simp; norm_num

/-! ## the values at 15 -/

theorem exp15 : |rexp 15 - 3269017.3724721106393019| ≤ 1e-15 := by
  have hs : HasSum (fun n : ℕ => (15:ℝ) ^ n / (n.factorial : ℝ)) (rexp 15) := by
    rw [Real.exp_eq_exp_ℝ]; exact NormedSpace.expSeries_div_hasSum_exp (15:ℝ)
  have h := trunc_half hs 72 (by
    intro j
    rw [pow_succ, Nat.factorial_succ, Nat.cast_mul]
    have hj : (0:ℝ) ≤ j := Nat.cast_nonneg j
    have hF : ((j + 72).factorial : ℝ) ≠ 0 := Nat.cast_ne_zero.mpr (Nat.factorial_ne_zero _)
    generalize ((j + 72).factorial : ℝ) = F at *
    generalize (15:ℝ) ^ (j + 72) = p
    have hd : (0:ℝ) < ((j + 72 + 1 : ℕ) : ℝ) := by positivity
    have e : p * 15 / (((j + 72 + 1 : ℕ) : ℝ) * F) = p / F * (15 / ((j + 72 + 1 : ℕ) : ℝ)) := by field_simp
    rw [e, abs_mul]
    refine mul_le_mul_of_nonneg_left ?_ (abs_nonneg _)
    rw [abs_of_pos (by positivity), div_le_iff₀ hd]
    push_cast; linarith)
  have h2 : 2 * |(15:ℝ) ^ 72 / ((72:ℕ).factorial : ℝ)| ≤ 1e-18 := by norm_num [Nat.factorial]
  have h3 : |∑ n ∈ Finset.range 72, (15:ℝ) ^ n / (n.factorial : ℝ) - 3269017.3724721106393019| ≤ 1e-16 := by
    norm_num [Finset.sum_range_succ, Nat.factorial]
  rw [abs_le] at *
  constructor <;> linarith [h.1, h.2, h3.1, h3.2]

theorem I0_15 : |besselIR 0 15 - 339649.3732979138795217| ≤ 1e-15 := by
  have h := sb_trunc 0 39 (225 / 4) (by norm_num)
  rw [besselIR_eq, pow_zero, one_mul, show ((15:ℝ) ^ 2 / 4) = 225 / 4 by norm_num]
  have h2 : 2 * (|(225 / 4:ℝ)| ^ (39 + 1) / ((39 + 1 : ℕ).factorial * (39 + 1 + 0 : ℕ).factorial : ℝ)) ≤ 1e-21 := by
    norm_num [Nat.factorial]
  have h3 : |hs 0 (225 / 4) 39 0 / ((0:ℕ).factorial : ℝ) - 339649.3732979138795217| ≤ 1e-16 := by
    norm_num [hs, Nat.factorial]
  rw [abs_le] at *
  constructor <;> linarith [h.1, h.2, h3.1, h3.2]

theorem I1_15 : |besselIR 1 15 - 328124.9219702063967337| ≤ 1e-15 := by
  have h := sb_trunc 1 39 (225 / 4) (by norm_num)
  rw [besselIR_eq, pow_one, show ((15:ℝ) ^ 2 / 4) = 225 / 4 by norm_num]
  have h2 : 2 * (|(225 / 4:ℝ)| ^ (39 + 1) / ((39 + 1 : ℕ).factorial * (39 + 1 + 1 : ℕ).factorial : ℝ)) ≤ 1e-21 := by
    norm_num [Nat.factorial]
  have h3 : |15 / 2 * (hs 1 (225 / 4) 39 0 / ((1:ℕ).factorial : ℝ)) - 328124.9219702063967337| ≤ 1e-16 := by
    norm_num [hs, Nat.factorial]
  rw [abs_le] at *
  constructor <;> linarith [h.1, h.2, h3.1, h3.2]

theorem sqrt15 : |√15 - 3.87298334620741688518| ≤ 1e-19 := by
  rw [abs_le]
  constructor
  · have : (3.87298334620741688508:ℝ) ≤ √15 := by apply Real.le_sqrt_of_sq_le; norm_num
    linarith
  · have : √15 ≤ (3.87298334620741688528:ℝ) := by
      apply Real.sqrt_le_iff.mpr; constructor <;> norm_num
    linarith

theorem V_15 (I I0 G : ℝ) (hI : |I - I0| ≤ 1e-15) (hI0 : |I0| ≤ 340000)
    (hG : |G * 3269017.3724721106393019 - 3.87298334620741688518 * I0| ≤ 2e-9) (hG1 : |G| ≤ 1) :
    |G - √15 * (rexp (-15) * I)| ≤ 1e-15 := by
  have he := exp15
  have hs := sqrt15
  have hE : 0 < rexp 15 := Real.exp_pos _
  have e : G - √15 * (rexp (-15) * I) = (G * rexp 15 - √15 * I) / rexp 15 := by
    rw [Real.exp_neg]; field_simp
  have hE1 : 3269017 ≤ rexp 15 := by rw [abs_le] at he; linarith [he.1]
  rw [e, abs_div, abs_of_pos hE, div_le_iff₀ hE]
  have a1 : |G * (rexp 15 - 3269017.3724721106393019)| ≤ 1 * 1e-15 := by rw [abs_mul]; gcongr
  have a2 : |(√15 - 3.87298334620741688518) * I0| ≤ 1e-19 * 340000 := by rw [abs_mul]; gcongr
  have a3 : |√15 * (I - I0)| ≤ 4 * 1e-15 := by
    rw [abs_mul]
    have : |√15| ≤ 4 := by rw [abs_of_nonneg (Real.sqrt_nonneg _)]; rw [abs_le] at hs; linarith [hs.2]
    gcongr
  have e2 : G * rexp 15 - √15 * I = G * (rexp 15 - 3269017.3724721106393019) + (G * 3269017.3724721106393019 - 3.87298334620741688518 * I0)
      - (√15 - 3.87298334620741688518) * I0 - √15 * (I - I0) := by ring
  rw [e2]
  rw [abs_le] at *
  constructor <;> linarith [a1.1, a1.2, a2.1, a2.2, a3.1, a3.2, hG.1, hG.2]

theorem G0_15 : |rg iP0 iQ0 15 - V0 15| ≤ 1e-15 := by
  have e : rg iP0 iQ0 15 = 0.119227374812067 / 0.2962898424533095 := by
    unfold rg
    rw [show (15:ℝ) / 15 = 1 by norm_num, iP0, iQ0, ev_smul, ev_comp, ev_comp]
    simp only [I0PPz, I0QQz, ev]
    norm_num
  rw [e]
  exact V_15 _ _ _ I0_15 (by norm_num) (by norm_num) (by norm_num)

theorem G1_15 : |rg iP1 iQ1 15 - V1 15| ≤ 1e-15 := by
  have e : |rg iP1 iQ1 15 - 0.388747508339238628571| ≤ 1e-20 := by
    unfold rg
    rw [show (15:ℝ) / 15 = 1 by norm_num, iP1, iQ1, ev_smul, ev_smul, ev_comp, ev_comp]
    have h1 : iP0.headD 0 * (comp I1QQz [1, -1]).headD 0 = 10 * (iP0.headD 0 * (comp I1QQz [1, -1]).headD 0 / 10) := by decide +kernel
    simp only [iP0, iQ0, comp, I1PPz, I1QQz, I0PPz, I0QQz, ev, add, mul, smul, List.headD]
    norm_num
  have h := V_15 _ _ (rg iP1 iQ1 15) I1_15 (by norm_num) (by
    rw [abs_le] at *; constructor <;> linarith [e.1, e.2]) (by rw [abs_le] at *; constructor <;> linarith [e.1, e.2])
  exact h

theorem uI {x : ℝ} (hx : 15 ≤ x) : |rg iP0 iQ0 x - V0 x| ≤ 1.1e-13 ∧ |rg iP1 iQ1 x - V1 x| ≤ 1.1e-13 := by
  have g0 := G0_15
  have g1 := G1_15
  have i0 : |sI 15| ≤ 2e-15 := by
    unfold sI; rw [abs_le] at *; constructor <;> linarith [g0.1, g0.2, g1.1, g1.2]
  have i1 : |dI 15| ≤ 2e-15 := by
    unfold dI; rw [abs_le] at *; constructor <;> linarith [g0.1, g0.2, g1.1, g1.2]
  have h := energyI (S := 2.25e-13) (D := 7.5e-13) (η := 2e-15) (by norm_num) (by norm_num)
    (fun x h => sI_deriv h) (fun x h => dI_deriv h) (fun x h => sig_bound h) (fun x h => del_bound h) i0 i1 hx
  have e0 : rg iP0 iQ0 x - V0 x = (sI x + dI x) / 2 := by unfold sI dI; ring
  have e1 : rg iP1 iQ1 x - V1 x = (sI x - dI x) / 2 := by unfold sI dI; ring
  rw [e0, e1]
  generalize sI x = s at *
  generalize dI x = d at *
  constructor
  · apply abs_le_of_sq_le_sq _ (by norm_num)
    nlinarith [sq_nonneg (s - d)]
  · apply abs_le_of_sq_le_sq _ (by norm_num)
    nlinarith [sq_nonneg (s + d)]

theorem rg0_ge {x : ℝ} (hx : 15 ≤ x) : 0.39 ≤ rg iP0 iQ0 x := by
  have hx0 : 0 < x := by linarith
  have t0 : 0 ≤ 15 / x := by positivity
  have t1 : 15 / x ≤ 1 := by rw [div_le_one hx0]; exact hx
  have q := iQ0_pos t0 t1
  have h := pos01 0 6 t0 t1 (sub (smul 100 iP0) (smul 39 iQ0)) (by decide +kernel) (by decide +kernel)
  rw [ev_sub, ev_smul, ev_smul] at h
  unfold rg
  rw [le_div_iff₀ q]
  push_cast at h
  linarith

theorem rg1_ge {x : ℝ} (hx : 15 ≤ x) : 0.38 ≤ rg iP1 iQ1 x := by
  have hx0 : 0 < x := by linarith
  have t0 : 0 ≤ 15 / x := by positivity
  have t1 : 15 / x ≤ 1 := by rw [div_le_one hx0]; exact hx
  have q := iQ1_pos t0 t1
  have h := pos01 0 6 t0 t1 (sub (smul 100 iP1) (smul 38 iQ1)) (by decide +kernel) (by decide +kernel)
  rw [ev_sub, ev_smul, ev_smul] at h
  unfold rg
  rw [le_div_iff₀ q]
  push_cast at h
  linarith

theorem relI {G V b c : ℝ} (h : |G - V| ≤ b) (hG : c ≤ G) (hb : 0 ≤ b) (hc : b * 1000 ≤ c) : |G - V| ≤ b * 1.001001002 / c * V := by
  rcases eq_or_lt_of_le hb with h0 | h0
  · rw [← h0] at h ⊢; simpa using h
  have hc0 : 0 < c := by nlinarith
  have hV : c * (1 - 1 / 1000) ≤ V := by rw [abs_le] at h; linarith [h.2]
  refine h.trans ?_
  rw [div_mul_eq_mul_div, le_div_iff₀ hc0]
  nlinarith

theorem I0_even (x : ℝ) : besselIR 0 (-x) = besselIR 0 x := by
  rw [besselIR_eq, besselIR_eq]; norm_num

theorem I1_odd (x : ℝ) : besselIR 1 (-x) = -besselIR 1 x := by
  rw [besselIR_eq, besselIR_eq]; rw [neg_sq]; ring

theorem I0_abs (x : ℝ) : besselIR 0 |x| = besselIR 0 x := by
  rcases abs_choice x with h | h <;> rw [h]; exact I0_even x

theorem i0_right_eq {x : ℝ} (hx : 15 ≤ |x|) : i0 x = rexp |x| * rg iP0 iQ0 |x| / √|x| := by
  have h : (Arith.abs x <ᶠ (15.0:ℝ)) = false := by
    show decide (|x| < (15.0:ℝ)) = false
    rw [decide_eq_false_iff_not]; norm_num; exact hx
  have hx0 : 0 < |x| := by linarith
  have t0 : 0 ≤ 15 / |x| := by positivity
  have t1 : 15 / |x| ≤ 1 := by rw [div_le_one hx0]; exact hx
  have q := iQ0_pos t0 t1
  unfold i0
  simp only [h, poly_exact, I0PPz_eq, I0QQz_eq]
  have ez : (1.0:ℝ) - 15.0 / (Arith.abs x : ℝ) = ev [1, -1] (15 / |x|) := by
    show (1.0:ℝ) - 15.0 / |x| = _
    simp [ev]; norm_num; ring
  rw [ez, ← ev_comp, ← ev_comp]
  unfold rg
  rw [iP0, ev_smul]
  rw [iQ0] at *
  show rexp |x| * (ev (comp I0PPz [1, -1]) (15 / |x|) / 10 ^ 19) / (√|x| * (ev (comp I0QQz [1, -1]) (15 / |x|) / 10 ^ 20)) = _
  have hs : 0 < √|x| := Real.sqrt_pos.mpr hx0
  push_cast
  field_simp

theorem i1_right_eq {x : ℝ} (hx : 15 ≤ x) : ∃ r, |r - 1| ≤ 1e-15 ∧ i1 x = rexp x * (rg iP1 iQ1 x * r) / √x := by
  have hx0 : 0 < x := by linarith
  have ha : |x| = x := abs_of_pos hx0
  have h : (Arith.abs x <ᶠ (15.0:ℝ)) = false := by
    show decide (|x| < (15.0:ℝ)) = false
    rw [decide_eq_false_iff_not, ha]; norm_num; exact hx
  have h2 : (x <ᶠ (0.0:ℝ)) = false := by
    show decide (x < (0.0:ℝ)) = false
    rw [decide_eq_false_iff_not]; norm_num; exact hx0.le
  have t0 : 0 ≤ 15 / x := by positivity
  have t1 : 15 / x ≤ 1 := by rw [div_le_one hx0]; exact hx
  have q := iQ1_pos t0 t1
  have hP : iP0.headD 0 * (comp I1QQz [1, -1]).headD 0 ≠ 0 := by decide +kernel
  have hQ : iQ0.headD 0 * (comp I1PPz [1, -1]).headD 0 ≠ 0 := by decide +kernel
  refine ⟨100 * ((iQ0.headD 0 * (comp I1PPz [1, -1]).headD 0 : ℤ) : ℝ) / ((iP0.headD 0 * (comp I1QQz [1, -1]).headD 0 : ℤ) : ℝ), ?_, ?_⟩
  · simp only [iP0, iQ0, comp, I1PPz, I1QQz, I0PPz, I0QQz, add, mul, smul, List.headD]
    norm_num
  unfold i1
  simp only [h, h2, poly_exact, I1PPz_eq, I1QQz_eq]
  have ez : (1.0:ℝ) - 15.0 / (Arith.abs x : ℝ) = ev [1, -1] (15 / x) := by
    show (1.0:ℝ) - 15.0 / |x| = _
    rw [ha]
    simp [ev]; norm_num; ring
  rw [ez, ← ev_comp, ← ev_comp]
  unfold rg
  rw [iQ1, ev_smul] at q
  rw [iP1, iQ1, ev_smul, ev_smul]
  show rexp x * (ev (comp I1PPz [1, -1]) (15 / x) / 10 ^ 19) / (√|x| * (ev (comp I1QQz [1, -1]) (15 / x) / 10 ^ 21)) = _
  rw [ha]
  have hs : 0 < √x := Real.sqrt_pos.mpr hx0
  generalize iQ0.headD 0 * (comp I1PPz [1, -1]).headD 0 = a at *
  generalize iP0.headD 0 * (comp I1QQz [1, -1]).headD 0 = b at *
  generalize ev (comp I1PPz [1, -1]) (15 / x) = p at *
  generalize ev (comp I1QQz [1, -1]) (15 / x) = w at *
  have ha' : (a:ℝ) ≠ 0 := by exact_mod_cast hQ
  have hb' : (b:ℝ) ≠ 0 := by exact_mod_cast hP
  have hw : w ≠ 0 := by rintro rfl; simp at q
  field_simp
  norm_num

theorem i0_right {x : ℝ} (hx : 15 ≤ |x|) : |i0 x - besselIR 0 x| ≤ 3e-13 * besselIR 0 x := by
  have hx0 : 0 < |x| := by linarith
  have hs : 0 < √|x| := Real.sqrt_pos.mpr hx0
  have h := relI (uI hx).1 (rg0_ge hx) (by norm_num) (by norm_num)
  have hV : besselIR 0 x = rexp |x| / √|x| * V0 |x| := by
    unfold V0; rw [Real.exp_neg, I0_abs]; field_simp
  rw [hV, i0_right_eq hx, show rexp |x| * rg iP0 iQ0 |x| / √|x| - rexp |x| / √|x| * V0 |x| = rexp |x| / √|x| * (rg iP0 iQ0 |x| - V0 |x|) by ring,
    abs_mul, abs_of_pos (by positivity : 0 < rexp |x| / √|x|), mul_left_comm]
  refine mul_le_mul_of_nonneg_left (h.trans ?_) (by positivity)
  have hV0 : 0 ≤ V0 |x| := by
    have h2 := (uI hx).1
    have h3 := rg0_ge hx
    rw [abs_le] at h2; linarith [h2.2]
  refine mul_le_mul_of_nonneg_right ?_ hV0
  norm_num

theorem i1_right {x : ℝ} (hx : 15 ≤ x) : |i1 x - besselIR 1 x| ≤ 3e-13 * besselIR 1 x := by
  have hx0 : 0 < x := by linarith
  have hs : 0 < √x := Real.sqrt_pos.mpr hx0
  have h := relI (uI hx).2 (rg1_ge hx) (by norm_num) (by norm_num)
  have hV : besselIR 1 x = rexp x / √x * V1 x := by
    unfold V1; rw [Real.exp_neg]; field_simp
  obtain ⟨r, hr, e⟩ := i1_right_eq hx
  have hV0 : 0 ≤ V1 x := by
    have h2 := (uI hx).2
    have h3 := rg1_ge hx
    rw [abs_le] at h2; linarith [h2.2]
  have hG : |rg iP1 iQ1 x| ≤ 1.01 * V1 x := by
    rw [abs_le] at *
    norm_num at h
    constructor <;> linarith [h.1, h.2]
  rw [hV, e, show rexp x * (rg iP1 iQ1 x * r) / √x - rexp x / √x * V1 x = rexp x / √x * (rg iP1 iQ1 x - V1 x + rg iP1 iQ1 x * (r - 1)) by ring,
    abs_mul, abs_of_pos (by positivity : 0 < rexp x / √x), mul_left_comm]
  refine mul_le_mul_of_nonneg_left ?_ (by positivity)
  have h4 : |rg iP1 iQ1 x * (r - 1)| ≤ 1.01 * V1 x * 1e-15 := by
    rw [abs_mul]; gcongr
  refine (abs_add_le _ _).trans ?_
  norm_num at h h4 ⊢
  linarith

end Bes
end Verif
