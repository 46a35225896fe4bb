import Verif.Proofs.ErfcxReal
import Verif.Proofs.ErfcxAcc
import Verif.Proofs.ZPoly
import Verif.Props.Series
import Mathlib.Analysis.SpecialFunctions.Trigonometric.Chebyshev.RootsExtrema

/-! # Accuracy of the Chebyshev approximation of erfc, over the reals

With `t = 2/(2+z)` the code's approximation of `e^(z²)·erfc(z)` is `G = t·e^(P(t))`.  The residual of the differential equation
`y' = 2zy - 2/√π` is `ρ = 2/√π - e^P·Q`, `Q = t²/2 + t³P'/2 + 4 - 4t`, and `ρ' = -e^P·W` with the polynomial `W = P'Q + Q'`.  An antiderivative `H`
of `W` is tiny: the sum of the absolute values of its Chebyshev coefficients is below `4·10⁻¹⁴`. -/

namespace Verif
open Filter Topology ZPoly
open Polynomial (Chebyshev.T)

/-- `∑ cⱼ T_{k+j}(2t-1)` from `T_k`, `T_{k+1}` as polynomials in `t` -/
def chebSum : List ℤ → List ℤ → List ℤ → List ℤ
  | [], _, _ => []
  | c :: cs, a, b => add (smul c a) (chebSum cs b (sub (mul [-2, 4] b) a))

/-- sum of absolute values -/
def l1 : List ℤ → ℕ
  | [] => 0
  | c :: cs => c.natAbs + l1 cs

theorem chebSum_ev {t : ℝ} : ∀ (c a b : List ℤ) (k : ℤ), ev a t = (Chebyshev.T ℝ k).eval (2 * t - 1) → ev b t = (Chebyshev.T ℝ (k+1)).eval (2 * t - 1) →
    ev (chebSum c a b) t = ∑ j ∈ Finset.range c.length, (c.getD j 0 : ℝ) * (Chebyshev.T ℝ (k + j)).eval (2 * t - 1)
  | [], a, b, k, _, _ => by simp [chebSum, ev]
  | c :: cs, a, b, k, ha, hb => by
    rw [chebSum, ev_add, ev_smul, chebSum_ev cs b _ (k+1) hb ?_, List.length_cons, Finset.sum_range_succ', ha, add_comm]
    · congr 1
      · refine Finset.sum_congr rfl fun j _ => ?_
        rw [List.getD_cons_succ, show k + 1 + (j:ℤ) = k + ((j + 1 : ℕ) : ℤ) by push_cast; ring]
      · simp
    · rw [ev_sub, ev_mul, ha, hb]
      have r := congrArg (Polynomial.eval (2 * t - 1)) (Polynomial.Chebyshev.T_add_two ℝ k)
      simp only [Polynomial.eval_sub, Polynomial.eval_mul, Polynomial.eval_X, Polynomial.eval_ofNat] at r
      rw [show k + 1 + 1 = k + 2 by ring, r]
      simp only [ev]
      push_cast
      ring

theorem chebSum_bound {t : ℝ} (h0 : 0 ≤ t) (h1 : t ≤ 1) : ∀ (c a b : List ℤ) (k : ℤ), ev a t = (Chebyshev.T ℝ k).eval (2 * t - 1) →
    ev b t = (Chebyshev.T ℝ (k+1)).eval (2 * t - 1) → |ev (chebSum c a b) t| ≤ l1 c
  | [], a, b, k, _, _ => by simp [chebSum, ev, l1]
  | c :: cs, a, b, k, ha, hb => by
    rw [chebSum, ev_add, ev_smul, l1]
    push_cast
    refine (abs_add_le _ _).trans (add_le_add ?_ (chebSum_bound h0 h1 cs b _ (k+1) hb ?_))
    · rw [abs_mul, ha, Nat.cast_natAbs, Int.cast_abs]
      exact mul_le_of_le_one_right (abs_nonneg _) (Polynomial.Chebyshev.abs_eval_T_real_le_one k (abs_le.2 ⟨by linarith, by linarith⟩))
    · rw [ev_sub, ev_mul, ha, hb]
      have r := congrArg (Polynomial.eval (2 * t - 1)) (Polynomial.Chebyshev.T_add_two ℝ k)
      simp only [Polynomial.eval_sub, Polynomial.eval_mul, Polynomial.eval_X, Polynomial.eval_ofNat] at r
      rw [show k + 1 + 1 = k + 2 by ring, r]
      simp only [ev]
      push_cast
      ring

theorem t0_ev (t : ℝ) : ev [1] t = (Chebyshev.T ℝ 0).eval (2 * t - 1) := by simp [ev]
theorem t1_ev (t : ℝ) : ev [-1, 2] t = (Chebyshev.T ℝ (0+1)).eval (2 * t - 1) := by
  simp only [ev, zero_add, Polynomial.Chebyshev.T_one, Polynomial.eval_X]; push_cast; ring
theorem t2_ev (t : ℝ) : ev (sub (mul [-2, 4] [-1, 2]) [1]) t = (Chebyshev.T ℝ (1+1)).eval (2 * t - 1) := by
  rw [show (1:ℤ) + 1 = 2 by norm_num, Polynomial.Chebyshev.T_two, ev_sub, ev_mul]
  simp only [ev, Polynomial.eval_sub, Polynomial.eval_mul, Polynomial.eval_pow, Polynomial.eval_X, Polynomial.eval_ofNat, Polynomial.eval_one]
  push_cast; ring

theorem ev_eq_of {p q : List ℤ} (h : (nonneg (sub p q) && nonneg (sub q p)) = true) {t : ℝ} (ht : 0 ≤ t) : ev p t = ev q t := by
  rw [Bool.and_eq_true] at h
  have h1 := ev_nonneg _ t h.1 ht
  have h2 := ev_nonneg _ t h.2 ht
  rw [ev_sub] at h1 h2
  linarith

/-- the 26 coefficients the loop visits, in units of `10⁻¹⁸` -/
def cofZ : List ℤ := [641969792356490200, 19476473204185836, -9561514786808630, -946595344482036, 366839497852761, 42523324806907, -20278578112534, -1624290004647, 1303655835580, 15626441722,
  -85238095915, 6529054439, 5059343495, -991364156, -227365122, 96467911, 2394038, -6886027, 894487, 313092, -112708, 381, 7106, -1523, -94, 121]
/-- `10¹⁸·P(t)` -/
def ePz : List ℤ := add [-651326859890854700] (chebSum cofZ [-1, 2] (sub (mul [-2, 4] [-1, 2]) [1]))
/-- `2·10¹⁸·Q(t)` -/
def eQz : List ℤ := add (smul 1000000000000000000 [8, -8, 1]) (mul [0, 0, 0, 1] (der ePz))
/-- `2·10³⁶·W(t)` -/
def eWz : List ℤ := add (mul (der ePz) eQz) (smul 1000000000000000000 (der eQz))
/-- Chebyshev coefficients of `H`, in units of `1/eG` -/
def eHc : List ℤ := [-14129790557568680116617519739168219534891742203, 405808300806343549215798320466527798085772800, 539772905995605316569824214502516902047685600,
  534164542728022018594817641947672780058209600, 534757107521780584343202407592179234247107400, 532703656024854240342785966478019113188653440,
  532793064038075116703770002694947759473827200, 535776814907309364562920283381376226260280000, 535991990319238503915452301529594695673506750,
  535931051608896271576061517882874726836405600, 538330675870410605985685502192249431917882720, 539253516931494991467083633025646025484506400,
  540923791139234040082918111698195303410643300, 540699152102077852554990337187428279293504000, 542675103727477669062427902341945387851484400,
  540261665519321332271857964924728249961186880, 538257689606306510180048094213821128270235100, 536832837743887321477552689919087003883625600,
  538948056343021205682916458291584470435602000, 537844463791590503739038247210218337603273600, 543037964888897540411614527210649958425748580,
  545117610979105094988809041254461905351600800, 544780023838405399717295148928514887390324800, 544940992935435549002389740590191890891703200,
  544057215370068392933791983854707907213292000, 527404181676079242371439402534650855394847392, 417630218744968945562873625368741907356836800,
  306955081318744900037811640636219618768759200, 70571621037696890695319925992933690042211300, 3217012901936159016414799894385649645763200,
  630017261894833287781906096403244196818960, -267166621502970807379167554961241593964800, -31068106421964372245141157431891139604425,
  21556973522195028166515689783294830022400, 200602075899734722251307383929553538800, -1504605202037012460187594452721480580160, 149124192163497827348645712437155357500,
  83899624406061479610475540302863220000, -19929109687643319859576848761718724800, -3006827434132550355364401127788208800, 1673243269769001371869157604126582330,
  -30964381444900009507699181481998400, -100394046352451822866545076828315200, 15901292214693023777581741278480000, 3774851456337803289390792992906400,
  -1481166435515321160958471394795520, 1503948634935303337000977556800, 82108534018994012744757245102400, -12376412304864030076203968418000,
  -2377849376564762395388559523200, 974345985144994760689491356256, -28957298127566416835564937600, -34930700844775866128389129200, 9872160335059547880644889600,
  2150301330818857764979631200]
def eG : ℤ := 750854211314458630579200000000000000000000000000000000000000
def eHz : List ℤ := chebSum eHc [1] [-1, 2]

/-- value of an integer polynomial at 1 -/
def sumZ : List ℤ → ℤ
  | [] => 0
  | a :: p => a + sumZ p
theorem ev_one : ∀ p : List ℤ, ev p 1 = sumZ p
  | [] => by simp [ev, sumZ]
  | a :: p => by simp only [ev, sumZ, ev_one p]; push_cast; ring

theorem eHz_check : (nonneg (sub (smul (2 * 10^36) (der eHz)) (smul eG eWz)) && nonneg (sub (smul eG eWz) (smul (2 * 10^36) (der eHz)))) = true := by
  decide +kernel
theorem eHz_one : sumZ eHz = 0 := by decide +kernel
theorem eHc_l1 : 10^14 * l1 eHc ≤ 4 * eG.toNat := by decide +kernel

theorem ePz_one : sumZ ePz = (-16) := by decide +kernel
theorem eQz_one : sumZ eQz = 2256758334191063632 := by decide +kernel

noncomputable def eP (t : ℝ) : ℝ := ev ePz t / 10^18
noncomputable def eP' (t : ℝ) : ℝ := ev (der ePz) t / 10^18
noncomputable def eQ (t : ℝ) : ℝ := t^2 / 2 + t^3 * eP' t / 2 + 4 - 4 * t
noncomputable def eW (t : ℝ) : ℝ := ev eWz t / (2 * 10^36)
noncomputable def eH (t : ℝ) : ℝ := ev eHz t / eG

theorem eP_deriv (t : ℝ) : HasDerivAt eP (eP' t) t := (hasDerivAt_ev ePz t).div_const _

theorem eQ_eq (t : ℝ) : eQ t = ev eQz t / (2 * 10^18) := by
  unfold eQ eP' eQz
  rw [ev_add, ev_smul, ev_mul]
  simp only [ev]
  push_cast
  ring

theorem eQ_deriv (t : ℝ) : HasDerivAt eQ (ev (der eQz) t / (2 * 10^18)) t := by
  have : eQ = fun t => ev eQz t / (2 * 10^18) := by funext t; exact eQ_eq t
  rw [this]
  exact (hasDerivAt_ev eQz t).div_const _

theorem eW_eq (t : ℝ) : eW t = eP' t * eQ t + ev (der eQz) t / (2 * 10^18) := by
  rw [eQ_eq]
  unfold eW eP' eWz
  rw [ev_add, ev_mul, ev_smul]
  push_cast
  ring

theorem eH_deriv {t : ℝ} (ht : 0 ≤ t) : HasDerivAt eH (eW t) t := by
  have h := (hasDerivAt_ev eHz t).div_const (eG : ℝ)
  refine h.congr_deriv ?_
  have e := ev_eq_of eHz_check ht
  rw [ev_smul, ev_smul] at e
  unfold eW
  have hg : (eG:ℝ) ≠ 0 := by rw [eG]; norm_num
  push_cast at e
  rw [div_eq_div_iff hg (by norm_num)]
  linarith

theorem eH_bound {t : ℝ} (h0 : 0 ≤ t) (h1 : t ≤ 1) : |eH t| ≤ 4 / 10^14 := by
  have h := chebSum_bound h0 h1 eHc [1] [-1, 2] 0 (t0_ev t) (t1_ev t)
  unfold eH
  have hg : (0:ℝ) < (eG:ℝ) := by rw [eG]; norm_num
  rw [abs_div, abs_of_pos hg, div_le_div_iff₀ hg (by norm_num)]
  have h2 : (10:ℝ)^14 * (l1 eHc : ℝ) ≤ 4 * eG := by
    have h3 : ((10^14 * l1 eHc : ℕ) : ℝ) ≤ ((4 * eG.toNat : ℕ) : ℝ) := by exact_mod_cast eHc_l1
    push_cast at h3
    have h4 : ((eG.toNat : ℕ) : ℝ) = (eG : ℝ) := by
      have : ((eG.toNat : ℕ) : ℤ) = eG := by decide +kernel
      exact_mod_cast this
    rw [h4] at h3
    norm_num
    exact h3
  have h5 : |ev eHz t| ≤ l1 eHc := h
  nlinarith

theorem eH_one : eH 1 = 0 := by unfold eH; rw [ev_one, eHz_one]; simp

/-- the derivative of `P` is positive: its constant Chebyshev coefficient dominates -/
def eDc : List ℤ := [1229976706276964512, 141635731275980016, -107925756872031776, -14176054357506672, 6812420569671784, 969471154205904, -524369387383436, -51088641159864, 43430799767516,
  888638988840, -3500810313364, 263581319960, 249665906896, -49813293112, -13419954844, 5703099624, 221952476, -470846680, 59157892, 24947264, -8823120, -100096, 644352,
  -133624, -9400, 12584]
theorem eDc_check : (nonneg (sub (smul 1 (der ePz)) (chebSum eDc [1] [-1, 2])) && nonneg (sub (chebSum eDc [1] [-1, 2]) (smul 1 (der ePz)))) = true := by
  decide +kernel
theorem eDc_l1 : l1 eDc.tail ≤ (eDc.headD 0).toNat := by decide +kernel

theorem eP'_nonneg {t : ℝ} (h0 : 0 ≤ t) (h1 : t ≤ 1) : 0 ≤ eP' t := by
  have e := ev_eq_of eDc_check h0
  have hs : eDc = eDc.headD 0 :: eDc.tail := rfl
  have h := chebSum_bound h0 h1 eDc.tail [-1, 2] (sub (mul [-2, 4] [-1, 2]) [1]) 1 (by simpa using t1_ev t) (t2_ev t)
  rw [hs, chebSum, ev_add, ev_smul, ev_smul] at e
  have h3 : ((l1 eDc.tail : ℕ) : ℝ) ≤ ((eDc.headD 0).toNat : ℝ) := by exact_mod_cast eDc_l1
  have h4 : (((eDc.headD 0).toNat : ℕ) : ℝ) = ((eDc.headD 0 : ℤ) : ℝ) := by
    have : (((eDc.headD 0).toNat : ℕ) : ℤ) = eDc.headD 0 := by decide +kernel
    exact_mod_cast this
  have h5 := (abs_le.1 h).1
  have e1 : ev [1] t = 1 := by simp [ev]
  rw [e1, mul_one] at e
  have : (0:ℝ) ≤ ev (der ePz) t := by
    have hk : (0:ℝ) < ((1 : ℤ) : ℝ) := by norm_num
    have : (0:ℝ) ≤ ((1 : ℤ) : ℝ) * ev (der ePz) t := by rw [e]; rw [h4] at h3; linarith
    exact nonneg_of_mul_nonneg_right this hk
  unfold eP'
  positivity

/-- the residual -/
noncomputable def eRho (t : ℝ) : ℝ := kap - Real.exp (eP t) * eQ t

theorem eP_one : eP 1 = (-16) / 10^18 := by unfold eP; rw [ev_one, ePz_one]; norm_num
theorem eQ_one : eQ 1 = 2256758334191063632 / (2 * 10^18) := by rw [eQ_eq, ev_one, eQz_one]; norm_num

theorem exp_eP_one : 1 - 1 / 10^16 ≤ Real.exp (eP 1) ∧ Real.exp (eP 1) ≤ 1 := by
  rw [eP_one]
  constructor
  · refine le_trans ?_ (Real.add_one_le_exp _)
    norm_num
  · rw [Real.exp_le_one_iff]; norm_num

theorem eRho_one : |eRho 1| ≤ 2 / 10^14 := by
  unfold eRho
  have h := exp_eP_one
  have hk := kap_bounds
  rw [eQ_one, abs_le]
  constructor <;> nlinarith [h.1, h.2, hk.1, hk.2]

theorem eRho_bound {t : ℝ} (h0 : 0 ≤ t) (h1 : t ≤ 1) : |eRho t| ≤ 6 / 10^14 := by
  -- K = ρ + e^P H, K' = e^P P' H
  have hK : ∀ s : ℝ, |s| = 1 → s * (eRho t + Real.exp (eP t) * eH t) - 4 / 10^14 * Real.exp (eP 1) + 4 / 10^14 * Real.exp (eP t) ≤ s * eRho 1 := by
    intro s hs
    let f : ℝ → ℝ := fun t => s * (eRho t + Real.exp (eP t) * eH t) + 4 / 10^14 * Real.exp (eP t)
    have hf : ∀ x ∈ Set.Icc (0:ℝ) 1, HasDerivAt f (s * (Real.exp (eP x) * eP' x * eH x) + 4 / 10^14 * (Real.exp (eP x) * eP' x)) x := by
      intro x hx
      have d1 := (eP_deriv x).exp
      have d2 := (d1.mul (eQ_deriv x)).const_sub kap
      have d3 := d1.mul (eH_deriv hx.1)
      have d := ((d2.add d3).const_mul s).add (d1.const_mul (4 / 10^14))
      refine d.congr_deriv ?_
      rw [eW_eq]
      ring
    have hmono : MonotoneOn f (Set.Icc 0 1) := by
      refine monotoneOn_of_deriv_nonneg (convex_Icc 0 1) (fun x hx => (hf x hx).continuousAt.continuousWithinAt) ?_ ?_
      · intro x hx; rw [interior_Icc] at hx
        exact (hf x ⟨hx.1.le, hx.2.le⟩).differentiableAt.differentiableWithinAt
      · intro x hx; rw [interior_Icc] at hx
        rw [(hf x ⟨hx.1.le, hx.2.le⟩).deriv]
        have hb := eH_bound hx.1.le hx.2.le
        have hp := eP'_nonneg hx.1.le hx.2.le
        have : |s * eH x| ≤ 4 / 10^14 := by rw [abs_mul, hs, one_mul]; exact hb
        have := (abs_le.1 this).1
        have he := Real.exp_pos (eP x)
        have : 0 ≤ Real.exp (eP x) * eP' x * (s * eH x + 4 / 10^14) := by
          apply mul_nonneg (mul_nonneg he.le hp); linarith
        linarith
    have h := hmono ⟨h0, h1⟩ ⟨zero_le_one, le_refl _⟩ h1
    simp only [f] at h
    rw [eH_one, mul_zero, add_zero] at h
    linarith
  have hb := eH_bound h0 h1
  have he := Real.exp_pos (eP t)
  have ho := exp_eP_one
  have hr := eRho_one
  have h1' := hK 1 (by norm_num)
  have h2' := hK (-1) (by norm_num)
  have hb' : |Real.exp (eP t) * eH t| ≤ 4 / 10^14 * Real.exp (eP t) := by
    rw [abs_mul, abs_of_pos he, mul_comm]; exact mul_le_mul_of_nonneg_right hb he.le
  rw [abs_le] at *
  constructor <;> nlinarith [hb'.1, hb'.2, hr.1, hr.2]

/-- the approximation of `e^(z²)·erfc(z)` -/
noncomputable def eG0 (z : ℝ) : ℝ := 2 / (2 + z) * Real.exp (eP (2 / (2 + z)))

theorem eG0_deriv {z : ℝ} (hz : 0 < z) : HasDerivAt eG0 (2 * z * eG0 z - kap + eRho (2 / (2 + z))) z := by
  have hz2 : 2 + z ≠ 0 := by linarith
  have d0 : HasDerivAt (fun z : ℝ => 2 / (2 + z)) (-(2 / (2 + z)^2)) z := by
    have := (hasDerivAt_const z (2:ℝ)).div ((hasDerivAt_id z).const_add 2) hz2
    refine this.congr_deriv ?_
    simp only [id]
    ring
  have d1 := ((eP_deriv (2 / (2 + z))).comp z d0).exp
  have d := d0.mul d1
  refine d.congr_deriv ?_
  unfold eRho eG0 eQ
  simp only [Function.comp]
  generalize eP' (2 / (2 + z)) = p
  generalize Real.exp (eP (2 / (2 + z))) = q
  field_simp
  ring

theorem erfc_exact_acc {z : ℝ} (hz : 0 ≤ z) : |Real.exp (-z^2) * eG0 z - erfcR z| ≤ 6 / 10^14 * erfcR z := by
  rcases hz.eq_or_lt with rfl | hz
  · have := exp_eP_one
    have e : eG0 0 = Real.exp (eP 1) := by unfold eG0; norm_num
    rw [e, erfcR_zero]
    simp only [ne_eq, OfNat.ofNat_ne_zero, not_false_eq_true, zero_pow, neg_zero, Real.exp_zero, one_mul]
    rw [abs_le]
    constructor <;> linarith [this.1, this.2]
  have key : ∀ s : ℝ, |s| = 1 → 0 ≤ 6 / 10^14 * erfcR z - s * (Real.exp (-z^2) * eG0 z - erfcR z) := by
    intro s hs
    refine nonneg_of_deriv_nonpos (f := fun z => 6 / 10^14 * erfcR z - s * (Real.exp (-z^2) * eG0 z - erfcR z))
      (f' := fun z => 6 / 10^14 * (-(kap * Real.exp (-z^2))) - s * (Real.exp (-z^2) * eRho (2 / (2 + z)))) ?_ ?_ ?_ hz
    · intro x hx
      have h1 : HasDerivAt (fun y : ℝ => Real.exp (-y^2)) (Real.exp (-x^2) * -(2 * x)) x := by
        have := (hasDerivAt_pow 2 x).neg.exp
        simpa using this
      have d := ((erfcR_deriv x).const_mul (6 / 10^14)).sub (((h1.mul (eG0_deriv hx)).sub (erfcR_deriv x)).const_mul s)
      refine d.congr_deriv ?_
      ring
    · intro x hx
      have hb := eRho_bound (t := 2 / (2 + x)) (by positivity) (by rw [div_le_one (by linarith)]; linarith)
      have : |s * eRho (2 / (2 + x))| ≤ 6 / 10^14 := by rw [abs_mul, hs, one_mul]; exact hb
      have h3 := (abs_le.1 this).1
      have he := Real.exp_pos (-x^2)
      have hk := kap_bounds.1
      have h4 : 0 ≤ Real.exp (-x^2) * (6 / 10^14 * kap + s * eRho (2 / (2 + x))) := mul_nonneg he.le (by nlinarith)
      linarith
    · have hG : Tendsto (fun z : ℝ => Real.exp (-z^2) * eG0 z) atTop (𝓝 0) := by
        have hd : Tendsto (fun z : ℝ => 2 / (2 + z)) atTop (𝓝 0) :=
          tendsto_const_nhds.div_atTop (tendsto_atTop_add_const_left atTop 2 tendsto_id)
        have hc : Tendsto eG0 atTop (𝓝 (0 * Real.exp (eP 0))) :=
          hd.mul (Real.continuous_exp.continuousAt.tendsto.comp ((eP_deriv 0).continuousAt.tendsto.comp hd))
        rw [zero_mul] at hc
        refine squeeze_zero_norm' ?_ (by simpa using hc.norm)
        filter_upwards with x
        rw [norm_mul, Real.norm_eq_abs (Real.exp _), abs_of_pos (Real.exp_pos _)]
        refine mul_le_of_le_one_left (norm_nonneg _) ?_
        rw [Real.exp_le_one_iff]; nlinarith [sq_nonneg x]
      have := (erfcR_tendsto.const_mul (6 / 10^14)).sub ((hG.sub erfcR_tendsto).const_mul s)
      simpa using this
  have h1 := key 1 (by norm_num)
  have h2 := key (-1) (by norm_num)
  rw [abs_le]
  constructor <;> linarith

theorem cof_tail (t : ℝ) : (COF.headD 0 / 2 + chebTail (2 * t - 1) ((COF.drop 1).take 26) : ℝ) = eP t := by
  have e := chebSum_ev (t := t) cofZ [-1, 2] (sub (mul [-2, 4] [-1, 2]) [1]) 1 (by simpa using t1_ev t) (t2_ev t)
  unfold eP ePz
  rw [ev_add, e, add_div, Finset.sum_div]
  congr 1
  · norm_num [COF, ev]
  · unfold chebTail
    refine Finset.sum_congr rfl fun j hj => ?_
    rw [mul_div_right_comm, add_comm (j:ℤ) 1]
    congr 1
    have hj' : j < 26 := Finset.mem_range.1 hj
    interval_cases j <;> norm_num [COF, cofZ]

/-- `erfc` in exact arithmetic, `z ≥ 0` -/
theorem erfc_real {z : ℝ} (hz : 0 ≤ z) : Returns (erfc z) (Real.exp (-z^2) * eG0 z) := by
  have h := erfccheb_exact z hz
  rw [cof_tail, Real.exp_add] at h
  unfold eG0
  convert h using 1
  ring

end Verif
