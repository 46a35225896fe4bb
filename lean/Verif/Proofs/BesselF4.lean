import Verif.Proofs.BesselF3
import Verif.Proofs.BesselBound
import Verif.LibmTrig

/-! Accuracy of `j0`, `j1` in binary64 for `8 ≤ |x|`. -/

namespace Verif
namespace BesX
open FlErr F64
open Real (pi sin cos)

/-- variable 0 is `z = 8/a` in an interval, with error `e`; variables 1 and 2 are a cosine and a sine -/
def trB (a : ℤ) (w e : ℕ) : ℕ → B := fun i => if i = 0 then ⟨a, a + w, e⟩ else ⟨-2 ^ 160, 2 ^ 160, 0⟩
def trF (t c s : F64) : ℕ → F64 := fun i => if i = 0 then t else if i = 1 then c else s
noncomputable def trR (t c s : ℝ) : ℕ → ℝ := fun i => if i = 0 then t else if i = 1 then c else s

def piecesT (E : Ex) (crit : B → Bool) (e w : ℕ) : ℕ → ℤ → Bool
  | 0, _ => true
  | n + 1, a => (match bnd (trB a w e) E with
    | some r => crit r
    | none => false) && piecesT E crit e w n (a + w)

theorem piecesT_sound {E : Ex} {crit : B → Bool} {e w : ℕ} {x c s : F64} {X : ℝ} (hf : x.isFin = true) (he : |x.val - X| ≤ e / FlErr.U)
    (hcf : c.isFin = true) (hsf : s.isFin = true) (hc : |c.val| ≤ 1) (hs : |s.val| ≤ 1) :
    ∀ (n : ℕ) (a : ℤ), 0 < n → piecesT E crit e w n a = true → a / FlErr.U ≤ x.val → x.val ≤ ((a + w * n : ℤ) : ℝ) / FlErr.U →
      ∃ r, FlErr.In (evF (trF x c s) E) (evR (trR X c.val s.val) E) r ∧ crit r = true
  | 0, a, h0, h, h1, h2 => absurd h0 (by simp)
  | n + 1, a, h0, h, h1, h2 => by
    simp only [piecesT, Bool.and_eq_true] at h
    obtain ⟨h3, h4⟩ := h
    by_cases hx : x.val ≤ ((a + w : ℤ) : ℝ) / FlErr.U
    · split at h3
      · rename_i r hr
        refine ⟨r, bnd_sound (fun i => ?_) E r hr, h3⟩
        have one : ∀ y : F64, y.isFin = true → |y.val| ≤ 1 → FlErr.In y y.val ⟨-2 ^ 160, 2 ^ 160, 0⟩ := by
          intro y hy h1
          rw [abs_le] at h1
          refine ⟨hy, ?_, ?_, by simp⟩
          · unfold FlErr.U; norm_num; exact h1.1
          · unfold FlErr.U; norm_num; exact h1.2
        unfold trF trR trB
        split
        · exact ⟨hf, h1, by push_cast at hx ⊢; exact hx, he⟩
        · split
          · exact one c hcf hc
          · exact one s hsf hs
      · exact absurd h3 (by simp)
    · have hn : 0 < n := by
        rcases Nat.eq_zero_or_pos n with rfl | h
        · exfalso; apply hx; simpa using h2
        · exact h
      refine piecesT_sound hf he hcf hsf hc hs n (a + w) hn h4 (le_of_not_ge hx) (h2.trans (le_of_eq ?_))
      push_cast; ring

def yE : Ex := .mul (.var 0) (.var 0)
/-- the bracket of the asymptotic form -/
def brE (PN PD QN QD : List Ex) : Ex :=
  .sub (.div (.mul (.var 1) (hornE yE PN)) (hornE yE PD)) (.div (.mul (.mul (.var 0) (.var 2)) (hornE yE QN)) (hornE yE QD))
def qE (PN PD : List Ex) : Ex := .div (hornE yE PN) (hornE yE PD)

/-- absolute value at most `N` units -/
def bdC (N : ℕ) (r : B) : Bool := decide (r.l.natAbs + r.e ≤ N) && decide (r.u.natAbs + r.e ≤ N)

theorem bdC_sound {a : F64} {A : ℝ} {N : ℕ} {r : B} (h : FlErr.In a A r) (hc : bdC N r = true) : |A| ≤ N / FlErr.U ∧ |a.val| ≤ N / FlErr.U := by
  simp only [bdC, Bool.and_eq_true, decide_eq_true_eq] at hc
  have hU := FlErr.U_pos
  have he := scale_err h.err
  have hl := scale_lo h.lo
  have hu := scale_hi h.hi
  have h1 : (-(N:ℝ) + r.e) ≤ r.l := by
    have : -(N:ℤ) + r.e ≤ r.l := by omega
    exact_mod_cast this
  have h2 : (r.u:ℝ) ≤ N - r.e := by
    have : r.u ≤ N - (r.e:ℤ) := by omega
    exact_mod_cast this
  have h3 := abs_le.1 (show |(a.val - A) * FlErr.U| ≤ r.e by rw [abs_mul, abs_of_pos hU]; exact he)
  have he0 : (0:ℝ) ≤ r.e := by positivity
  rw [le_div_iff₀ hU, le_div_iff₀ hU, ← abs_of_pos hU, ← abs_mul, ← abs_mul, abs_le, abs_le]
  refine ⟨⟨?_, ?_⟩, ?_, ?_⟩ <;> nlinarith [h3.1, h3.2]

def crT (r : B) : Bool := absC (2 ^ 160 / (2 * 10 ^ 14)) r && bdC (2 ^ 161) r
set_option maxRecDepth 100000
theorem br0_pc : piecesT (brE J0PNx J0PDx J0QNx J0QDx) crT (2 ^ 108) (2 ^ 155) 32 0 = true := by decide +kernel
theorem br1_pc : piecesT (brE J1PNx J1PDx J1QNx J1QDx) crT (2 ^ 108) (2 ^ 155) 32 0 = true := by decide +kernel
theorem p0_pc : piecesT (qE J0PNx J0PDx) (bdC (2 ^ 160 + 2 ^ 160 / 10)) (2 ^ 108) (2 ^ 155) 32 0 = true := by decide +kernel
theorem q0_pc : piecesT (qE J0QNx J0QDx) (bdC (2 ^ 160 / 20)) (2 ^ 108) (2 ^ 155) 32 0 = true := by decide +kernel
theorem p1_pc : piecesT (qE J1PNx J1PDx) (bdC (2 ^ 160 + 2 ^ 160 / 10)) (2 ^ 108) (2 ^ 155) 32 0 = true := by decide +kernel
theorem q1_pc : piecesT (qE J1QNx J1QDx) (bdC (2 ^ 160 / 20)) (2 ^ 108) (2 ^ 155) 32 0 = true := by decide +kernel


/-- `8.0 / a` -/
theorem t8 {a : F64} (hf : a.isFin = true) (h8 : 8 ≤ a.val) :
    ((8.0 : F64) / a).isFin = true ∧ |((8.0 : F64) / a).val - 8 / a.val| ≤ (2 ^ 108 : ℕ) / FlErr.U ∧ 0 ≤ ((8.0 : F64) / a).val ∧ ((8.0 : F64) / a).val ≤ 1 := by
  have h0 : 0 < a.val := by linarith
  have e8 : (8.0 : F64).val = 8 := by exact_mod_cast val_of_int (x := (8.0 : F64)) 8 (by decide +kernel)
  obtain ⟨-, d, -⟩ := div_spec (a := (8.0 : F64)) (by decide +kernel) hf h0.ne'
  rw [e8] at d
  have q0 : 0 ≤ 8 / a.val := by positivity
  have q1 : 8 / a.val ≤ 1 := by rw [div_le_one h0]; exact h8
  have hH := HUGE_ge
  have r := RN_err' (x := 8 / a.val) (by rw [abs_of_nonneg q0]; exact lt_of_le_of_lt q1 (lt_of_lt_of_le (by norm_num) hH))
  rw [abs_of_nonneg q0] at r
  have m1 : 8 / a.val / 2 ^ 53 ≤ 1 / 2 ^ 53 := by gcongr
  have m2 : (1:ℝ) / 2 ^ 1075 ≤ 1 / 2 ^ 100 := one_div_le_one_div_of_le (by positivity) (pow_le_pow_right₀ (by norm_num) (by norm_num))
  have lo : 0 ≤ RN (8 / a.val) := by
    have := RN_mono q0
    rwa [RN_zero] at this
  have hi : RN (8 / a.val) ≤ 1 := by
    have := RN_mono q1
    rwa [RN_one] at this
  rw [isFin_iff_val, d]
  refine ⟨?_, ?_, lo, hi⟩
  · rw [abs_of_nonneg lo]; exact lt_of_le_of_lt hi (lt_of_lt_of_le (by norm_num) hH)
  · refine r.trans ((add_le_add m1 m2).trans ?_)
    unfold FlErr.U; norm_num

theorem twoopi_rel : Rel (TWOOPI : F64) (2 / Real.pi) (1 / 2 ^ 53) := by
  have h1 := Real.pi_gt_d20
  have h2 := Real.pi_lt_d20
  have hp := Real.pi_pos
  refine ⟨by decide +kernel, by positivity, ?_⟩
  have hv : (TWOOPI : F64).val = 5734161139222659 / 9007199254740992 := by
    have := val_of_sv (x := (TWOOPI : F64)) 5734161139222659 9007199254740992 (by norm_num) (by decide +kernel)
    rw [this]; norm_num
  rw [hv, div_sub_div _ _ (by norm_num) hp.ne', abs_div, abs_of_pos (by positivity : (0:ℝ) < 9007199254740992 * Real.pi), div_mul_div_comm, div_le_div_iff₀ (by positivity) (by positivity)]
  have : |5734161139222659 * Real.pi - 9007199254740992 * 2| ≤ 2 := by
    rw [abs_le]; constructor <;> norm_num at h1 h2 ⊢ <;> linarith
  have := mul_le_mul_of_nonneg_right this hp.le
  norm_num at this ⊢
  linarith

theorem pio4_val : |(PIO4 : F64).val - Real.pi / 4| ≤ 4e-17 := by
  have h1 := Real.pi_gt_d20
  have h2 := Real.pi_lt_d20
  have hv : (PIO4 : F64).val = 7074237752028440 / 9007199254740992 := by
    have := val_of_sv (x := (PIO4 : F64)) 7074237752028440 9007199254740992 (by norm_num) (by decide +kernel)
    rw [this]; norm_num
  rw [hv, abs_le]; norm_num at h1 h2 ⊢; constructor <;> linarith

variable [Libm F64]

omit [Libm F64] in
theorem tr_final {a b : F64} {W d : ℝ} (hf : a.isFin = true) (h8 : 8 ≤ a.val) (h900 : a.val ≤ 2 ^ 900) (bf : b.isFin = true) (bv' : |b.val| ≤ 2)
    (hd : d = a.val / 2 ^ 53 + 6.4e-16) (hbW : |b.val - W| ≤ 1.15 * d + 5.01e-15) :
    (F64.sqrt (TWOOPI / a) * b).isFin = true ∧ |(F64.sqrt (TWOOPI / a) * b).val - √(2 / Real.pi / a.val) * W| ≤ (8e-15 + a.val / 2 ^ 53) / √a.val := by
  have h0 : 0 < a.val := by linarith
  have hH := HUGE_ge
  have d0 : 0 ≤ d := by rw [hd]; positivity
  have sa : 0 < √a.val := Real.sqrt_pos.mpr h0
  have sa1 : √a.val ≤ 2 ^ 450 := Real.sqrt_le_iff.mpr ⟨by positivity, by rw [← pow_mul]; exact h900⟩
  have hpi := Real.pi_pos
  have hpi3 := Real.pi_gt_three
  have hpi4 := Real.pi_lt_d2
  have hm : 1 / 2 ^ 902 ≤ 2 / Real.pi / a.val := by
    rw [div_div, div_le_div_iff₀ (by positivity) (by positivity)]
    have : Real.pi * a.val ≤ 4 * 2 ^ 900 := by
      have : Real.pi ≤ 4 := by norm_num at hpi4 ⊢; linarith
      gcongr
    rw [show (2:ℝ) ^ 902 = 4 * 2 ^ 900 by rw [show (4:ℝ) = 2 ^ 2 by norm_num, ← pow_add]]
    have w0 : (0:ℝ) < 4 * 2 ^ 900 := by positivity
    generalize (4:ℝ) * 2 ^ 900 = w at *
    linarith
  have hm2 : 2 / Real.pi / a.val ≤ 1 := by
    rw [div_div, div_le_one (by positivity)]; nlinarith
  have p1000 : ∀ n : ℕ, n ≤ 1000 → (1:ℝ) / 2 ^ 1000 ≤ 1 / 2 ^ n := fun n hn =>
    one_div_le_one_div_of_le (by positivity) (pow_le_pow_right₀ (by norm_num) hn)
  have one1000 : (1:ℝ) ≤ 2 ^ 1000 := one_le_pow₀ (by norm_num)
  have q := rel_div (η := 1.2e-16) twoopi_rel (rel_self hf h0) ⟨(p1000 902 (by norm_num)).trans hm, hm2.trans one1000⟩ (by norm_num) (by norm_num) (by norm_num)
  have hqp := q.val_pos (by norm_num)
  have hsig : 0 < 2 / Real.pi / a.val := q.pos
  set σ := √(2 / Real.pi / a.val) with hσ
  have σ0 : 0 < σ := Real.sqrt_pos.mpr hsig
  have σσ : σ * σ = 2 / Real.pi / a.val := Real.mul_self_sqrt hsig.le
  have σ1 : σ ≤ 1 := Real.sqrt_le_one.mpr hm2
  have σl : 1 / 2 ^ 451 ≤ σ := by
    apply Real.le_sqrt_of_sq_le
    rw [div_pow, one_pow, ← pow_mul]; exact hm
  have hr : |√(TWOOPI / a : F64).val - σ| ≤ 2.4e-16 * σ := by
    have hv := Real.sqrt_nonneg (TWOOPI / a : F64).val
    have hvv : √(TWOOPI / a : F64).val * √(TWOOPI / a : F64).val = (TWOOPI / a : F64).val := Real.mul_self_sqrt hqp.le
    have qe := q.err
    rw [← σσ, ← hvv] at qe
    generalize √(TWOOPI / a : F64).val = u at *
    rw [show u * u - σ * σ = (u - σ) * (u + σ) by ring, abs_mul, abs_of_pos (by linarith : 0 < u + σ)] at qe
    have h5 : |u - σ| * σ ≤ |u - σ| * (u + σ) := mul_le_mul_of_nonneg_left (by linarith) (abs_nonneg _)
    have h6 : |u - σ| * σ ≤ (2.4e-16 * σ) * σ := by
      refine h5.trans (qe.trans ?_)
      rw [mul_assoc]
      exact mul_le_mul_of_nonneg_right (by norm_num) (by positivity)
    exact le_of_mul_le_mul_right h6 σ0
  have hS := (rel_round (F64.sqrt_spec q.fin hqp).2.1 ⟨(p1000 451 (by norm_num)).trans σl, σ1.trans one1000⟩ (by norm_num) hr).mono (δ := 3.6e-16) (by norm_num)
  generalize hSS : F64.sqrt (TWOOPI / a) = Sq at *
  have hSe := hS.err
  have m := (mul_spec hS.fin bf).2.1
  have hSb := hS.bounds
  have hSv : |Sq.val| ≤ 2 * σ := by
    rw [abs_of_pos (hS.val_pos (by norm_num))]; norm_num at hSb; linarith [hSb.2]
  have hprod : |Sq.val * b.val| ≤ 4 * σ := by
    rw [abs_mul]
    calc |Sq.val| * |b.val| ≤ (2 * σ) * 2 := mul_le_mul hSv bv' (abs_nonneg _) (by positivity)
      _ = 4 * σ := by ring
  have rr := RN_err' (x := Sq.val * b.val) (lt_of_le_of_lt hprod (lt_of_lt_of_le (by norm_num at σ1 ⊢; linarith) hH))
  have w2 : (1:ℝ) / 2 ^ 1075 ≤ 1e-18 * σ := by
    have : (1:ℝ) / 2 ^ 1075 ≤ 1 / 2 ^ 100 * (1 / 2 ^ 451) := by
      rw [div_mul_div_comm, ← pow_add, one_mul]
      exact one_div_le_one_div_of_le (by positivity) (pow_le_pow_right₀ (by norm_num) (by norm_num))
    refine this.trans (mul_le_mul (by norm_num) σl (by positivity) (by norm_num))
  have h7 : |Sq.val * b.val - σ * W| ≤ σ * (1.15 * d + 5.01e-15) + 7.2e-16 * σ := by
    rw [show Sq.val * b.val - σ * W = (Sq.val - σ) * b.val + σ * (b.val - W) by ring]
    refine (abs_add_le _ _).trans ?_
    rw [abs_mul, abs_mul, abs_of_pos σ0, add_comm]
    refine add_le_add (mul_le_mul_of_nonneg_left hbW σ0.le) ?_
    calc |Sq.val - σ| * |b.val| ≤ (3.6e-16 * σ) * 2 := mul_le_mul hSe bv' (abs_nonneg _) (by positivity)
      _ = 7.2e-16 * σ := by ring
  have h8' : |(Sq * b).val - σ * W| ≤ σ * (1.15 * d + 6.2e-15) := by
    rw [m]
    refine (abs_sub_le _ (Sq.val * b.val) _).trans ?_
    have : |Sq.val * b.val| / 2 ^ 53 ≤ 4 * σ / 2 ^ 53 := by gcongr
    have k5 : σ * (1.15 * d + 6.2e-15) = 1.15 * (σ * d) + 6.2e-15 * σ := by ring
    have k6 : σ * (1.15 * d + 5.01e-15) + 7.2e-16 * σ = 1.15 * (σ * d) + 5.73e-15 * σ := by ring
    rw [k5]
    rw [k6] at h7
    generalize (1:ℝ) / 2 ^ 1075 = w at *
    norm_num at *
    linarith
  have hs8 : σ ≤ 0.8 / √a.val := by
    rw [hσ, Real.sqrt_div' _ h0.le]
    refine div_le_div_of_nonneg_right ?_ sa.le
    apply Real.sqrt_le_iff.mpr ⟨by norm_num, ?_⟩
    rw [div_le_iff₀ hpi]; nlinarith [Real.pi_gt_d2]
  refine ⟨?_, h8'.trans ?_⟩
  · rw [isFin_iff_val, m]
    have := abs_sub_abs_le_abs_sub (RN (Sq.val * b.val)) (Sq.val * b.val)
    refine lt_of_lt_of_le ?_ hH
    have : |Sq.val * b.val| / 2 ^ 53 ≤ 4 * σ / 2 ^ 53 := by gcongr
    generalize (1:ℝ) / 2 ^ 1075 = w at *
    norm_num at *
    linarith
  · rw [le_div_iff₀ sa]
    rw [le_div_iff₀ sa] at hs8
    have : σ * (1.15 * d + 6.2e-15) * √a.val ≤ 0.8 * (1.15 * d + 6.2e-15) := by
      rw [show σ * (1.15 * d + 6.2e-15) * √a.val = (σ * √a.val) * (1.15 * d + 6.2e-15) by ring]
      exact mul_le_mul_of_nonneg_right hs8 (by positivity)
    refine this.trans ?_
    rw [hd]
    have : 0 ≤ a.val / 2 ^ 53 := by positivity
    norm_num at *
    linarith

theorem tr_branch (L : LibmTrig) {a k : F64} {K : ℝ} {PN PD QN QD : List Ex} (hf : a.isFin = true) (h8 : 8 ≤ a.val) (h900 : a.val ≤ 2 ^ 900)
    (hk : k.isFin = true) (hk0 : 0 ≤ k.val) (hk3 : k.val ≤ 3) (hK : |k.val - K| ≤ 4e-16)
    {pn pd qn qd : List ℝ} (hPN : ∀ ρ, PN.map (evR ρ) = pn) (hPD : ∀ ρ, PD.map (evR ρ) = pd) (hQN : ∀ ρ, QN.map (evR ρ) = qn) (hQD : ∀ ρ, QD.map (evR ρ) = qd)
    (n1 : PN ≠ []) (n2 : PD ≠ []) (n3 : QN ≠ []) (n4 : QD ≠ [])
    (hb : piecesT (brE PN PD QN QD) crT (2 ^ 108) (2 ^ 155) 32 0 = true)
    (hp : piecesT (qE PN PD) (bdC (2 ^ 160 + 2 ^ 160 / 10)) (2 ^ 108) (2 ^ 155) 32 0 = true)
    (hq : piecesT (qE QN QD) (bdC (2 ^ 160 / 20)) (2 ^ 108) (2 ^ 155) 32 0 = true) :
    let v := F64.sqrt (TWOOPI / a) * evF (trF (8.0 / a) (Libm.cos (a - k)) (Libm.sin (a - k))) (brE PN PD QN QD)
    v.isFin = true ∧ |v.val - √(2 / Real.pi / a.val) * evR (trR (8 / a.val) (Real.cos (a.val - K)) (Real.sin (a.val - K))) (brE PN PD QN QD)| ≤
      (8e-15 + a.val / 2 ^ 53) / √a.val := by
  have h0 : 0 < a.val := by linarith
  have hH := HUGE_ge
  -- the argument
  have hs1 := (F64.sub_spec hf hk).2
  have hd0 : 0 ≤ a.val - k.val := by linarith
  have hdl : a.val - k.val ≤ a.val := by linarith
  have hHa : |a.val| < HUGE := isFin_iff_val.1 hf
  have hHd : |a.val - k.val| < HUGE := by rw [abs_of_nonneg hd0]; rw [abs_of_pos h0] at hHa; linarith
  have hxf : (a - k).isFin = true := by
    rw [isFin_iff_val, hs1]
    have h1 : RN (a.val - k.val) ≤ RN a.val := RN_mono hdl
    have h2 : 0 ≤ RN (a.val - k.val) := by have := RN_mono hd0; rwa [RN_zero] at this
    rw [abs_of_nonneg h2]
    rw [RN_val (isFin_notNaN hf)] at h1
    rw [abs_of_pos h0] at hHa; linarith
  have hxe : |(a - k).val - (a.val - K)| ≤ a.val / 2 ^ 53 + 4.1e-16 := by
    have r := RN_err' hHd
    rw [← hs1, abs_of_nonneg hd0] at r
    have m1 : (a.val - k.val) / 2 ^ 53 ≤ a.val / 2 ^ 53 := by gcongr
    have m2 : (1:ℝ) / 2 ^ 1075 ≤ 1 / 2 ^ 100 := one_div_le_one_div_of_le (by positivity) (pow_le_pow_right₀ (by norm_num) (by norm_num))
    have m3 : (1:ℝ) / 2 ^ 100 ≤ 1e-18 := by norm_num
    have e : (a - k).val - (a.val - K) = ((a - k).val - (a.val - k.val)) + (-(k.val - K)) := by ring
    rw [e]
    refine (abs_add_le _ _).trans ?_
    rw [abs_neg]
    have := add_le_add r hK
    refine this.trans ?_
    norm_num at m2 m3 ⊢
    linarith
  obtain ⟨hcn, hc1⟩ := L.cos_num _ hxf
  obtain ⟨hsn, hsl⟩ := L.sin_num _ hxf
  have hcu := L.cos_ulp _ hxf
  have hsu := L.sin_ulp _ hxf
  have hcf : (Libm.cos (a - k)).isFin = true := fin_of_abs (c := 2) (by norm_num) (by linarith)
  have hsf : (Libm.sin (a - k)).isFin = true := fin_of_abs (c := 2) (by norm_num) (by linarith)
  have ce : |(Libm.cos (a - k)).val - Real.cos (a.val - K)| ≤ a.val / 2 ^ 53 + 6.4e-16 := by
    have := abs_sub_le (Libm.cos (a - k)).val (Real.cos (a - k).val) (Real.cos (a.val - K))
    have h2 : |Real.cos (a - k).val - Real.cos (a.val - K)| ≤ |(a - k).val - (a.val - K)| := Real.abs_cos_sub_cos_le _ _
    norm_num at hcu hxe ⊢
    linarith
  have se : |(Libm.sin (a - k)).val - Real.sin (a.val - K)| ≤ a.val / 2 ^ 53 + 6.4e-16 := by
    have := abs_sub_le (Libm.sin (a - k)).val (Real.sin (a - k).val) (Real.sin (a.val - K))
    have h2 : |Real.sin (a - k).val - Real.sin (a.val - K)| ≤ |(a - k).val - (a.val - K)| := Real.abs_sin_sub_sin_le _ _
    norm_num at hsu hxe ⊢
    linarith
  generalize Libm.cos (a - k) = c at *
  generalize Libm.sin (a - k) = s at *
  generalize Real.cos (a.val - K) = C at *
  generalize Real.sin (a.val - K) = S at *
  obtain ⟨t1, t2, t3, t4⟩ := t8 hf h8
  have T0 : 0 ≤ 8 / a.val := by positivity
  have T1 : 8 / a.val ≤ 1 := by rw [div_le_one h0]; exact h8
  have hU8 : (8.0 / a : F64).val ≤ ((0 + (2 ^ 155 : ℕ) * (32 : ℕ) : ℤ) : ℝ) / FlErr.U := by unfold FlErr.U; norm_num; exact t4
  obtain ⟨r, hr, hc⟩ := piecesT_sound t1 t2 hcf hsf hc1 hsl 32 0 (by norm_num) hb (by simpa using t3) hU8
  simp only [crT, Bool.and_eq_true] at hc
  obtain ⟨bf, be⟩ := absC_sound hr hc.1
  obtain ⟨-, bv⟩ := bdC_sound hr hc.2
  obtain ⟨r', hr', hc'⟩ := piecesT_sound t1 t2 hcf hsf hc1 hsl 32 0 (by norm_num) hp (by simpa using t3) hU8
  obtain ⟨pb, -⟩ := bdC_sound hr' hc'
  obtain ⟨r'', hr'', hc''⟩ := piecesT_sound t1 t2 hcf hsf hc1 hsl 32 0 (by norm_num) hq (by simpa using t3) hU8
  obtain ⟨qb, -⟩ := bdC_sound hr'' hc''
  clear hr hr' hr'' hc hc' hc''
  -- linear in the trigonometric values
  have yR : ∀ x y, evR (trR (8 / a.val) x y) yE = 8 / a.val * (8 / a.val) := by intro x y; simp [yE, evR, trR]
  have br : ∀ x y, evR (trR (8 / a.val) x y) (brE PN PD QN QD) = x * (hornerL (8 / a.val * (8 / a.val)) pn / hornerL (8 / a.val * (8 / a.val)) pd) -
      8 / a.val * y * (hornerL (8 / a.val * (8 / a.val)) qn / hornerL (8 / a.val * (8 / a.val)) qd) := by
    intro x y
    unfold brE
    simp only [evR, hornE_R' (hPN _) n1, hornE_R' (hPD _) n2, hornE_R' (hQN _) n3, hornE_R' (hQD _) n4, yR]
    simp only [trR, if_true, one_ne_zero, if_false, OfNat.ofNat_ne_zero, OfNat.ofNat_ne_one]
    ring
  simp only [qE, evR, hornE_R' (hPN _) n1, hornE_R' (hPD _) n2, hornE_R' (hQN _) n3, hornE_R' (hQD _) n4, yR] at pb qb
  rw [br] at be ⊢
  generalize hornerL (8 / a.val * (8 / a.val)) pn / hornerL (8 / a.val * (8 / a.val)) pd = P at *
  generalize hornerL (8 / a.val * (8 / a.val)) qn / hornerL (8 / a.val * (8 / a.val)) qd = Q at *
  generalize evF (trF (8.0 / a) c s) (brE PN PD QN QD) = b at *
  generalize 8 / a.val = T at *
  have pb' : |P| ≤ 1.1 := pb.trans (by unfold FlErr.U; norm_num)
  have qb' : |Q| ≤ 0.05 := qb.trans (by unfold FlErr.U; norm_num)
  have be' : |b.val - (c.val * P - T * s.val * Q)| ≤ 5.01e-15 := be.trans (by unfold FlErr.U; norm_num)
  have bv' : |b.val| ≤ 2 := bv.trans (by unfold FlErr.U; norm_num)
  set d := a.val / 2 ^ 53 + 6.4e-16 with hd
  have d0 : 0 ≤ d := by rw [hd]; positivity
  have h1 : |(c.val * P - T * s.val * Q) - (C * P - T * S * Q)| ≤ 1.15 * d := by
    have e : (c.val * P - T * s.val * Q) - (C * P - T * S * Q) = (c.val - C) * P - T * ((s.val - S) * Q) := by ring
    rw [e]
    have k1 : |(c.val - C) * P| ≤ d * 1.1 := by rw [abs_mul]; exact mul_le_mul ce pb' (abs_nonneg _) d0
    have k2 : |(s.val - S) * Q| ≤ d * 0.05 := by rw [abs_mul]; exact mul_le_mul se qb' (abs_nonneg _) d0
    have k3 : |T * ((s.val - S) * Q)| ≤ 1 * (d * 0.05) := by
      rw [abs_mul, abs_of_nonneg T0]; exact mul_le_mul T1 k2 (abs_nonneg _) (by norm_num)
    refine (abs_sub _ _).trans ?_
    norm_num at k1 k3 ⊢; linarith
  set W := C * P - T * S * Q with hW
  have hbW : |b.val - W| ≤ 1.15 * d + 5.01e-15 := by
    have := abs_sub_le b.val (c.val * P - T * s.val * Q) W
    linarith
  exact tr_final hf h8 h900 bf bv' hd hbW


omit [Libm F64] in
theorem j_right_ge {x : F64} (hx : 8 ≤ |x.val|) : (Arith.abs x <ᶠ (8.0 : F64)) = false := by
  rw [Bool.eq_false_iff]
  intro h
  have h : F64.lt x.abs 8.0 = true := h
  rw [lt_iff] at h
  have h2 := h.2.2
  rw [val_abs, val_of_int (x := (8.0 : F64)) 8 (by decide +kernel)] at h2
  push_cast at h2
  linarith

omit [Libm F64] in
theorem j_right_geR {x : ℝ} (hx : 8 ≤ |x|) : (Arith.abs x <ᶠ (8.0:ℝ)) = false := by
  show decide (|x| < (8.0:ℝ)) = false
  rw [decide_eq_false_iff_not]; norm_num; exact hx

omit [Libm F64] in
theorem one_pio4 : ((1.0 : F64) * PIO4).isFin = true ∧ 0 ≤ ((1.0 : F64) * PIO4).val ∧ ((1.0 : F64) * PIO4).val ≤ 3 ∧ |((1.0 : F64) * PIO4).val - 1.0 * (Real.pi / 4)| ≤ 4e-16 := by
  have e : (1.0 : F64) * PIO4 = PIO4 := by decide +kernel
  have h := pio4_val
  have h1 := Real.pi_gt_d2
  have h2 := Real.pi_lt_d2
  rw [e]
  have h3 := abs_le.1 h
  norm_num at *
  refine ⟨by decide +kernel, by linarith [h3.1], by linarith [h3.2], by linarith⟩

omit [Libm F64] in
theorem three_pio4 : ((3.0 : F64) * PIO4).isFin = true ∧ 0 ≤ ((3.0 : F64) * PIO4).val ∧ ((3.0 : F64) * PIO4).val ≤ 3 ∧ |((3.0 : F64) * PIO4).val - 3.0 * (Real.pi / 4)| ≤ 4e-16 := by
  have hv : ((3.0 : F64) * PIO4).val = 5305678314021330 / 2251799813685248 := by
    have := val_of_sv (x := (3.0 : F64) * PIO4) 5305678314021330 2251799813685248 (by norm_num) (by decide +kernel)
    rw [this]; norm_num
  have h1 := Real.pi_gt_d20
  have h2 := Real.pi_lt_d20
  refine ⟨by decide +kernel, ?_, ?_, ?_⟩
  · rw [hv]; norm_num
  · rw [hv]; norm_num
  · rw [hv, abs_le]; norm_num at h1 h2 ⊢; constructor <;> linarith

theorem j0_acc_mid (L : LibmTrig) {x : F64} (hx : 8 ≤ |x.val|) (h900 : |x.val| ≤ 2 ^ 900) (hf : x.isFin = true) :
    (j0 x).isFin = true ∧ |(j0 x).val - besselJR 0 x.val| ≤ (1.31e-12 + |x.val| / 2 ^ 53) / √|x.val| := by
  have hva := val_abs x
  have hfa : x.abs.isFin = true := by rw [isFin_iff_val, hva, abs_abs]; exact isFin_iff_val.1 hf
  obtain ⟨k1, k2, k3, k4⟩ := one_pio4
  have h := tr_branch L (a := x.abs) hfa (by rw [hva]; exact hx) (by rw [hva]; exact h900) k1 k2 k3 k4 J0PNx_R J0PDx_R J0QNx_R J0QDx_R (by decide) (by decide) (by decide) (by decide)
    br0_pc p0_pc q0_pc
  have e1 : j0 x = F64.sqrt (TWOOPI / x.abs) * evF (trF (8.0 / x.abs) (Libm.cos (x.abs - (1.0 : F64) * PIO4)) (Libm.sin (x.abs - (1.0 : F64) * PIO4))) (brE J0PNx J0PDx J0QNx J0QDx) := by
    unfold j0 asp
    simp only [j_right_ge hx]
    rw [if_neg (by simp)]
    unfold brE yE
    simp only [evF, hornE_F' (J0PNx_F _) (by decide : J0PNx ≠ []), hornE_F' (J0PDx_F _) (by decide : J0PDx ≠ []), hornE_F' (J0QNx_F _) (by decide : J0QNx ≠ []), hornE_F' (J0QDx_F _) (by decide : J0QDx ≠ [])]
    rfl
  have e2 : j0 x.val = √(2 / Real.pi / x.abs.val) * evR (trR (8 / x.abs.val) (Real.cos (x.abs.val - 1.0 * (Real.pi / 4))) (Real.sin (x.abs.val - 1.0 * (Real.pi / 4)))) (brE J0PNx J0PDx J0QNx J0QDx) := by
    unfold j0 asp
    simp only [j_right_geR hx]
    rw [if_neg (by simp)]
    unfold brE yE
    simp only [evR, hornE_R' (J0PNx_R _) (by decide : J0PNx ≠ []), hornE_R' (J0PDx_R _) (by decide : J0PDx ≠ []), hornE_R' (J0QNx_R _) (by decide : J0QNx ≠ []), hornE_R' (J0QDx_R _) (by decide : J0QDx ≠ [])]
    rw [hva, show (8.0:ℝ) = 8 by norm_num]
    rfl
  simp only at h
  rw [← e1, ← e2, hva] at h
  refine ⟨h.1, (abs_sub_le _ (j0 x.val) _).trans ((add_le_add h.2 (Bes.j0_right hx)).trans ?_)⟩
  rw [← add_div]
  refine div_le_div_of_nonneg_right ?_ (Real.sqrt_nonneg _)
  norm_num; linarith

theorem j1_acc_mid (L : LibmTrig) {x : F64} (hx : 8 ≤ |x.val|) (h900 : |x.val| ≤ 2 ^ 900) (hf : x.isFin = true) :
    (j1 x).isFin = true ∧ |(j1 x).val - besselJR 1 x.val| ≤ (1.31e-12 + |x.val| / 2 ^ 53) / √|x.val| := by
  have hva := val_abs x
  have hfa : x.abs.isFin = true := by rw [isFin_iff_val, hva, abs_abs]; exact isFin_iff_val.1 hf
  obtain ⟨k1, k2, k3, k4⟩ := three_pio4
  have h := tr_branch L (a := x.abs) hfa (by rw [hva]; exact hx) (by rw [hva]; exact h900) k1 k2 k3 k4 J1PNx_R J1PDx_R J1QNx_R J1QDx_R (by decide) (by decide) (by decide) (by decide)
    br1_pc p1_pc q1_pc
  have e1 : j1 x = if x <ᶠ 0.0 then -(F64.sqrt (TWOOPI / x.abs) * evF (trF (8.0 / x.abs) (Libm.cos (x.abs - (3.0 : F64) * PIO4)) (Libm.sin (x.abs - (3.0 : F64) * PIO4))) (brE J1PNx J1PDx J1QNx J1QDx))
      else F64.sqrt (TWOOPI / x.abs) * evF (trF (8.0 / x.abs) (Libm.cos (x.abs - (3.0 : F64) * PIO4)) (Libm.sin (x.abs - (3.0 : F64) * PIO4))) (brE J1PNx J1PDx J1QNx J1QDx) := by
    unfold j1 asp
    simp only [j_right_ge hx]
    rw [if_neg (by simp)]
    unfold brE yE
    simp only [evF, hornE_F' (J1PNx_F _) (by decide : J1PNx ≠ []), hornE_F' (J1PDx_F _) (by decide : J1PDx ≠ []), hornE_F' (J1QNx_F _) (by decide : J1QNx ≠ []), hornE_F' (J1QDx_F _) (by decide : J1QDx ≠ [])]
    rfl
  have e2 : j1 x.val = if x.val < 0 then -(√(2 / Real.pi / x.abs.val) * evR (trR (8 / x.abs.val) (Real.cos (x.abs.val - 3.0 * (Real.pi / 4))) (Real.sin (x.abs.val - 3.0 * (Real.pi / 4)))) (brE J1PNx J1PDx J1QNx J1QDx))
      else √(2 / Real.pi / x.abs.val) * evR (trR (8 / x.abs.val) (Real.cos (x.abs.val - 3.0 * (Real.pi / 4))) (Real.sin (x.abs.val - 3.0 * (Real.pi / 4)))) (brE J1PNx J1PDx J1QNx J1QDx) := by
    unfold j1 asp
    simp only [j_right_geR hx]
    rw [if_neg (by simp)]
    unfold brE yE
    simp only [evR, hornE_R' (J1PNx_R _) (by decide : J1PNx ≠ []), hornE_R' (J1PDx_R _) (by decide : J1PDx ≠ []), hornE_R' (J1QNx_R _) (by decide : J1QNx ≠ []), hornE_R' (J1QDx_R _) (by decide : J1QDx ≠ [])]
    have hz : (x.val <ᶠ (0.0:ℝ)) = decide (x.val < 0) := by
      show decide (x.val < (0.0:ℝ)) = _
      norm_num
    rw [hz]
    simp only [decide_eq_true_eq]
    rw [hva, show (8.0:ℝ) = 8 by norm_num]
    rfl
  have hlt : (x <ᶠ (0.0 : F64)) = decide (x.val < 0) := by
    have h00 : (0.0 : F64).val = 0 := by exact_mod_cast val_of_int (x := (0.0 : F64)) 0 (by decide +kernel)
    rw [Bool.eq_iff_iff, decide_eq_true_eq]
    show F64.lt x 0.0 = true ↔ _
    rw [lt_iff, h00]
    exact ⟨fun h => h.2.2, fun h => ⟨isFin_notNaN hf, by decide +kernel, h⟩⟩
  have key : (j1 x).isFin = true ∧ |(j1 x).val - j1 x.val| ≤ (8e-15 + |x.val| / 2 ^ 53) / √|x.val| := by
    simp only at h
    rw [e1, e2, hlt]
    rw [hva] at h ⊢
    by_cases hn : x.val < 0
    · simp only [hn, decide_true, if_true]
      refine ⟨by rw [isFin_iff_val, val_neg, abs_neg]; exact isFin_iff_val.1 h.1, ?_⟩
      rw [val_neg, ← neg_sub', abs_neg]; exact h.2
    · simp only [hn, decide_false, if_false]
      exact h
  refine ⟨key.1, (abs_sub_le _ (j1 x.val) _).trans ((add_le_add key.2 (Bes.j1_right hx)).trans ?_)⟩
  rw [← add_div]
  refine div_le_div_of_nonneg_right ?_ (Real.sqrt_nonneg _)
  norm_num; linarith

omit [Libm F64] in
/-- `J0² + J1² ≤ 1` -/
theorem J_energy (x : ℝ) : besselJR 0 x ^ 2 + besselJR 1 x ^ 2 ≤ 1 := by
  have hpos : ∀ x, 0 ≤ x → besselJR 0 x ^ 2 + besselJR 1 x ^ 2 ≤ 1 := by
    intro x hx
    have c0 : Continuous (besselJR 0) := continuous_iff_continuousAt.2 fun y => (Bes.J0_deriv y).continuousAt
    have c1 : ContinuousOn (besselJR 1) (Set.Ici 0) := by
      intro y _
      refine ContinuousAt.continuousWithinAt ?_
      have e : besselJR 1 = fun x => (x / 2) * Bes.SB 1 (-(x ^ 2 / 4)) := by funext y; rw [Bes.besselJR_eq]; simp
      rw [e]
      have h := (Bes.sb_deriv 1 (-(y ^ 2 / 4))).continuousAt
      have h2 : ContinuousAt (fun x : ℝ => -(x ^ 2 / 4)) y := by fun_prop
      have h3 : ContinuousAt (fun x : ℝ => Bes.SB 1 (-(x ^ 2 / 4))) y := ContinuousAt.comp (f := fun x : ℝ => -(x ^ 2 / 4)) h h2
      exact (continuousAt_id.div_const 2).mul h3
    have hd : ∀ y, 0 < y → HasDerivAt (fun x => besselJR 0 x ^ 2 + besselJR 1 x ^ 2) (-(2 * besselJR 1 y ^ 2 / y)) y := by
      intro y hy
      refine (((Bes.J0_deriv y).pow 2).add ((Bes.J1_deriv hy.ne').pow 2)).congr_deriv ?_
      field_simp; norm_num; ring
    have anti : AntitoneOn (fun x => besselJR 0 x ^ 2 + besselJR 1 x ^ 2) (Set.Ici 0) := by
      refine antitoneOn_of_deriv_nonpos (convex_Ici 0) ((c0.continuousOn.pow 2).add (c1.pow 2)) ?_ ?_
      · intro y hy
        rw [interior_Ici] at hy
        exact (hd y hy).differentiableAt.differentiableWithinAt
      · intro y hy
        rw [interior_Ici] at hy
        have hy' : (0:ℝ) < y := hy
        rw [(hd y hy).deriv, neg_nonpos]
        positivity
    have := anti (Set.mem_Ici.2 le_rfl) (Set.mem_Ici.2 hx) hx
    refine this.trans (le_of_eq ?_)
    have z0 : besselJR 0 0 = 1 := by rw [Bes.besselJR_eq]; norm_num; unfold Bes.SB; rw [tsum_eq_single 0 (by intro k hk; simp [hk])]; simp
    have z1 : besselJR 1 0 = 0 := by rw [Bes.besselJR_eq]; norm_num
    simp only [z0, z1]; norm_num
  rcases le_total 0 x with h | h
  · exact hpos x h
  · have := hpos (-x) (by linarith)
    rwa [Bes.J0_even, Bes.J1_odd, neg_sq] at this

omit [Libm F64] in
theorem J_le_one (x : ℝ) : |besselJR 0 x| ≤ 1 ∧ |besselJR 1 x| ≤ 1 := by
  have := J_energy x
  constructor <;> apply abs_le_one_iff_mul_self_le_one.2 <;> nlinarith [sq_nonneg (besselJR 0 x), sq_nonneg (besselJR 1 x)]

omit [Libm F64] in
theorem j_far {v J y : ℝ} (h1 : |v| ≤ 1) (h2 : |J| ≤ 1) (h : 2 ^ 900 ≤ y) : |v - J| ≤ (1.31e-12 + y / 2 ^ 53) / √y := by
  have hy : 0 < y := lt_of_lt_of_le (by positivity) h
  have hs : 2 ^ 450 ≤ √y := Real.le_sqrt_of_sq_le (by rw [← pow_mul]; exact h)
  have hs0 : 0 < √y := Real.sqrt_pos.mpr hy
  rw [le_div_iff₀ hs0]
  have h3 : |v - J| ≤ 2 := (abs_sub _ _).trans (by linarith)
  have h4 : 2 * √y ≤ y / 2 ^ 53 := by
    rw [le_div_iff₀ (by positivity)]
    conv_rhs => rw [← Real.mul_self_sqrt hy.le]
    have : (2:ℝ) * 2 ^ 53 ≤ √y := le_trans (le_trans (by norm_num) (pow_le_pow_right₀ (by norm_num) (by norm_num : 54 ≤ 450))) hs
    have h6 := mul_le_mul_of_nonneg_right this hs0.le
    norm_num at h6 ⊢
    linarith
  have := mul_le_mul_of_nonneg_right h3 hs0.le
  have h5 : (0:ℝ) ≤ 1.31e-12 := by norm_num
  linarith

theorem j0_acc_right [Cfg] (L : LibmTrig) {x : F64} (hx : 8 ≤ |x.val|) (hf : x.isFin = true) :
    (j0 x).isFin = true ∧ |(j0 x).val - besselJR 0 x.val| ≤ (1.31e-12 + |x.val| / 2 ^ 53) / √|x.val| := by
  rcases le_total |x.val| (2 ^ 900) with h | h
  · exact j0_acc_mid L hx h hf
  · have := j0_bound L.toLibmSpec hf
    exact ⟨this.1, j_far this.2 (J_le_one _).1 h⟩

theorem j1_acc_right [Cfg] (L : LibmTrig) {x : F64} (hx : 8 ≤ |x.val|) (hf : x.isFin = true) :
    (j1 x).isFin = true ∧ |(j1 x).val - besselJR 1 x.val| ≤ (1.31e-12 + |x.val| / 2 ^ 53) / √|x.val| := by
  rcases le_total |x.val| (2 ^ 900) with h | h
  · exact j1_acc_mid L hx h hf
  · have := j1_bound L.toLibmSpec hf
    exact ⟨this.1, j_far this.2 (J_le_one _).2 h⟩

end BesX
end Verif
