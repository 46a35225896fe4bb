import Verif.Proofs.ErfcxTail
import Verif.Proofs.Rel
import Verif.Model.Error

/-! # erfcx outside the table: rounding errors -/

namespace Verif
open F64 ZPoly FlErr

def macE : Ex := (.add (.mul (.sub (.mul (.add (.mul (.sub (.mul (.add (.mul (.sub (.mul (.add (.mul (.sub (.mul (.add (.mul (.sub (.mul (.add (.mul (.sub (.mul (.add (.mul (.sub (.mul (.lit 1984126984126984 19) (.var 0)) (.lit 5344009079373427 19)) (.var 0)) (.lit 1388888888888889 18)) (.var 0)) (.lit 34736059015927274 19)) (.var 0)) (.lit 8333333333333333 18)) (.var 0)) (.lit 1910483245876 14)) (.var 0)) (.lit 41666666666666664 18)) (.var 0)) (.lit 8597174606442 14)) (.var 0)) (.lit 16666666666666666 17)) (.var 0)) (.lit 30090111122547003 17)) (.var 0)) (.lit 5 1)) (.var 0)) (.lit 7522527780636751 16)) (.var 0)) (.lit 10 1)) (.var 0)) (.var 1)) (.var 0)) (.lit 10 1))
def asyE10 : Ex := (.add (.mul (.sub (.mul (.add (.mul (.sub (.mul (.add (.mul (.sub (.mul (.add (.mul (.sub (.mul (.add (.mul (.sub (.mul (.lit 3607337150008376 10) (.mul (.var 0) (.var 0))) (.lit 37971970000088164 12)) (.mul (.var 0) (.var 0))) (.lit 4467290588245667 12)) (.mul (.var 0) (.var 0))) (.lit 5956387450994222 13)) (.mul (.var 0) (.var 0))) (.lit 9163673001529573 14)) (.mul (.var 0) (.var 0))) (.lit 16661223639144676 15)) (.mul (.var 0) (.var 0))) (.lit 37024941420321507 16)) (.mul (.var 0) (.var 0))) (.lit 1057855469152043 15)) (.mul (.var 0) (.var 0))) (.lit 42314218766081724 17)) (.mul (.var 0) (.var 0))) (.lit 28209479177387814 17)) (.mul (.var 0) (.var 0))) (.lit 5641895835477563 16))
def asyE6 : Ex := (.add (.mul (.sub (.mul (.add (.mul (.sub (.mul (.add (.mul (.sub (.mul (.lit 9163673001529573 14) (.mul (.var 0) (.var 0))) (.lit 16661223639144676 15)) (.mul (.var 0) (.var 0))) (.lit 37024941420321507 16)) (.mul (.var 0) (.var 0))) (.lit 1057855469152043 15)) (.mul (.var 0) (.var 0))) (.lit 42314218766081724 17)) (.mul (.var 0) (.var 0))) (.lit 28209479177387814 17)) (.mul (.var 0) (.var 0))) (.lit 5641895835477563 16))
def asyE3 : Ex := (.add (.mul (.sub (.mul (.add (.mul (.neg (.lit 1057855469152043 15)) (.mul (.var 0) (.var 0))) (.lit 42314218766081724 17)) (.mul (.var 0) (.var 0))) (.lit 28209479177387814 17)) (.mul (.var 0) (.var 0))) (.lit 5641895835477563 16))

/-- an environment with two variables -/
def env2 {β : Type} (a b : β) : ℕ → β := fun i => if i = 1 then b else a

theorem env2_in {x y : F64} {X Y : ℝ} {p q : B} (h1 : In x X p) (h2 : In y Y q) : ∀ i, In (env2 x y i) (env2 X Y i) (env2 p q i) := by
  intro i
  unfold env2
  by_cases h : i = 1
  · simp only [h, if_true]; exact h2
  · simp only [h, if_false]; exact h1

theorem macE_F (x : F64) : erfcxMaclaurin x = evF (env2 x Arith.frac2SqrtPi) macE := by simp [erfcxMaclaurin, macE, evF, env2]
theorem asyE10_F (r : F64) : erfcxAsy10 r = evF (env2 r r) asyE10 * r := by simp [erfcxAsy10, asyE10, evF, env2]
theorem asyE6_F (r : F64) : erfcxAsy6 r = evF (env2 r r) asyE6 * r := by simp [erfcxAsy6, asyE6, evF, env2]
theorem asyE3_F (r : F64) : erfcxAsy3 r = evF (env2 r r) asyE3 * r := by simp [erfcxAsy3, asyE3, evF, env2]

theorem macE_R (x : ℝ) : evR (env2 x kap) macE = macF x := by
  simp only [macE, evR, env2, macF, macC, ev]
  norm_num
  ring
theorem asyE10_R {x : ℝ} (hx : 0 < x) : evR (env2 (1 / x) (1 / x)) asyE10 = ev asy10 (1 / x^2) / 10^17 := by
  simp only [asyE10, evR, env2, asy10, ev]
  rw [show (1:ℝ) / x^2 = (1 / x) * (1 / x) by field_simp]
  generalize (1:ℝ) / x = r
  norm_num
  ring
theorem asyE6_R {x : ℝ} (hx : 0 < x) : evR (env2 (1 / x) (1 / x)) asyE6 = ev asy6 (1 / x^2) / 10^17 := by
  simp only [asyE6, evR, env2, asy6, ev]
  rw [show (1:ℝ) / x^2 = (1 / x) * (1 / x) by field_simp]
  generalize (1:ℝ) / x = r
  norm_num
  ring
theorem asyE3_R {x : ℝ} (hx : 0 < x) : evR (env2 (1 / x) (1 / x)) asyE3 = ev asy3 (1 / x^2) / 10^17 := by
  simp only [asyE3, evR, env2, asy3, ev]
  rw [show (1:ℝ) / x^2 = (1 / x) * (1 / x) by field_simp]
  generalize (1:ℝ) / x = r
  norm_num
  ring

/-- a float in an interval, taken as its own exact value -/
theorem in_self {x : F64} {l u : ℤ} (h1 : l / FlErr.U ≤ x.val) (h2 : x.val ≤ u / FlErr.U) (hf : x.isFin = true) : In x x.val ⟨l, u, 0⟩ :=
  ⟨hf, h1, h2, by simp⟩

theorem frac2_in : In (Arith.frac2SqrtPi : F64) kap ⟨2^160, 2^161, 2^107⟩ := by
  have h1 := le_val_of_sv (x := (Arith.frac2SqrtPi : F64)) 112837916709551250 100000000000000000 (by norm_num) (by decide +kernel)
  have h2 := val_le_of_sv (x := (Arith.frac2SqrtPi : F64)) 112837916709551265 100000000000000000 (by norm_num) (by decide +kernel)
  have hk := kap_bounds
  push_cast at h1 h2
  refine ⟨by decide +kernel, ?_, ?_, ?_⟩
  · refine le_trans ?_ h1; unfold FlErr.U; norm_num
  · refine h2.trans ?_; unfold FlErr.U; norm_num
  · show _ ≤ ((2^107 : ℕ) : ℝ) / FlErr.U
    have : (1:ℝ) / 10^16 ≤ ((2^107 : ℕ) : ℝ) / FlErr.U := by unfold FlErr.U; norm_num
    refine le_trans ?_ this
    rw [abs_le]; constructor <;> norm_num at * <;> linarith [hk.1, hk.2]

theorem fin_small {x : F64} {c : ℝ} (hc : c ≤ 10^200) (h : |x.val| < c) : x.isFin = true := by
  rw [isFin_iff_val]; exact h.trans_le (hc.trans HUGE_ge)

/-- the Maclaurin branch -/
theorem mac_acc {x : F64} (hx : |x.val| ≤ 1/8) : Rel (erfcxMaclaurin x) (erfcxR x.val) (1 / 10^15) := by
  have hf : x.isFin = true := fin_small (c := 1) (by norm_num) (by linarith)
  have hx' := abs_le.1 hx
  have h1 : In x x.val ⟨-2^157, 2^157, 0⟩ := in_self (by unfold FlErr.U; norm_num; linarith [hx'.1]) (by unfold FlErr.U; norm_num; linarith [hx'.2]) hf
  have h := within_sound (env2_in h1 frac2_in) (x := macE) (l := 7 * 2^160 / 10) (u := 2^161) (e := 2^109) (by decide +kernel)
  rw [macE_R, ← macE_F] at h
  have ha := macF_acc hx
  have he : |(erfcxMaclaurin x).val - macF x.val| ≤ 1 / 2^51 := h.err.trans (le_of_eq (by unfold FlErr.U; norm_num))
  have hl : (69:ℝ) / 100 ≤ (erfcxMaclaurin x).val := by
    refine le_trans ?_ h.lo; unfold FlErr.U; norm_num
  have h2 : |(erfcxMaclaurin x).val - erfcxR x.val| ≤ 1 / 2^51 + 1 / 10^16 := (abs_sub_le _ _ _).trans (add_le_add he ha)
  have hE : (0.68:ℝ) ≤ erfcxR x.val := by
    have k1 := (abs_le.1 h2).2
    norm_num at k1
    linarith
  refine ⟨h.fin, erfcxR_pos _, h2.trans ?_⟩
  norm_num at hE ⊢
  linarith

theorem mid_of {x : ℝ} (h1 : 1 / 2^200 ≤ x) (h2 : x ≤ 2^200) : Mid x := by
  constructor
  · refine le_trans ?_ h1
    exact one_div_le_one_div_of_le (by positivity) (pow_le_pow_right₀ (by norm_num) (by norm_num))
  · exact h2.trans (pow_le_pow_right₀ (by norm_num) (by norm_num))

theorem one_rel : Rel (1.0 : F64) 1 0 := by
  refine ⟨by decide +kernel, one_pos, ?_⟩
  rw [one_val]; simp

/-- the reciprocal -/
theorem recip_rel {x : F64} (h1 : 1 ≤ x.val) (h2 : x.val ≤ 2^100) : Rel (1.0 / x : F64) (1 / x.val) (1 / 2^53) := by
  have hf : x.isFin = true := fin_small (c := 2^101) (by norm_num) (by rw [abs_of_pos (by linarith)]; norm_num at h2 ⊢; linarith)
  have h0 : 0 < x.val := by linarith
  have := rel_div (η := 0) one_rel (rel_self hf h0) ?_ (by norm_num) (by norm_num) (by norm_num)
  · exact this.mono (by norm_num)
  · apply mid_of
    · apply one_div_le_one_div_of_le h0
      exact h2.trans (by norm_num)
    · rw [div_le_iff₀ h0]
      have : (1:ℝ) ≤ 2^200 := by norm_num
      nlinarith

theorem asy_rel {e : Ex} {a : List ℤ} {x : F64} {N : ℕ} (hN : 1 ≤ N) (hx : N ≤ x.val) (h2 : x.val ≤ 2^100)
    (hR : evR (env2 (1 / x.val) (1 / x.val)) e = ev a (1 / x.val^2) / 10^17)
    (hw : within (env2 ⟨0, 2^160 / N + 2^108, 2^107⟩ ⟨0, 2^160 / N + 2^108, 2^107⟩) e (2^159) (2^160) (2^110) = true)
    (hacc : |asyF a x.val - erfcxR x.val| ≤ 1 / 10^15 * erfcxR x.val) :
    Rel (evF (env2 (1.0 / x) (1.0 / x)) e * (1.0 / x)) (erfcxR x.val) (1 / (2 * 10^14)) := by
  have hN' : (1:ℝ) ≤ (N:ℝ) := by exact_mod_cast hN
  have hx1 : 1 ≤ x.val := by linarith
  have h0 : 0 < x.val := by linarith
  have hr := recip_rel hx1 h2
  have hi1 : 1 / x.val ≤ 1 := by rw [div_le_one h0]; exact hx1
  have hiN : 1 / x.val ≤ 1 / N := one_div_le_one_div_of_le (by linarith) hx
  have hi0 : 0 < 1 / x.val := by positivity
  have hin : In (1.0 / x) (1 / x.val) ⟨0, 2^160 / N + 2^108, 2^107⟩ := by
    have hb := hr.bounds
    refine ⟨hr.fin, ?_, ?_, ?_⟩
    · show ((0:ℤ):ℝ) / _ ≤ _
      push_cast; rw [zero_div]
      exact (hr.val_pos (by norm_num)).le
    · show _ ≤ ((2^160 / N + 2^108 : ℤ) : ℝ) / _
      rw [le_div_iff₀ FlErr.U_pos]
      refine (mul_le_mul_of_nonneg_right hb.2 FlErr.U_pos.le).trans ?_
      have h3 : (2:ℝ)^160 / N ≤ ((2^160 / N + 1 : ℤ) : ℝ) := by
        rw [div_le_iff₀ (by linarith)]
        have := (Int.lt_ediv_add_one_mul_self (2^160) (b := (N:ℤ)) (by exact_mod_cast hN)).le
        exact_mod_cast this
      unfold FlErr.U
      push_cast at h3 ⊢
      have h4 : 1 / x.val * 2^160 ≤ 2^160 / (N:ℝ) := by
        rw [div_mul_eq_mul_div, one_mul]
        exact div_le_div_of_nonneg_left (by norm_num) (by linarith) hx
      have h5 : 1 / x.val * 2^160 ≤ 2^160 := by nlinarith
      generalize ((2^160 / (N:ℤ) : ℤ) : ℝ) = z at *
      norm_num at *
      linarith
    · show _ ≤ ((2^107 : ℕ) : ℝ) / _
      refine hr.err.trans ?_
      have : ((2^107 : ℕ) : ℝ) / FlErr.U = 1 / 2^53 := by unfold FlErr.U; norm_num
      rw [this]
      nlinarith
  have h := within_sound (env2_in hin hin) hw
  rw [hR] at h
  have he : |(evF (env2 (1.0 / x) (1.0 / x)) e).val - ev a (1 / x.val^2) / 10^17| ≤ 1 / 2^50 := h.err.trans (le_of_eq (by unfold FlErr.U; norm_num))
  have hl : (1:ℝ) / 2 ≤ (evF (env2 (1.0 / x) (1.0 / x)) e).val := by
    refine le_trans (le_of_eq ?_) h.lo; unfold FlErr.U; norm_num
  have hu : (evF (env2 (1.0 / x) (1.0 / x)) e).val ≤ 1 := by
    refine h.hi.trans (le_of_eq ?_); unfold FlErr.U; norm_num
  have hA : (0.49:ℝ) ≤ ev a (1 / x.val^2) / 10^17 ∧ ev a (1 / x.val^2) / 10^17 ≤ 1.01 := by
    have := abs_le.1 he
    norm_num at this hl ⊢
    constructor <;> linarith [this.1, this.2]
  have hrA : Rel (evF (env2 (1.0 / x) (1.0 / x)) e) (ev a (1 / x.val^2) / 10^17) (1 / 2^48) := by
    refine ⟨h.fin, by linarith [hA.1], he.trans ?_⟩
    norm_num at hA ⊢
    linarith [hA.1]
  have hm : Mid (ev a (1 / x.val^2) / 10^17 * (1 / x.val)) := by
    have hi : (1:ℝ) / 2^100 ≤ 1 / x.val := one_div_le_one_div_of_le h0 h2
    apply mid_of
    · calc (1:ℝ) / 2^200 ≤ 0.49 * (1 / 2^100) := by norm_num
        _ ≤ _ := mul_le_mul hA.1 hi (by positivity) (by linarith [hA.1])
    · calc _ ≤ (1.01:ℝ) * 1 := mul_le_mul hA.2 hi1 (by positivity) (by norm_num)
        _ ≤ 2^200 := by norm_num
  have hp := rel_mul hrA hr hm (by norm_num)
  have eF : ev a (1 / x.val^2) / 10^17 * (1 / x.val) = asyF a x.val := by unfold asyF; ring
  rw [eF] at hp
  have hE := erfcxR_pos x.val
  refine ⟨hp.fin, hE, ?_⟩
  have k := abs_le.1 hacc
  refine (abs_sub_le _ (asyF a x.val) _).trans ((add_le_add hp.err hacc).trans ?_)
  have hup : asyF a x.val ≤ (1 + 1 / 10^15) * erfcxR x.val := by linarith [k.2]
  norm_num at hup ⊢
  linarith

/-- between 12 and 6.9e7 -/
theorem asy10_rel {x : F64} (h1 : 12 ≤ x.val) (h2 : x.val ≤ 2^100) : Rel (erfcxAsy10 (1.0 / x)) (erfcxR x.val) (1 / (2 * 10^14)) := by
  rw [asyE10_F]
  exact asy_rel (N := 12) (by norm_num) (by exact_mod_cast h1) h2 (asyE10_R (by linarith)) (by decide +kernel) (asy10_acc h1)
theorem asy6_rel {x : F64} (h1 : 23 ≤ x.val) (h2 : x.val ≤ 2^100) : Rel (erfcxAsy6 (1.0 / x)) (erfcxR x.val) (1 / (2 * 10^14)) := by
  rw [asyE6_F]
  exact asy_rel (N := 23) (by norm_num) (by exact_mod_cast h1) h2 (asyE6_R (by linarith)) (by decide +kernel) (asy6_acc h1)
theorem asy3_rel {x : F64} (h1 : 149 ≤ x.val) (h2 : x.val ≤ 2^100) : Rel (erfcxAsy3 (1.0 / x)) (erfcxR x.val) (1 / (2 * 10^14)) := by
  rw [asyE3_F]
  exact asy_rel (N := 149) (by norm_num) (by exact_mod_cast h1) h2 (asyE3_R (by linarith)) (by decide +kernel) (asy3_acc h1)

/-- beyond: one rounded division, which may underflow for `x > 2^1021` -/
theorem inv_acc {x : F64} (hf : x.isFin = true) (h : 6e7 ≤ x.val) :
    ((INV_SQRT_PI : F64) / x).isFin = true ∧ |((INV_SQRT_PI : F64) / x).val - erfcxR x.val| ≤ erfcxR x.val / 10^14 + 1 / 2^1075 := by
  have h1 := le_val_of_sv (x := (INV_SQRT_PI : F64)) 5641895835477562 10000000000000000 (by norm_num) (by decide +kernel)
  have h2 := val_le_of_sv (x := (INV_SQRT_PI : F64)) 5641895835477564 10000000000000000 (by norm_num) (by decide +kernel)
  push_cast at h1 h2
  have hk := kap_bounds
  have h0 : 0 < x.val := by linarith
  have hif : (INV_SQRT_PI : F64).isFin = true := by decide +kernel
  obtain ⟨-, s2, -⟩ := div_spec hif hf h0.ne'
  have hq0 : 0 ≤ (INV_SQRT_PI : F64).val / x.val := div_nonneg (by norm_num at h1; linarith) h0.le
  have hq1 : (INV_SQRT_PI : F64).val / x.val ≤ 1 := by rw [div_le_one h0]; norm_num at h2; linarith
  have hH := HUGE_ge
  have h10 : (1:ℝ) < 10^200 := by norm_num
  have herr := RN_err' (x := (INV_SQRT_PI : F64).val / x.val) (by rw [abs_of_nonneg hq0]; linarith)
  rw [abs_of_nonneg hq0] at herr
  constructor
  · rw [isFin_iff_val, s2, RN_abs, abs_of_nonneg hq0]
    have := RN_mono hq1
    have h3 := RN_int 1 (by norm_num)
    push_cast at h3
    linarith
  · rw [s2]
    have hE := erfcxR_pos x.val
    have ha := asy0_acc h
    have ka := abs_le.1 ha
    have hd : |(INV_SQRT_PI : F64).val / x.val - kap / 2 / x.val| ≤ 1 / 10^15 * (kap / 2 / x.val) := by
      rw [← sub_div, abs_div, abs_of_pos h0, ← mul_div_assoc]
      refine div_le_div_of_nonneg_right ?_ h0.le
      rw [abs_le]; constructor <;> norm_num at * <;> linarith [hk.1, hk.2]
    have kd := abs_le.1 hd
    have t1 : |RN ((INV_SQRT_PI : F64).val / x.val) - erfcxR x.val| ≤ |RN ((INV_SQRT_PI : F64).val / x.val) - (INV_SQRT_PI : F64).val / x.val|
        + (|(INV_SQRT_PI : F64).val / x.val - kap / 2 / x.val| + |kap / 2 / x.val - erfcxR x.val|) :=
      (abs_sub_le _ _ _).trans (add_le_add (le_refl _) (abs_sub_le _ _ _))
    generalize (1:ℝ) / 2^1075 = w at *
    generalize RN ((INV_SQRT_PI : F64).val / x.val) = z at *
    generalize (INV_SQRT_PI : F64).val / x.val = y at *
    generalize kap / 2 / x.val = k at *
    norm_num at *
    linarith [ka.1, ka.2, kd.1, kd.2]

end Verif
