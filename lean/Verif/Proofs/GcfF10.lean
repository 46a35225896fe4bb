import Verif.Proofs.GcfF9
import Verif.Proofs.IncGamma5

/-! The cut-offs of `gammp` and `gammq`: beyond them the true value is within the tolerance of 0 or 1. -/

namespace Verif
namespace Gcf
open F64

theorem gamma_ge {a x : ℝ} (ha : 0 < a) (hx : 0 ≤ x) : x^a * Real.exp (-x) ≤ Real.Gamma (a + 1) := by
  have h1 := lowerGamma_rec ha hx
  have h2 := upper_add_lower ha hx
  have h3 := upper_add_lower (show 0 < a + 1 by linarith) hx
  have h4 := Real.Gamma_add_one ha.ne'
  have h5 : 0 ≤ upperGamma a x := MeasureTheory.setIntegral_nonneg measurableSet_Ioi (fun t ht => by
    have : 0 < t := lt_of_le_of_lt hx ht
    positivity)
  have h6 : 0 ≤ lowerGamma (a + 1) x := lowerGamma_nonneg hx
  have h7 : a * upperGamma a x + a * lowerGamma a x = a * Real.Gamma a := by rw [← mul_add, add_comm, h2]
  have h8 : 0 ≤ a * upperGamma a x := mul_nonneg ha.le h5
  linarith

theorem gamma_ge_one {a : ℝ} (ha : 0 < a) (ha1 : a ≤ 1) : 1 ≤ Real.Gamma a := by
  have d : 0 < 2 - a := by linarith
  have h := Real.convexOn_Gamma.2 (by simpa using ha : a ∈ Set.Ioi 0) (by simp : (2:ℝ) ∈ Set.Ioi 0)
    (show 0 ≤ 1 / (2 - a) by positivity) (show 0 ≤ (1 - a) / (2 - a) from div_nonneg (by linarith) d.le) (by field_simp; ring)
  simp only [smul_eq_mul, Real.Gamma_two] at h
  have e : 1 / (2 - a) * a + (1 - a) / (2 - a) * 2 = 1 := by field_simp; ring
  rw [e, Real.Gamma_one] at h
  have h2 := mul_le_mul_of_nonneg_left h d.le
  have e2 : (2 - a) * (1 / (2 - a) * Real.Gamma a + (1 - a) / (2 - a) * 1) = Real.Gamma a + (1 - a) := by field_simp
  rw [e2] at h2
  linarith

theorem F_le_small {a x : ℝ} (ha : 0 < a) (ha1 : a ≤ 1) (hx : 0 < x) : x * F a x ≤ 1 := by
  have h := V_rec0 ha hx
  have hv := V_le ha hx 0
  rw [← V_zero]
  have h1 : (1 - a) * V a x 1 ≤ (1 - a) * V a x 0 := mul_le_mul_of_nonneg_left hv (by linarith)
  unfold bk at h
  push_cast at h
  linarith

theorem F_le_big {a x : ℝ} (ha : 1 ≤ a) (hx : 0 < x) : (x + 1 - a) * F a x ≤ 1 := by
  have h := V_rec0 (by linarith : 0 < a) hx
  have hv1 := V_pos (by linarith : 0 < a) hx 1
  rw [← V_zero]
  have h1 : (1 - a) * V a x 1 ≤ 0 := mul_nonpos_of_nonpos_of_nonneg (by linarith) hv1.le
  unfold bk at h
  push_cast at h
  linarith

theorem exp_neg19 : Real.exp (-19) ≤ 6 / 10^9 := by
  rw [Real.exp_neg]
  have h7 : Real.exp 19 = (Real.exp 1)^19 := by rw [← Real.exp_nat_mul]; norm_num
  rw [inv_le_comm₀ (Real.exp_pos _) (by norm_num), h7]
  exact le_trans (by norm_num) (pow_le_pow_left₀ (by norm_num) Real.exp_one_gt_d9.le 19)

theorem log_bound {z : ℝ} (hz : 0 ≤ z) : Real.log (1 + z) ≤ z - z^2 / (2 * (1 + z)) := by
  have hm : MonotoneOn (fun z : ℝ => z - z^2 / (2 * (1 + z)) - Real.log (1 + z)) (Set.Ici 0) := by
    refine monotoneOn_of_deriv_nonneg (convex_Ici 0) ?_ ?_ ?_
    · refine ContinuousOn.sub (ContinuousOn.sub continuousOn_id ?_) ?_
      · refine ContinuousOn.div (by fun_prop) (by fun_prop) (fun t ht => ?_)
        have : (0:ℝ) ≤ t := ht
        positivity
      · refine ContinuousOn.log (by fun_prop) (fun t ht => ?_)
        have : (0:ℝ) ≤ t := ht
        positivity
    · intro t ht
      rw [interior_Ici] at ht
      have t0 : (0:ℝ) < t := ht
      have : 2 * (1 + t) ≠ 0 := by positivity
      have : 1 + t ≠ 0 := by positivity
      exact (by fun_prop (disch := assumption) : DifferentiableAt ℝ (fun z : ℝ => z - z^2 / (2 * (1 + z)) - Real.log (1 + z)) t).differentiableWithinAt
    · intro t ht
      rw [interior_Ici] at ht
      have t0 : (0:ℝ) < t := ht
      have h1 : HasDerivAt (fun z : ℝ => 1 + z) 1 t := (hasDerivAt_id t).const_add 1
      have h2 : HasDerivAt (fun z : ℝ => z^2 / (2 * (1 + z))) ((2 * t * (2 * (1 + t)) - t^2 * (2 * 1)) / (2 * (1 + t))^2) t := by
        have := (hasDerivAt_pow 2 t).div (h1.const_mul 2) (by positivity)
        refine HasDerivAt.congr_deriv (f := fun z : ℝ => z^2 / (2 * (1 + z))) this ?_
        norm_num
      have h3 := ((hasDerivAt_id t).sub h2).sub (h1.log (by positivity))
      have e : deriv (fun z : ℝ => z - z^2 / (2 * (1 + z)) - Real.log (1 + z)) t = 1 - (2 * t * (2 * (1 + t)) - t^2 * (2 * 1)) / (2 * (1 + t))^2 - 1 / (1 + t) := h3.deriv
      rw [e]
      have : 1 - (2 * t * (2 * (1 + t)) - t^2 * (2 * 1)) / (2 * (1 + t))^2 - 1 / (1 + t) = t^2 / (2 * (1 + t)^2) := by field_simp; ring
      rw [this]; positivity
  have := hm (Set.mem_Ici.2 le_rfl) (Set.mem_Ici.2 hz) hz
  simp only [add_zero, Real.log_one, ne_eq, OfNat.ofNat_ne_zero, not_false_eq_true, zero_pow, zero_div, sub_zero] at this
  linarith

theorem far_Q {a x : ℝ} (ha : 0 < a) (ha1 : a < 100) (hx : a + 19.99 * (√a + 1) ≤ x) : regQ a x ≤ 6 / 10^9 := by
  have hs := Real.sqrt_nonneg a
  have hs2 := Real.sq_sqrt ha.le
  have x0 : 0 < x := by norm_num at hx; linarith
  have hg := Real.Gamma_pos_of_pos ha
  have sc := scale_pos (a := a) x0
  have hF := F_pos ha x0
  have eq : regQ a x = x^a * Real.exp (-x) / Real.Gamma a * F a x := by
    unfold regQ F; rw [W_zero]; field_simp
  rcases le_total a 1 with c | c
  · have h1 := F_le_small ha c x0
    have h2 := gamma_ge_one ha c
    have h3 : x^a ≤ x := by
      calc x^a ≤ x^(1:ℝ) := Real.rpow_le_rpow_of_exponent_le (by norm_num at hx; linarith) c
        _ = x := Real.rpow_one x
    have e19 : Real.exp (-x) ≤ Real.exp (-19) := Real.exp_le_exp.2 (by norm_num at hx; linarith)
    have h4 : x^a * Real.exp (-x) / Real.Gamma a ≤ x * Real.exp (-x) := by
      rw [div_le_iff₀ hg]
      have p : 0 < x * Real.exp (-x) := by positivity
      have : x^a * Real.exp (-x) ≤ x * Real.exp (-x) := mul_le_mul_of_nonneg_right h3 (Real.exp_pos _).le
      nlinarith
    rw [eq]
    have h5 := mul_le_mul_of_nonneg_right h4 hF.le
    have h6 : x * Real.exp (-x) * F a x = Real.exp (-x) * (x * F a x) := by ring
    have h7 := mul_le_mul_of_nonneg_left h1 (Real.exp_pos (-x)).le
    have := exp_neg19
    linarith
  · have s1 : 1 ≤ √a := Real.one_le_sqrt.2 c
    have h1 := F_le_big c x0
    have hga := gamma_ge ha ha.le
    rw [Real.Gamma_add_one ha.ne'] at hga
    obtain ⟨d, hd⟩ : ∃ d, x = a + d := ⟨x - a, by ring⟩
    have hd1 : 19.99 * (√a + 1) ≤ d := by rw [hd] at hx; linarith
    have d0 : 0 < d := by norm_num at hd1; linarith
    -- the exponent
    have hz := log_bound (show 0 ≤ d / a by positivity)
    have hexp : d^2 / (2 * (a + d)) ≥ 19 := by
      rw [ge_iff_le, le_div_iff₀ (by positivity)]
      generalize √a = s at *
      have k1 : 0 ≤ d - 19.99 * (s + 1) := by linarith
      rw [← hs2]
      norm_num at *
      nlinarith
    have e1 : x^a * Real.exp (-x) = a^a * Real.exp (-a) * (Real.exp (a * Real.log (1 + d / a) - d)) := by
      have : x = a * (1 + d / a) := by rw [hd]; field_simp
      have p1 : 0 < 1 + d / a := by positivity
      rw [show x^a = a^a * (1 + d/a)^a by rw [this, Real.mul_rpow ha.le p1.le], Real.rpow_def_of_pos p1, Real.exp_sub, hd,
        show -(a + d) = -a + -d by ring, Real.exp_add, Real.exp_neg d, mul_comm (Real.log _) a]
      ring
    have e2 : a * Real.log (1 + d / a) - d ≤ -19 := by
      have h2 := mul_le_mul_of_nonneg_left hz ha.le
      have e3 : a * (d / a - (d / a)^2 / (2 * (1 + d / a))) = d - d^2 / (2 * (a + d)) := by field_simp
      rw [e3] at h2
      linarith
    have h8 : x^a * Real.exp (-x) / Real.Gamma a ≤ a * Real.exp (-19) := by
      rw [div_le_iff₀ hg, e1]
      have := mul_le_mul hga (Real.exp_le_exp.2 e2) (Real.exp_pos _).le (by positivity)
      linarith
    rw [eq]
    have h9 := mul_le_mul_of_nonneg_right h8 hF.le
    refine h9.trans ?_
    have h10 : a * F a x ≤ 1 := by
      refine le_trans ?_ h1
      refine mul_le_mul_of_nonneg_right ?_ hF.le
      rw [hd]
      generalize √a = s at *
      have : s ≤ 10 := by
        by_contra hc
        push Not at hc
        nlinarith
      rw [← hs2]
      norm_num at *
      nlinarith
    have := exp_neg19
    have h11 : a * Real.exp (-19) * F a x = Real.exp (-19) * (a * F a x) := by ring
    rw [h11]
    have := mul_le_mul_of_nonneg_left h10 (Real.exp_pos (-19)).le
    linarith

theorem near_P {a x : ℝ} (ha : 1 ≤ a) (hx : 0 ≤ x) (h : x ≤ a / 2^51) : regP a x ≤ 1 / 10^14 := by
  have a0 : 0 < a := by linarith
  have hg := Real.Gamma_pos_of_pos a0
  have h1 := lowerGamma_le a0 hx
  have h2 := gamma_ge a0 a0.le
  rw [Real.Gamma_add_one a0.ne'] at h2
  have h3 : x^a ≤ (1 / 10^14) * (a^a * Real.exp (-a)) := by
    have e1 : x^a ≤ (a / 2^51)^a := Real.rpow_le_rpow hx h a0.le
    have e2 : (a / 2^51)^a = (Real.exp 1 / 2^51)^a * (a^a * Real.exp (-a)) := by
      rw [Real.div_rpow a0.le (by positivity), Real.div_rpow (Real.exp_pos 1).le (by positivity), ← Real.exp_mul, one_mul, Real.exp_neg]
      field_simp
    have e3 : (Real.exp 1 / 2^51)^a ≤ 1 / 10^14 := by
      have b0 : 0 < Real.exp 1 / 2^51 := by positivity
      have b1 : Real.exp 1 / 2^51 ≤ 1 / 10^14 := by
        have := Real.exp_one_lt_d9
        norm_num at *
        linarith
      calc (Real.exp 1 / 2^51)^a ≤ (Real.exp 1 / 2^51)^(1:ℝ) := Real.rpow_le_rpow_of_exponent_ge b0 (b1.trans (by norm_num)) ha
        _ = Real.exp 1 / 2^51 := Real.rpow_one _
        _ ≤ _ := b1
    rw [e2] at e1
    exact e1.trans (mul_le_mul_of_nonneg_right e3 (by positivity))
  unfold regP
  rw [div_le_iff₀ hg]
  refine h1.trans ?_
  rw [div_le_iff₀ a0]
  have := mul_le_mul_of_nonneg_left h2 (show (0:ℝ) ≤ 1 / 10^14 by norm_num)
  linarith

/-- the far cut-off as computed -/
theorem far_val {a : F64} (ha : 1 / 10^12 ≤ a.val) (ha1 : a.val < 100) :
    a.val + 19.99 * (√a.val + 1) ≤ (a + 20.0 * (F64.sqrt a + 1.0)).val := by
  have a0 : 0 < a.val := lt_of_lt_of_le (by norm_num) ha
  have fa : a.isFin = true := isFin_of_abs (b := 100) (by rw [abs_of_pos a0]; exact ha1.le) (by norm_num)
  have fo : (1.0 : F64).isFin = true := by decide +kernel
  have f20 : (20.0 : F64).isFin = true := by decide +kernel
  have v20 : (20.0 : F64).val = 20 := by have := val_of_int (x := (20.0 : F64)) 20 (by decide +kernel); rw [this]; norm_num
  obtain ⟨_, s2, _⟩ := sqrt_spec fa a0
  have hs := Real.sqrt_nonneg a.val
  have hs10 : √a.val ≤ 10 := by rw [Real.sqrt_le_left (by norm_num)]; linarith
  generalize √a.val = s at *
  obtain ⟨g1, e1⟩ := rn_mod (y := s) (Y := 10) (by rw [abs_of_nonneg hs]; exact hs10) (by norm_num)
  rw [← s2] at g1 e1
  have f1 : (F64.sqrt a).isFin = true := by rw [isFin_iff_val]; exact g1
  obtain ⟨k1, k2⟩ := abs_le.1 e1
  have s3 := (add_spec f1 fo).2
  rw [one_val] at s3
  obtain ⟨g3, e3⟩ := rn_mod (y := (F64.sqrt a).val + 1) (Y := 12) (by rw [abs_le]; norm_num at *; constructor <;> linarith) (by norm_num)
  rw [← s3] at g3 e3
  have f3 : (F64.sqrt a + 1.0).isFin = true := by rw [isFin_iff_val]; exact g3
  obtain ⟨m1, m2⟩ := abs_le.1 e3
  have s4 := (mul_spec f20 f3).2.1
  rw [v20] at s4
  obtain ⟨g4, e4⟩ := rn_mod (y := 20 * (F64.sqrt a + 1.0).val) (Y := 300) (by rw [abs_le]; norm_num at *; constructor <;> linarith) (by norm_num)
  rw [← s4] at g4 e4
  have f4 : (20.0 * (F64.sqrt a + 1.0)).isFin = true := by rw [isFin_iff_val]; exact g4
  obtain ⟨n1, n2⟩ := abs_le.1 e4
  have s5 := (add_spec fa f4).2
  obtain ⟨g5, e5⟩ := rn_mod (y := a.val + (20.0 * (F64.sqrt a + 1.0)).val) (Y := 500) (by rw [abs_le]; norm_num at *; constructor <;> linarith) (by norm_num)
  rw [← s5] at g5 e5
  obtain ⟨o1, o2⟩ := abs_le.1 e5
  norm_num at *
  linarith

/-- subtraction from one and clamping -/
theorem compl_acc {q : F64} {Q P e : ℝ} (hf : q.isFin = true) (h : |q.val - Q| ≤ e) (hP : P = 1 - Q) (hP0 : 0 ≤ P) (hP1 : P ≤ 1) (he : e ≤ 10) :
    |(clamp01 (1.0 - q)).val - P| ≤ e + 1 / 10^12 := by
  have fo : (1.0 : F64).isFin = true := by decide +kernel
  have s := (sub_spec fo hf).2
  rw [one_val] at s
  obtain ⟨h1, h2⟩ := abs_le.1 h
  obtain ⟨g, r⟩ := rn_mod (y := 1 - q.val) (Y := 30) (by rw [abs_le]; constructor <;> linarith) (by norm_num)
  rw [← s] at g r
  have f : ((1.0 : F64) - q).isFin = true := by rw [isFin_iff_val]; exact g
  obtain ⟨_, c⟩ := clamp01_num (isFin_notNaN f)
  rw [c]
  have : |((1.0 : F64) - q).val - P| ≤ e + 1 / 10^12 := by
    obtain ⟨k1, k2⟩ := abs_le.1 r
    rw [abs_le, hP]
    norm_num at *
    constructor <;> linarith
  obtain ⟨m1, m2⟩ := abs_le.1 this
  have e0 : 0 ≤ e + 1 / 10^12 := (abs_nonneg _).trans this
  rw [abs_le]
  constructor
  · rcases le_total 1 ((1.0 : F64) - q).val with c | c
    · rw [min_eq_left c, max_eq_right (by norm_num)]; linarith
    · rw [min_eq_right c]; exact le_trans m1 (sub_le_sub_right (le_max_right _ _) _)
  · rcases le_total ((1.0 : F64) - q).val 0 with c | c
    · rw [min_eq_right (by linarith), max_eq_left c]; linarith
    · have : max 0 (min 1 ((1.0 : F64) - q).val) ≤ ((1.0 : F64) - q).val := max_le c (min_le_right _ _)
      linarith

end Gcf
end Verif
