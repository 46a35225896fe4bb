import Verif.LibmUlp
import Verif.Proofs.FlErr

/-! # Relative errors of products and quotients of positive numbers -/

namespace Verif
open F64

/-- `a` is a finite float within a relative distance `ε` of the positive number `A` -/
structure Rel (a : F64) (A ε : ℝ) : Prop where
  fin : a.isFin = true
  pos : 0 < A
  err : |a.val - A| ≤ ε * A

/-- the range in which rounding errors are relative -/
def Mid (x : ℝ) : Prop := 1 / 2^1000 ≤ x ∧ x ≤ 2^1000

theorem Rel.eps_nonneg {a : F64} {A ε : ℝ} (h : Rel a A ε) : 0 ≤ ε := by
  have := (abs_nonneg _).trans h.err
  exact nonneg_of_mul_nonneg_left this h.pos

theorem Rel.mono {a : F64} {A ε δ : ℝ} (h : Rel a A ε) (hd : ε ≤ δ) : Rel a A δ :=
  ⟨h.fin, h.pos, h.err.trans (mul_le_mul_of_nonneg_right hd h.pos.le)⟩

theorem Rel.bounds {a : F64} {A ε : ℝ} (h : Rel a A ε) : (1 - ε) * A ≤ a.val ∧ a.val ≤ (1 + ε) * A := by
  have := abs_le.1 h.err
  constructor <;> linarith

theorem Rel.val_pos {a : F64} {A ε : ℝ} (h : Rel a A ε) (he : ε < 1) : 0 < a.val :=
  lt_of_lt_of_le (mul_pos (by linarith) h.pos) h.bounds.1

theorem rn_rel {x : ℝ} (h1 : 1 / 2^1022 ≤ |x|) (h2 : |x| ≤ 2^1022) : |x| < HUGE ∧ |RN x - x| ≤ |x| / 2^53 ∧ |RN x| < HUGE := by
  have hH : (2:ℝ)^1022 < HUGE := by rw [HUGE_eq]; exact pow_lt_pow_right₀ (by norm_num) (by norm_num)
  refine ⟨h2.trans_lt hH, RN_err_rel (h2.trans_lt hH) h1, ?_⟩
  rw [RN_abs]
  refine lt_of_le_of_lt (RN_mono h2) (lt_of_le_of_lt (le_of_eq ?_) hH)
  have e : (2:ℝ)^1022 = ((1:ℤ):ℝ) * 2^(1022:ℤ) := by
    rw [show (1022:ℤ) = ((1022:ℕ):ℤ) by norm_num, zpow_natCast]; push_cast; ring
  rw [e]
  refine RN_dyadic _ _ (by norm_num) (by omega) ?_
  rw [← e, abs_of_pos (by positivity)]
  exact hH.le

/-- a rounded result: `v = RN x` with `x` within `ε` of `A` -/
theorem rel_round {a : F64} {x A ε : ℝ} (hv : a.val = RN x) (hA : Mid A) (he : ε ≤ 1/2) (hx : |x - A| ≤ ε * A) :
    Rel a A (ε + (1 + ε) / 2^53) := by
  have hA0 : 0 < A := lt_of_lt_of_le (by positivity) hA.1
  have hb := abs_le.1 hx
  have hε : 0 ≤ ε := nonneg_of_mul_nonneg_left ((abs_nonneg _).trans hx) hA0
  have hxl : A / 2 ≤ x := by nlinarith
  have hxu : x ≤ (1 + ε) * A := by linarith
  have hxp : 0 < x := by linarith
  have k1 : (1:ℝ) / 2^1022 ≤ |x| := by
    rw [abs_of_pos hxp]
    have : (1:ℝ) / 2^1022 ≤ 1 / 2^1000 / 2 := by
      rw [div_div, ← pow_succ]
      exact one_div_le_one_div_of_le (by positivity) (pow_le_pow_right₀ (by norm_num) (by norm_num))
    have h2 : (1:ℝ) / 2^1000 / 2 ≤ A / 2 := by have := hA.1; gcongr
    exact this.trans (h2.trans hxl)
  have k2 : |x| ≤ 2^1022 := by
    rw [abs_of_pos hxp]
    refine hxu.trans ?_
    have h3 : (1 + ε) * A ≤ 2 * 2^1000 := mul_le_mul (by linarith) hA.2 hA0.le (by norm_num)
    refine h3.trans ?_
    rw [← pow_succ']
    exact pow_le_pow_right₀ (by norm_num) (by norm_num)
  obtain ⟨-, r2, r3⟩ := rn_rel k1 k2
  refine ⟨by rw [isFin_iff_val, hv]; exact r3, hA0, ?_⟩
  rw [hv]
  have h4 : |RN x - A| ≤ |RN x - x| + |x - A| := abs_sub_le _ _ _
  rw [abs_of_pos hxp] at r2
  have h5 : x / 2^53 ≤ (1 + ε) * A / 2^53 := by gcongr
  calc |RN x - A| ≤ (1 + ε) * A / 2^53 + ε * A := by linarith
    _ = (ε + (1 + ε) / 2^53) * A := by ring

theorem rel_mul {a b : F64} {A B ε δ : ℝ} (ha : Rel a A ε) (hb : Rel b B δ) (hm : Mid (A * B)) (hs : ε + δ + ε * δ ≤ 1/2) :
    Rel (a * b) (A * B) (ε + δ + ε * δ + (1 + (ε + δ + ε * δ)) / 2^53) := by
  refine rel_round (mul_spec ha.fin hb.fin).2.1 hm hs ?_
  have h1 : |a.val * b.val - A * B| ≤ |a.val - A| * |b.val - B| + |a.val - A| * B + A * |b.val - B| := by
    rw [show a.val * b.val - A * B = (a.val - A) * (b.val - B) + (a.val - A) * B + A * (b.val - B) by ring]
    refine (abs_add_le _ _).trans (add_le_add ((abs_add_le _ _).trans (add_le_add ?_ ?_)) ?_)
    · rw [abs_mul]
    · rw [abs_mul, abs_of_pos hb.pos]
    · rw [abs_mul, abs_of_pos ha.pos]
  have e1 := ha.err
  have e2 := hb.err
  have h2 : |a.val - A| * |b.val - B| ≤ (ε * A) * (δ * B) := mul_le_mul e1 e2 (abs_nonneg _) ((abs_nonneg _).trans e1)
  have h3 : |a.val - A| * B ≤ ε * A * B := mul_le_mul_of_nonneg_right e1 hb.pos.le
  have h4 : A * |b.val - B| ≤ A * (δ * B) := mul_le_mul_of_nonneg_left e2 ha.pos.le
  calc |a.val * b.val - A * B| ≤ (ε * A) * (δ * B) + ε * A * B + A * (δ * B) := by linarith
    _ = _ := by ring

theorem rel_div {a b : F64} {A B ε δ η : ℝ} (ha : Rel a A ε) (hb : Rel b B δ) (hm : Mid (A / B)) (hδ : δ < 1) (hη : (ε + δ) / (1 - δ) ≤ η) (hs : η ≤ 1/2) :
    Rel (a / b) (A / B) (η + (1 + η) / 2^53) := by
  have hbp := hb.val_pos hδ
  refine rel_round (div_spec ha.fin hb.fin hbp.ne').2.1 hm hs ?_
  have h1 : a.val / b.val - A / B = ((a.val - A) * B - A * (b.val - B)) / (b.val * B) := by
    have := hb.pos.ne'
    have := hbp.ne'
    field_simp
    ring
  have hd : 0 < 1 - δ := by linarith
  rw [h1, abs_div, abs_of_pos (mul_pos hbp hb.pos), div_le_iff₀ (mul_pos hbp hb.pos)]
  have h2 : |(a.val - A) * B - A * (b.val - B)| ≤ ε * A * B + A * (δ * B) := by
    refine (abs_sub _ _).trans (add_le_add ?_ ?_)
    · rw [abs_mul, abs_of_pos hb.pos]; exact mul_le_mul_of_nonneg_right ha.err hb.pos.le
    · rw [abs_mul, abs_of_pos ha.pos]; exact mul_le_mul_of_nonneg_left hb.err ha.pos.le
  refine h2.trans ?_
  have h3 := hb.bounds.1
  rw [div_le_iff₀ hd] at hη
  have hη0 : 0 ≤ η := by
    have : 0 ≤ ε + δ := add_nonneg ha.eps_nonneg hb.eps_nonneg
    by_contra hc
    have := mul_neg_of_neg_of_pos (not_le.1 hc) hd
    linarith
  have h4 : η * (A / B) * (b.val * B) = η * A * b.val := by have := hb.pos.ne'; field_simp
  rw [h4]
  have h5 : η * A * ((1 - δ) * B) ≤ η * A * b.val := mul_le_mul_of_nonneg_left h3 (mul_nonneg hη0 ha.pos.le)
  refine le_trans ?_ h5
  have h6 : (ε + δ) * (A * B) ≤ η * (1 - δ) * (A * B) := mul_le_mul_of_nonneg_right hη (mul_pos ha.pos hb.pos).le
  linarith

theorem rel_self {a : F64} (hf : a.isFin = true) (h : 0 < a.val) : Rel a a.val 0 := ⟨hf, h, by simp⟩

/-- the exponential of an argument with an absolute error `η` -/
theorem rel_exp [Libm F64] (L : LibmUlp) {x : F64} {X η : ℝ} (hf : x.isFin = true) (hx : |x.val - X| ≤ η) (hη : η ≤ 1/4) (h1 : -690 ≤ X) (h2 : X ≤ 708) :
    Rel (Libm.exp x) (Real.exp X) (η + η^2 + 1 / 2^51) := by
  have hη0 : 0 ≤ η := (abs_nonneg _).trans hx
  have hb := abs_le.1 hx
  have h709 : x.val ≤ 709 := by linarith
  have u := L.exp_ulp x hf h709
  have hp := Real.exp_pos X
  have hsq : (x.val - X)^2 ≤ η^2 := by rw [← sq_abs]; exact pow_le_pow_left₀ (abs_nonneg _) hx 2
  have h3 : |Real.exp (x.val - X) - 1| ≤ η + η^2 := by
    have h4 := Real.abs_exp_sub_one_sub_id_le (x := x.val - X) (by linarith)
    have h5 : |Real.exp (x.val - X) - 1| ≤ |Real.exp (x.val - X) - 1 - (x.val - X)| + |x.val - X| := by
      have := abs_add_le (Real.exp (x.val - X) - 1 - (x.val - X)) (x.val - X)
      simpa using this
    linarith
  have e : Real.exp x.val = Real.exp X * Real.exp (x.val - X) := by rw [← Real.exp_add]; congr 1; ring
  have h4 : |Real.exp x.val - Real.exp X| ≤ (η + η^2) * Real.exp X := by
    rw [e, show Real.exp X * Real.exp (x.val - X) - Real.exp X = Real.exp X * (Real.exp (x.val - X) - 1) by ring, abs_mul, abs_of_pos hp, mul_comm]
    exact mul_le_mul_of_nonneg_right h3 hp.le
  have hη2 : η + η^2 ≤ 5/16 := by nlinarith
  have h5 : Real.exp x.val ≤ 21/16 * Real.exp X := by
    have := (abs_le.1 h4).2
    nlinarith
  have h6 : (1:ℝ) / 2^1074 ≤ Real.exp X / 2^60 := by
    have h7 : (1:ℝ) / 2^1014 ≤ Real.exp X := by
      refine le_trans ?_ (Real.exp_le_exp.2 h1)
      rw [← Real.log_le_iff_le_exp (by positivity), Real.log_div (by norm_num) (by positivity), Real.log_one, Real.log_pow]
      have := Real.log_two_gt_d9
      norm_num at this ⊢
      linarith
    rw [show (1:ℝ) / 2^1074 = 1 / 2^1014 / 2^60 by rw [div_div, ← pow_add]]
    gcongr
  refine ⟨?_, hp, ?_⟩
  · rw [isFin_iff_val, HUGE_eq]
    have h8 : Real.exp x.val ≤ 2^1023 := by
      refine (Real.exp_le_exp.2 h709).trans ?_
      rw [← Real.le_log_iff_exp_le (by positivity), Real.log_pow]
      have := Real.log_two_gt_d9
      norm_num at this ⊢
      linarith
    have h9 : |(Libm.exp x).val| ≤ Real.exp x.val + (Real.exp x.val / 2^52 + 1 / 2^1074) := by
      have := abs_add_le ((Libm.exp x).val - Real.exp x.val) (Real.exp x.val)
      rw [sub_add_cancel, abs_of_pos (Real.exp_pos x.val)] at this
      linarith
    have h10 : (1:ℝ) / 2^1074 ≤ 1 := by
      rw [div_le_one (by positivity)]; exact one_le_pow₀ (by norm_num)
    have h11 : (1:ℝ) + 1 ≤ 2^1023 := by
      calc (1:ℝ) + 1 = 2^1 := by norm_num
        _ ≤ 2^1023 := pow_le_pow_right₀ (by norm_num) (by norm_num)
    have h12 : (2:ℝ)^1024 = 2 * 2^1023 := by rw [← pow_succ']
    rw [h12]
    clear h12 u h6
    generalize (2:ℝ)^1023 = w at *
    generalize (1:ℝ) / 2^1074 = w' at *
    norm_num at h9
    linarith
  · have h13 : |(Libm.exp x).val - Real.exp X| ≤ |(Libm.exp x).val - Real.exp x.val| + |Real.exp x.val - Real.exp X| := abs_sub_le _ _ _
    generalize (1:ℝ) / 2^1074 = w' at *
    nlinarith

/-- widening an absolute error bound to a relative one -/
theorem rel_of_in {a : F64} {A : ℝ} {b : FlErr.B} {ε : ℝ} (h : FlErr.In a A b) (hA : 0 < A) (he : b.e / FlErr.U ≤ ε * A) : Rel a A ε :=
  ⟨h.fin, hA, h.err.trans he⟩

end Verif
