import Verif.Proofs.FadAsy
import Verif.Proofs.FadSpec
import Mathlib.Analysis.SpecialFunctions.Trigonometric.Bounds

/-! `w` next to the positive imaginary axis: the first two terms of the expansion in `x`, with an error bound. -/

namespace Verif.Fad
open MeasureTheory Set Complex

/-- real moments -/
noncomputable def mre (n : ℕ) (q : ℝ) : ℝ := ∫ s in Ioi (0:ℝ), s^n * Real.exp (-s^2 + q * s)

theorem ker_real (q s : ℝ) : ker (q : ℂ) s = ((Real.exp (-s^2 + q * s) : ℝ) : ℂ) := by
  unfold ker; push_cast; rfl

theorem mo_real (n : ℕ) (q : ℝ) : mo n (q : ℂ) = (mre n q : ℂ) := by
  unfold mo mre
  rw [← integral_complex_ofReal]
  congr 1
  funext s
  rw [ker_real]; push_cast; rfl

theorem mre_int (n : ℕ) (q : ℝ) : IntegrableOn (fun s : ℝ => s^n * Real.exp (-s^2 + q * s)) (Ioi 0) := by
  have h := (ker_int n (q : ℂ)).norm
  refine IntegrableOn.congr_fun h (fun s hs => ?_) measurableSet_Ioi
  have hs' : 0 < s := hs
  simp only [norm_mul, norm_pow, ker_norm, Complex.norm_real, Real.norm_eq_abs, abs_of_pos hs', Complex.ofReal_re]

theorem mre_nonneg (n : ℕ) (q : ℝ) : 0 ≤ mre n q :=
  setIntegral_nonneg measurableSet_Ioi fun s hs => mul_nonneg (pow_nonneg (le_of_lt hs) _) (Real.exp_pos _).le

theorem mre_rec0 (q : ℝ) : 2 * mre 1 q = 1 + q * mre 0 q := by
  have := mo_rec 0 (q : ℂ)
  simp only [mo_real] at this
  have h : ((q * mre 0 q - 2 * mre 1 q : ℝ) : ℂ) = ((-1 : ℝ) : ℂ) := by push_cast; push_cast at this; simpa using this
  have := Complex.ofReal_injective h
  linarith

theorem mre_rec1 (q : ℝ) : 2 * mre 2 q = mre 0 q + q * mre 1 q := by
  have := mo_rec 1 (q : ℂ)
  simp only [mo_real] at this
  have h : ((mre 0 q + q * mre 1 q - 2 * mre 2 q : ℝ) : ℂ) = ((0 : ℝ) : ℂ) := by push_cast; push_cast at this; simpa using this
  have := Complex.ofReal_injective h
  linarith

theorem mre_mono {p q : ℝ} (h : p ≤ q) : mre 0 p ≤ mre 0 q := by
  refine setIntegral_mono_on (mre_int 0 p) (mre_int 0 q) measurableSet_Ioi fun s hs => ?_
  have hs' : 0 < s := hs
  exact mul_le_mul_of_nonneg_left (Real.exp_le_exp.2 (by have := mul_le_mul_of_nonneg_right h hs'.le; linarith)) (by positivity)

theorem erfcxR_mre (y : ℝ) : erfcxR y = kap * mre 0 (-2 * y) := by
  have h1 := faddeevaW_imag y
  have h2 := w_ray (y * I)
  rw [h1, show (2 * I * (y * I) : ℂ) = ((-2 * y : ℝ) : ℂ) by push_cast; linear_combination (2 * y : ℂ) * I_mul_I, mo_real] at h2
  exact_mod_cast h2

theorem mre_lo {y : ℝ} (hy : 0 < y) : 1/3 * min 1 (1 / y) ≤ mre 0 (-2 * y) := by
  have big : ∀ t : ℝ, 1 ≤ t → 1 / 3 * (1 / t) ≤ mre 0 (-2 * t) := by
    intro t ht
    have a := mre_rec0 (-2 * t)
    have b := mre_rec1 (-2 * t)
    have c := mre_nonneg 2 (-2 * t)
    have d := mre_nonneg 0 (-2 * t)
    generalize mre 0 (-2 * t) = m0 at *
    generalize mre 1 (-2 * t) = m1 at *
    have e : t * (2 * m1) ≤ m0 := by linarith
    rw [a] at e
    have : 1 ≤ 3 * t * m0 := by
      have : t * t ≥ 1 := by nlinarith
      have f : t ≤ (2 * (t * t) + 1) * m0 := by linarith
      have g : (2 * (t * t) + 1) * m0 ≤ 3 * (t * t) * m0 := mul_le_mul_of_nonneg_right (by linarith) d
      have k : t * 1 ≤ t * (3 * t * m0) := by linarith
      exact le_of_mul_le_mul_left k (by linarith)
    rw [← mul_div_assoc, mul_one, div_le_iff₀ (by linarith)]
    linarith
  rcases le_total 1 y with h | h
  · exact (mul_le_mul_of_nonneg_left (min_le_right _ _) (by norm_num)).trans (big y h)
  · have := big 1 le_rfl
    have m := mre_mono (p := -2 * 1) (q := -2 * y) (by linarith)
    have k : min 1 (1 / y) ≤ 1 := min_le_left _ _
    rw [mul_one] at this m
    generalize min 1 (1 / y) = u at *
    linarith

theorem mre_hi {y : ℝ} (hy : 0 < y) : y^2 * mre 2 (-2 * y) ≤ min 1 (1 / y) := by
  have h : y^2 * mre 2 (-2 * y) ≤ mre 0 (-y) := by
    unfold mre
    rw [← integral_const_mul]
    refine setIntegral_mono_on ((mre_int 2 (-2 * y)).const_mul _) (mre_int 0 (-y)) measurableSet_Ioi fun s hs => ?_
    have hs' : 0 < s := hs
    have e : Real.exp (-s^2 + -y * s) = Real.exp (-s^2 + -2 * y * s) * Real.exp (y * s) := by rw [← Real.exp_add]; congr 1; ring
    have q : (y * s)^2 ≤ Real.exp (y * s) := by
      have p : 0 ≤ y * s := by positivity
      have a := Real.sum_le_exp_of_nonneg p 4
      norm_num [Finset.sum_range_succ, Nat.factorial] at a
      refine le_trans ?_ a
      nlinarith [mul_nonneg p (sq_nonneg (y * s - 3/2)), sq_nonneg (y * s - 3/2)]
    rw [e, pow_zero, one_mul]
    have := mul_le_mul_of_nonneg_right q (Real.exp_pos (-s^2 + -2 * y * s)).le
    linarith
  refine h.trans (le_min ?_ ?_)
  · have a := mre_mono (p := -y) (q := 0) (by linarith)
    have b : mre 0 0 = mu 0 := by unfold mre mu; congr 1; funext s; congr 2; ring
    have := mu0
    rw [b] at a
    norm_num at this ⊢
    linarith
  · have a := mre_rec0 (-y)
    have b := mre_nonneg 1 (-y)
    rw [le_div_iff₀ hy]
    linarith

theorem sin_quad {t : ℝ} (h : 0 ≤ t) : |Real.sin t - t| ≤ 2 * t^2 := by
  rcases h.eq_or_lt with rfl | h
  · simp
  have a := Real.sin_lt h
  rw [abs_of_neg (by linarith)]
  rcases le_total t 1 with g | g
  · have b := Real.sin_gt_sub_cube h
    have : t^3 ≤ t^2 := pow_le_pow_of_le_one h.le g (by norm_num)
    nlinarith [sq_nonneg t]
  · have b := Real.neg_one_le_sin t
    nlinarith

theorem expi_quad (t : ℝ) : ‖Complex.exp (t * I) - 1 - t * I‖ ≤ 5 / 2 * t^2 := by
  have e : Complex.exp (t * I) - 1 - t * I = ((Real.cos t - 1 : ℝ) : ℂ) + ((Real.sin t - t : ℝ) : ℂ) * I := by
    rw [Complex.exp_mul_I]; push_cast; ring
  have c : |Real.cos t - 1| ≤ t^2 / 2 := by
    rw [abs_of_nonpos (by linarith [Real.cos_le_one t])]
    linarith [Real.one_sub_sq_div_two_le_cos (x := t)]
  have s : |Real.sin t - t| ≤ 2 * t^2 := by
    rcases le_total 0 t with h | h
    · exact sin_quad h
    · have := sin_quad (t := -t) (by linarith)
      rw [Real.sin_neg, neg_sq, show -Real.sin t - -t = -(Real.sin t - t) by ring, abs_neg] at this
      exact this
  rw [e]
  refine (norm_add_le _ _).trans ?_
  rw [norm_mul, norm_I, mul_one, Complex.norm_real, Complex.norm_real, Real.norm_eq_abs, Real.norm_eq_abs]
  linarith

/-- the expansion of `w` across the imaginary axis -/
theorem w_near (x y : ℝ) : ‖faddeevaW (x + y * I) - ((erfcxR y : ℂ) + ((x * (kap - 2 * y * erfcxR y) : ℝ) : ℂ) * I)‖ ≤ 10 * kap * (x^2 * mre 2 (-2 * y)) := by
  have i0 := ker_int 0 ((-2 * y : ℝ) + 2 * x * I)
  have i1 := ker_int 0 ((-2 * y : ℝ) : ℂ)
  have i2 := (ker_int 1 ((-2 * y : ℝ) : ℂ)).const_mul (2 * x * I)
  have key : mo 0 ((-2 * y : ℝ) + 2 * x * I) - mo 0 ((-2 * y : ℝ) : ℂ) - 2 * x * I * mo 1 ((-2 * y : ℝ) : ℂ)
      = ∫ s in Ioi (0:ℝ), ker ((-2 * y : ℝ) : ℂ) s * (Complex.exp ((2 * x * s : ℝ) * I) - 1 - (2 * x * s : ℝ) * I) := by
    unfold mo
    rw [← integral_const_mul, ← integral_sub i0 i1]
    have i01 : Integrable (fun s : ℝ => (s:ℂ)^0 * ker ((-2 * y : ℝ) + 2 * x * I) s - (s:ℂ)^0 * ker ((-2 * y : ℝ) : ℂ) s) (volume.restrict (Ioi 0)) := i0.sub i1
    rw [← integral_sub i01 i2]
    congr 1
    funext s
    have : ker ((-2 * y : ℝ) + 2 * x * I) s = ker ((-2 * y : ℝ) : ℂ) s * Complex.exp ((2 * x * s : ℝ) * I) := by
      unfold ker; rw [← Complex.exp_add]; congr 1; push_cast; ring
    rw [this]; push_cast; ring
  have bd : ‖mo 0 ((-2 * y : ℝ) + 2 * x * I) - mo 0 ((-2 * y : ℝ) : ℂ) - 2 * x * I * mo 1 ((-2 * y : ℝ) : ℂ)‖ ≤ 10 * (x^2 * mre 2 (-2 * y)) := by
    rw [key]
    have : (10 * (x^2 * mre 2 (-2 * y)) : ℝ) = ∫ s in Ioi (0:ℝ), (10 * x^2) * (s^2 * Real.exp (-s^2 + -2 * y * s)) := by
      rw [integral_const_mul]; unfold mre; ring
    rw [this]
    refine norm_integral_le_of_norm_le ((mre_int 2 (-2 * y)).const_mul _) ?_
    refine (ae_restrict_iff' measurableSet_Ioi).2 (ae_of_all _ fun s _ => ?_)
    rw [norm_mul, ker_norm, Complex.ofReal_re]
    have := mul_le_mul_of_nonneg_left (expi_quad (2 * x * s)) (Real.exp_pos (-s^2 + -2 * y * s)).le
    refine this.trans (le_of_eq (by ring))
  have r := mre_rec0 (-2 * y)
  have er := erfcxR_mre y
  have id : faddeevaW (x + y * I) - ((erfcxR y : ℂ) + ((x * (kap - 2 * y * erfcxR y) : ℝ) : ℂ) * I)
      = (kap : ℂ) * (mo 0 ((-2 * y : ℝ) + 2 * x * I) - mo 0 ((-2 * y : ℝ) : ℂ) - 2 * x * I * mo 1 ((-2 * y : ℝ) : ℂ)) := by
    rw [w_ray, show (2 * I * (x + y * I) : ℂ) = (-2 * y : ℝ) + 2 * x * I by push_cast; linear_combination (2 * y : ℂ) * I_mul_I, mo_real, mo_real, er]
    have r' : (2 : ℂ) * (mre 1 (-2 * y) : ℂ) = 1 + (-2 * y : ℂ) * (mre 0 (-2 * y) : ℂ) := by exact_mod_cast r
    push_cast
    linear_combination (kap : ℂ) * x * I * r'
  rw [id, norm_mul, Complex.norm_real, Real.norm_eq_abs, abs_of_pos kap_pos]
  have := mul_le_mul_of_nonneg_left bd kap_pos.le
  linarith

end Verif.Fad
