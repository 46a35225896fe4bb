import Verif.Proofs.IncGamma5
import Verif.Proofs.IncReal

/-!
# Properties of the incomplete gamma functions (src/gamma.rs): C14–C21, C64

`exp` and `ln` are the platform's; where a theorem needs to know something about them it assumes `LibmSpec` (special values and
coarse ranges) or `LibmAcc` (additionally accurate to one part in a million); `ideal_acc` shows that these hypotheses can be met.
-/

namespace Verif
open F64 OIv
variable [Libm F64]

/-! ## C14 -/

/-- C14: `gammp` and `gammq` panic exactly when the arguments are not (`x ≥ 0` and `a > 0`); otherwise both return. -/
theorem gammpq_panic_iff (a x : F64) :
    (Panics (gammp a x) ↔ ¬ ((x.isNaN = false ∧ 0 ≤ x.val) ∧ (a.isNaN = false ∧ 0 < a.val))) ∧
    (Panics (gammq a x) ↔ ¬ ((x.isNaN = false ∧ 0 ≤ x.val) ∧ (a.isNaN = false ∧ 0 < a.val))) ∧
    (((x.isNaN = false ∧ 0 ≤ x.val) ∧ (a.isNaN = false ∧ 0 < a.val)) → ∃ p q, Returns (gammp a x) p ∧ Returns (gammq a x) q) := by
  rw [← valid_iff]
  rcases h : (F64.le 0.0 x && F64.lt 0.0 a) with _ | _
  · have h1 : Panics (gammp a x) := gammp_panic h
    have h2 : Panics (gammq a x) := gammq_panic h
    simp [h1, h2]
  · obtain ⟨p, q, h1, h2, _⟩ := gammpq h
    refine ⟨?_, ?_, fun _ => ⟨p, q, h1, h2⟩⟩
    · unfold Panics; rw [h1]; simp
    · unfold Panics; rw [h2]; simp

/-- C14: a NaN in either argument panics. -/
theorem gammpq_panic_nan (a x : F64) (h : a.isNaN = true ∨ x.isNaN = true) : Panics (gammp a x) ∧ Panics (gammq a x) := by
  obtain ⟨h1, h2, _⟩ := gammpq_panic_iff a x
  have : ¬ ((x.isNaN = false ∧ 0 ≤ x.val) ∧ (a.isNaN = false ∧ 0 < a.val)) := by
    rintro ⟨⟨b1, _⟩, b2, _⟩
    rcases h with h | h
    · rw [b2] at h; cases h
    · rw [b1] at h; cases h
  exact ⟨h1.2 this, h2.2 this⟩

example : ((2.5 : F64).isNaN = false ∧ 0 ≤ (2.5 : F64).val) ∧ ((3.5 : F64).isNaN = false ∧ 0 < (3.5 : F64).val) := by
  rw [← valid_iff]; decide +kernel
example : ¬ (((-2.5 : F64).isNaN = false ∧ 0 ≤ (-2.5 : F64).val) ∧ ((3.5 : F64).isNaN = false ∧ 0 < (3.5 : F64).val)) := by
  rw [← valid_iff]; decide +kernel

/-! ## C15 -/

/-- C15: for all valid arguments one of `gammp(a,x)`, `gammq(a,x)` is the complement of the other (rounded, clamped to `[0,1]`);
if the one in question lies in `[0,1]` then so does the other and they add up to one within `2^-53`. -/
theorem gammpq_complementary (a x : F64) (hx : x.isNaN = false ∧ 0 ≤ x.val) (ha : a.isNaN = false ∧ 0 < a.val) :
    ∃ p q, Returns (gammp a x) p ∧ Returns (gammq a x) q ∧ (IsCompl p q ∨ IsCompl q p) ∧
      (p.Mem 0 1 → q.Mem 0 1 → |p.val + q.val - 1| ≤ 2^(-53:ℤ)) := by
  obtain ⟨p, q, h1, h2, h3⟩ := gammpq (valid_iff.2 ⟨hx, ha⟩)
  refine ⟨p, q, h1, h2, h3, fun hp hq => ?_⟩
  rcases h3 with h | h
  · exact isCompl_sum h hp
  · have := isCompl_sum h hq; rwa [add_comm q.val] at this

/-- What the complement relation means for numbers in `[0,1]`: `q` is `1 - p` correctly rounded. -/
example (p q : F64) (hp : p.Mem 0 1) (h : IsCompl p q) : q.val = RN (1 - p.val) := by
  rcases h with ⟨h, _⟩ | ⟨_, _, h⟩
  · rw [hp.1] at h; cases h
  · obtain ⟨_, h1, h2⟩ := hp
    have a1 : RN (1 - p.val) ≤ 1 := by rw [← one_val]; exact RN_le_of_le (isFin_notNaN one_fin) (by rw [one_val]; linarith)
    have a2 : 0 ≤ RN (1 - p.val) := RN_nonneg (by linarith)
    rw [h, min_eq_right a1, max_eq_right a2]

/-! ## C16 -/

/-- C16: `gammp(a,0) = 0` and `gammq(a,0) = 1` for every `a > 0` (either zero). -/
theorem gammpq_at_zero (a x : F64) (ha : a.isNaN = false ∧ 0 < a.val) (hx : x.isZero = true) :
    Returns (gammp a x) 0.0 ∧ Returns (gammq a x) 1.0 := by
  have hz := val_eq_zero.2 hx
  have hv := valid_iff.2 ⟨⟨isFin_notNaN (isZero_fin hx), hz.ge⟩, ha⟩
  unfold Returns
  rw [gammp_eq hv, gammq_eq hv, if_pos (eq_zero_iff.2 hx), if_pos (eq_zero_iff.2 hx)]
  exact ⟨rfl, rfl⟩

/-- C16: `gammp(a,+∞) = 1` and `gammq(a,+∞) = 0` for every finite `a > 0`. -/
theorem gammpq_at_inf (a : F64) (ha : a.isFin = true) (h0 : 0 < a.val) : Returns (gammp a inf) 1.0 ∧ Returns (gammq a inf) 0.0 := by
  have hv := valid_iff.2 ⟨⟨(by decide : (inf : F64).isNaN = false), by rw [inf_val]; exact HUGE_pos.le⟩, isFin_notNaN ha, h0⟩
  have e1 : F64.eq inf 0.0 = false := by decide +kernel
  have inn : (inf : F64).isNaN = false := by decide
  have m := Iv.mul_spec' ha lit_EPS_fin
  have mv : (a * EPS).val ≤ HUGE := by
    rw [m.2]
    refine (RN_le_of_le (isFin_notNaN ha) ?_).trans (by have := fin_lt ha; rw [← abs_of_pos h0]; rw [abs_of_pos h0]; exact this.le)
    rw [lit_EPS_val]
    have : (2:ℝ)^(-52:ℤ) ≤ 1 := by norm_num
    nlinarith
  have e2 : F64.lt inf (a * EPS) = false := by
    rw [lt_false_iff inn m.1, inf_val]; exact mv
  have ff := far_fin ha h0
  have e3 : F64.lt (a + 20.0 * (F64.sqrt a + 1.0)) inf = true := by
    rw [lt_iff, inf_val]; exact ⟨isFin_notNaN ff, inn, fin_lt ff⟩
  unfold Returns
  rw [gammp_eq hv, gammq_eq hv, e1, e2, e3]
  exact ⟨rfl, rfl⟩

/-- C16: saturation starts at `a + 20(√a + 1)`; every larger `x` gives exactly 1 and 0. -/
theorem gammpq_far (a x : F64) (ha : a.isFin = true) (h0 : 0 < a.val) (hx : F64.lt (a + 20.0 * (F64.sqrt a + 1.0)) x = true)
    (hx2 : F64.le a x = true) : Returns (gammp a x) 1.0 ∧ Returns (gammq a x) 0.0 := by
  obtain ⟨hn1, hn2, hlt⟩ := lt_iff.1 hx
  have hax := (le_iff.1 hx2).2.2
  have hv := valid_iff.2 ⟨⟨hn2, by linarith⟩, isFin_notNaN ha, h0⟩
  have e1 : F64.eq x 0.0 = false := by
    rw [← Bool.not_eq_true, eq_zero_iff, ← val_eq_zero]; intro h; linarith
  have m := Iv.mul_spec' ha lit_EPS_fin
  have mv : (a * EPS).val ≤ a.val := by
    rw [m.2]
    refine RN_le_of_le (isFin_notNaN ha) ?_
    rw [lit_EPS_val]
    have : (2:ℝ)^(-52:ℤ) ≤ 1 := by norm_num
    nlinarith
  have e2 : F64.lt x (a * EPS) = false := by rw [lt_false_iff hn2 m.1]; linarith
  unfold Returns
  rw [gammp_eq hv, gammq_eq hv, e1, e2, hx]
  exact ⟨rfl, rfl⟩

example : F64.lt ((4.0 : F64) + 20.0 * (F64.sqrt 4.0 + 1.0)) 64.5 = true ∧ F64.le 4.0 64.5 = true := by decide +kernel

/-! ## C64 -/

/-- C64 is false of the code: for `100 ≤ a ≤ 2^52` and `a/4 ≤ x ≤ a-1` the quadrature interval is `[xu, x]` with `xu < x`, whose length
enters a logarithm: both functions return NaN. -/
theorem gammpq_nan (L : LibmSpec) (a x : F64) (h1 : 100 ≤ a.val) (h2 : a.val ≤ 2^52) (hx1 : a.val / 4 ≤ x.val) (hx2 : x.val ≤ a.val - 1) :
    ∃ p q, Returns (gammp a x) p ∧ Returns (gammq a x) q ∧ p.isNaN = true ∧ q.isNaN = true := by
  obtain ⟨e1, e2⟩ := regime_quad h1 h2 hx1 hx2
  have hn := gammpapproxAns_nan L h1 h2 (by linarith) hx2
  refine ⟨_, _, e1, e2, ?_, ?_⟩
  · unfold gammpapproxP
    rw [sub_nan_right hn, clamp01_nan (by decide)]; decide
  · unfold gammpapproxQ
    rw [clamp01_nan hn]; exact hn

example : 100 ≤ (100.0 : F64).val ∧ (100.0 : F64).val ≤ 2^52 ∧ (100.0 : F64).val / 4 ≤ (50.0 : F64).val ∧ (50.0 : F64).val ≤ (100.0 : F64).val - 1 := by
  have a := val_of_int (x := (100.0 : F64)) 100 (by decide +kernel)
  have b := val_of_int (x := (50.0 : F64)) 50 (by decide +kernel)
  rw [a, b]; norm_num

/-- C64, what does hold: for `a ≤ 2^52` the two functions return NaN exactly in that region of large `a` and `0.2 a ≤ x ≤ a - 1`, and
nowhere else.  Missing from the full claim: it is false there (`gammpq_nan`); `a > 2^52` is not covered. -/
theorem gammpq_nan_iff_partial (A : LibmAcc) (a x : F64) (hx : x.isNaN = false ∧ 0 ≤ x.val) (ha0 : 0 < a.val) (ha : a.val ≤ 2^52) :
    ∃ p q, Returns (gammp a x) p ∧ Returns (gammq a x) q ∧
      (p.isNaN = true ↔ 100 ≤ a.val ∧ F64.lt x (0.2 * a) = false ∧ x.val ≤ a.val - 1) ∧ (q.isNaN = true ↔ p.isNaN = true) := by
  have fa : a.isFin = true := abs_fin (b := 2^52) (by linarith) ha (by norm_num)
  obtain ⟨p, h1, h2⟩ := gammp_nan_iff' A hx ha0 ha
  obtain ⟨p', q, g1, g2, g3⟩ := gammpq (valid_iff.2 ⟨hx, isFin_notNaN fa, ha0⟩)
  have e : p' = p := by rw [h1] at g1; cases g1; rfl
  subst e
  refine ⟨p', q, g1, g2, h2, ?_⟩
  rcases g3 with g | g
  · exact (isCompl_nan_iff g).symm
  · exact isCompl_nan_iff g

/-! ## C17 -/

/-- C17, what does hold: both results are non-negative (or NaN), and one of the two (the one not computed by the raw series or
continued fraction) lies in `[0,1]`.  Missing: the other one can exceed 1, see `gammp_exceeds_one`. -/
theorem gammpq_range_partial (A : LibmAcc) (a x : F64) (hx : x.isNaN = false ∧ 0 ≤ x.val) (ha : a.isNaN = false ∧ 0 < a.val) :
    ∃ p q, Returns (gammp a x) p ∧ Returns (gammq a x) q ∧ (p.isNaN = true ∨ 0 ≤ p.val) ∧ (q.isNaN = true ∨ 0 ≤ q.val) ∧
      ((p.isNaN = true ∨ p.Mem 0 1) ∨ (q.isNaN = true ∨ q.Mem 0 1)) := by
  have hv := valid_iff.2 ⟨hx, ha⟩
  unfold Returns
  have L := A.toLibmSpec
  have pa : PN a := pn_of_pos ha.1 ha.2
  have cl : ∀ y : F64, (clamp01 y).isNaN = true ∨ 0 ≤ (clamp01 y).val := fun y =>
    (clamp01_range y).imp id (fun h => h.2.1)
  have ps : ∀ y : F64, PS y → y.isNaN = true ∨ 0 ≤ y.val := fun y h => h.imp id (fun h => val_nonneg_of_neg h)
  have z0 : (0.0 : F64).Mem 0 1 := ⟨by decide +kernel, by rw [zero_val], by rw [zero_val]; norm_num⟩
  have z1 : (1.0 : F64).Mem 0 1 := ⟨by decide +kernel, by rw [one_val]; norm_num, by rw [one_val]⟩
  rw [gammp_eq hv, gammq_eq hv]
  rcases c1 : F64.eq x 0.0 with _ | _
  swap
  · exact ⟨_, _, rfl, rfl, Or.inr z0.2.1, Or.inr z1.2.1, Or.inl (Or.inr z0)⟩
  simp only [Bool.false_eq_true, if_false]
  have x0 : 0 < x.val := by
    refine lt_of_le_of_ne hx.2 (fun h => ?_)
    rw [← Bool.not_eq_true, eq_zero_iff, ← val_eq_zero] at c1
    exact c1 h.symm
  have px : PN x := pn_of_pos hx.1 x0
  have hs := ps _ (gser_ps L pa px)
  rcases c2 : F64.lt x (a * EPS) with _ | _
  swap
  · exact ⟨_, _, rfl, rfl, Or.inr z0.2.1, Or.inr z1.2.1, Or.inl (Or.inr z0)⟩
  simp only [Bool.false_eq_true, if_false]
  rcases c3 : F64.lt (a + 20.0 * (F64.sqrt a + 1.0)) x with _ | _
  swap
  · exact ⟨_, _, rfl, rfl, Or.inr z1.2.1, Or.inr z0.2.1, Or.inl (Or.inr z1)⟩
  simp only [Bool.false_eq_true, if_false]
  by_cases c4 : 100 ≤ F64.toUnsigned USIZE_MAX a
  · simp only [c4, if_true]
    rcases c5 : F64.lt x (0.2 * a) with _ | _
    · exact ⟨_, _, rfl, rfl, cl _, cl _, Or.inl (clamp01_range _)⟩
    · exact ⟨_, _, rfl, rfl, hs, cl _, Or.inr (clamp01_range _)⟩
  · simp only [c4, if_false]
    rcases c5 : F64.lt x (a + 1.0) with _ | _
    swap
    · exact ⟨_, _, rfl, rfl, hs, cl _, Or.inr (clamp01_range _)⟩
    · have fa : a.isFin = true := by
        rcases fin_or_inf ha.1 with h | h
        · exact h
        · exfalso; apply c4
          have e := isInf_cases h
          rw [neg_of_val_pos ha.2] at e
          rw [e]; decide +kernel
      have h100 : a.val < 100 := by
        by_contra hc; exact c4 (toU_ge fa (not_lt.1 hc))
      have ff := far_fin fa ha.2
      obtain ⟨ao1, ao2, ao3⟩ := add_one_fin fa ha.2.le
      rw [lt_false_iff (isFin_notNaN ff) hx.1] at c3
      have h2 := (lt_false_iff hx.1 (isFin_notNaN ao1)).1 c5
      have v10 : (10.0 : F64).val = 10 := by
        have := val_of_int (x := (10.0 : F64)) 10 (by decide +kernel); rw [this]; norm_num
      have v100 : (100.0 : F64).val = 100 := by
        have := val_of_int (x := (100.0 : F64)) 100 (by decide +kernel); rw [this]; norm_num
      have v330 : (330.0 : F64).val = 330 := by
        have := val_of_int (x := (330.0 : F64)) 330 (by decide +kernel); rw [this]; norm_num
      have hx330 : x.val ≤ 330 := by
        have := far_bound fa ha.2 (r := 10.0) (h := 100.0) (u := 330.0)
          (by rw [v10, Real.sqrt_le_left (by norm_num)]; linarith) (by decide +kernel) (by rw [v100]; exact h100.le) (by decide +kernel)
        linarith
      exact ⟨_, _, rfl, rfl, cl _, Or.inr (gcf_num A ha.2 h100.le h2 hx330).val, Or.inl (clamp01_range _)⟩

omit [Libm F64] in
theorem exp_neg37 : (7.5e-17 : F64).val ≤ Real.exp (-37) * (1 - 1/10^6) := by
  have h1 : Real.exp 37 ≤ (2.718281829:ℝ)^37 := by
    have : Real.exp 37 = Real.exp 1 ^ 37 := by rw [← Real.exp_nat_mul]; norm_num
    rw [this]; exact pow_le_pow_left₀ (Real.exp_pos 1).le exp_hi 37
  rw [Real.exp_neg]
  have h2 : ((2.718281829:ℝ)^37)⁻¹ ≤ (Real.exp 37)⁻¹ := inv_anti₀ (Real.exp_pos _) h1
  have h3 : (7.5e-17 : F64).val ≤ (8:ℝ) / 10^17 := by
    have := val_le_of_sv (x := (7.5e-17 : F64)) 8 (10^17) (by norm_num) (by decide +kernel)
    refine this.trans ?_; norm_num
  have h4 : (8:ℝ) / 10^17 ≤ ((2.718281829:ℝ)^37)⁻¹ * (1 - 1/10^6) := by norm_num
  nlinarith

/-- C17 is false of the code: for tiny `a` the argument of the Lanczos sum in `ln_gamma` is rounded (`z - 1.0`), and `gammp` exceeds 1. -/
theorem gammp_exceeds_one (A : LibmAcc) : ∃ p, Returns (gammp (5.6e-17 : F64) 1e-20) p ∧ 1 < p.val := by
  have hv : (F64.le 0.0 (1e-20 : F64) && F64.lt 0.0 (5.6e-17 : F64)) = true := by decide +kernel
  have L := A.toLibmSpec
  have e : gammp (5.6e-17 : F64) 1e-20 = .ok (gser 5.6e-17 1e-20) := by
    rw [gammp_eq hv]
    have c1 : F64.eq (1e-20 : F64) 0.0 = false := by decide +kernel
    have c2 : F64.lt (1e-20 : F64) (5.6e-17 * EPS) = false := by decide +kernel
    have c3 : F64.lt ((5.6e-17 : F64) + 20.0 * (F64.sqrt 5.6e-17 + 1.0)) 1e-20 = false := by decide +kernel
    have c4 : ¬ 100 ≤ F64.toUnsigned USIZE_MAX 5.6e-17 := by decide +kernel
    have c5 : F64.lt (1e-20 : F64) (5.6e-17 + 1.0) = true := by decide +kernel
    rw [c1, c2, c3, c5]
    simp only [Bool.false_eq_true, if_false, if_true, c4]
  refine ⟨_, e, ?_⟩
  -- the logarithms
  have hpos : ∀ x : F64, F64.lt 0.0 x = true → 0 < x.val := fun x h => by
    have := (lt_iff.1 h).2.2; rwa [zero_val] at this
  have q : ∀ x : F64, x = F64.sqrt (2.0 * Arith.pi) → x.isFin = true ∧ 1 ≤ x.val ∧ x.val ≤ 2507/1000 := by
    intro x hx
    subst hx
    refine ⟨by decide +kernel, ?_, ?_⟩
    · have : F64.le 1.0 (F64.sqrt (2.0 * Arith.pi)) = true := by decide +kernel
      have := (le_iff.1 this).2.2
      rwa [one_val] at this
    · have := val_le_of_sv (x := F64.sqrt (2.0 * Arith.pi)) 2507 1000 (by norm_num) (by decide +kernel)
      push_cast at this; exact this
  obtain ⟨q1, q2, q3⟩ := q _ rfl
  have s : ∀ x : F64, x = lanczosSum ((5.6e-17 : F64) - 1.0) + lg5n7Head → x.isFin = true ∧ 1 ≤ x.val ∧ x.val ≤ 69 * 10^16 := by
    intro x hx
    subst hx
    refine ⟨by decide +kernel, ?_, ?_⟩
    · have : F64.le 1.0 (lanczosSum ((5.6e-17 : F64) - 1.0) + lg5n7Head) = true := by decide +kernel
      have := (le_iff.1 this).2.2
      rwa [one_val] at this
    · have := val_le_of_sv (x := lanczosSum ((5.6e-17 : F64) - 1.0) + lg5n7Head) (69 * 10^16) 1 (by norm_num) (by decide +kernel)
      push_cast at this; linarith
  obtain ⟨s1, s2, s3⟩ := s _ rfl
  have b : ∀ x : F64, x = (5.6e-17 : F64) - 1.0 + 5.0 + 0.5 → x.isFin = true ∧ 1 ≤ x.val ∧ 4499/1000 ≤ x.val := by
    intro x hx
    subst hx
    refine ⟨by decide +kernel, ?_, ?_⟩
    · have : F64.le 1.0 ((5.6e-17 : F64) - 1.0 + 5.0 + 0.5) = true := by decide +kernel
      have := (le_iff.1 this).2.2
      rwa [one_val] at this
    · have := le_val_of_sv (x := (5.6e-17 : F64) - 1.0 + 5.0 + 0.5) 4499 1000 (by norm_num) (by decide +kernel)
      push_cast at this; exact this
  obtain ⟨b1, b2, b3⟩ := b _ rfl
  have r1 : Encl (mk2 0.0 0.96) (Libm.ln (F64.sqrt (2.0 * Arith.pi))) := by
    refine rel_mk2 (by rw [zero_val]; exact A.ln_ge _ q1 q2) ?_
    have h1 : Real.log (F64.sqrt (2.0 * Arith.pi)).val ≤ (19:ℕ) / (20:ℕ) := by
      refine log_upper (by linarith) 19 (by norm_num) ?_
      refine (pow_le_pow_left₀ (by linarith) q3 20).trans ?_
      norm_num
    have h2 := ln_upper A q1 (by linarith) (by positivity) h1
    have h3 := le_val_of_sv (x := (0.96 : F64)) 959 1000 (by norm_num) (by decide +kernel)
    push_cast at h3
    refine h2.trans (le_trans ?_ h3); norm_num
  have r2 : Encl (mk2 0.0 41.13) (Libm.ln (lanczosSum ((5.6e-17 : F64) - 1.0) + lg5n7Head)) := by
    refine rel_mk2 (by rw [zero_val]; exact A.ln_ge _ s1 s2) ?_
    have h1 : Real.log (lanczosSum ((5.6e-17 : F64) - 1.0) + lg5n7Head).val ≤ (329:ℕ) / (8:ℕ) := by
      refine log_upper (by linarith) 329 (by norm_num) ?_
      refine (pow_le_pow_left₀ (by linarith) s3 8).trans ?_
      have e3 : (2.718281828:ℝ)^329 = ((2.718281828:ℝ)^47)^7 := by rw [← pow_mul]
      have e4 : (258 * 10^18:ℝ) ≤ (2.718281828:ℝ)^47 := by norm_num
      rw [e3]
      refine le_trans ?_ (pow_le_pow_left₀ (by norm_num) e4 7)
      norm_num
    have h2 := ln_upper A s1 (by linarith) (by positivity) h1
    have h3 := le_val_of_sv (x := (41.13 : F64)) 411299 10000 (by norm_num) (by decide +kernel)
    push_cast at h3
    refine h2.trans (le_trans ?_ h3); norm_num
  have r3 : Encl (mk2 1.47 746.0) (Libm.ln ((5.6e-17 : F64) - 1.0 + 5.0 + 0.5)) := by
    have e := rel_inside (l := -746.0) (h := 746.0) (rel_ln L b1 (by linarith)) (by decide +kernel)
    refine rel_mk2 ?_ e.2.2
    have h1 : ((37:ℕ):ℝ) / (25:ℕ) ≤ Real.log ((5.6e-17 : F64) - 1.0 + 5.0 + 0.5).val := by
      refine log_lower (by linarith) 37 (by norm_num) ?_
      refine le_trans ?_ (pow_le_pow_left₀ (by norm_num) b3 25)
      norm_num
    have h2 := ln_lower A b1 (by linarith) h1
    have h3 := val_le_of_sv (x := (1.47 : F64)) 1471 1000 (by norm_num) (by decide +kernel)
    push_cast at h3
    refine h3.trans (le_trans ?_ h2)
    rw [abs_of_pos (by positivity)]; norm_num
  have r4 := rel_ln L (x := 1e-20) (by decide +kernel) (hpos _ (by decide +kernel))
  have eg : lnGamma (5.6e-17 : F64) = Libm.ln (F64.sqrt (2.0 * Arith.pi)) + Libm.ln (lanczosSum ((5.6e-17 : F64) - 1.0) + lg5n7Head) - ((5.6e-17 : F64) - 1.0 + 5.0 + 0.5)
      + Libm.ln ((5.6e-17 : F64) - 1.0 + 5.0 + 0.5) * ((5.6e-17 : F64) - 1.0 + 0.5) := by unfold lnGamma; rw [ar_sqrt]
  have rz : Encl (5.6e-17 - 1.0) ((5.6e-17 : F64) - 1.0) := rel_sub (rel_lit _ _ _) (rel_lit _ _ _)
  have r5 : Encl 0.5 (0.5 : F64) := rel_lit _ _ _
  have rb : Encl (5.6e-17 - 1.0 + 5.0 + 0.5) ((5.6e-17 : F64) - 1.0 + 5.0 + 0.5) := rel_add (rel_add rz (rel_lit _ _ _)) r5
  have rl : Encl (mk2 (-37.0) 700.0) (-(1e-20 : F64) + 5.6e-17 * Libm.ln 1e-20 - lnGamma 5.6e-17) := by
    rw [eg]
    generalize Libm.ln (F64.sqrt (2.0 * Arith.pi)) = l1 at *
    generalize Libm.ln (lanczosSum ((5.6e-17 : F64) - 1.0) + lg5n7Head) = l2 at *
    generalize Libm.ln ((5.6e-17 : F64) - 1.0 + 5.0 + 0.5) = l3 at *
    generalize Libm.ln (1e-20 : F64) = l4 at *
    have ra : Encl 5.6e-17 (5.6e-17 : F64) := rel_lit _ _ _
    have rx : Encl 1e-20 (1e-20 : F64) := rel_lit _ _ _
    have r := rel_sub (rel_add (rel_neg rx) (rel_mul ra r4)) (rel_add (rel_sub (rel_add r1 r2) rb) (rel_mul r3 (rel_add rz r5)))
    have := rel_inside (l := -37.0) (h := 700.0) r (by decide +kernel)
    exact rel_mk2 this.2.1 this.2.2
  have hl : gser (5.6e-17 : F64) 1e-20 = if F64.lt 700.0 (-(1e-20 : F64) + 5.6e-17 * Libm.ln 1e-20 - lnGamma 5.6e-17) then gserLoop 1e-20 10000 5.6e-17 (1.0 / 5.6e-17) (1.0 / 5.6e-17) * inf
      else if F64.lt (-(1e-20 : F64) + 5.6e-17 * Libm.ln 1e-20 - lnGamma 5.6e-17) (-700.0) then 0.0
      else gserLoop 1e-20 10000 5.6e-17 (1.0 / 5.6e-17) (1.0 / 5.6e-17) * Libm.exp (-(1e-20 : F64) + 5.6e-17 * Libm.ln 1e-20 - lnGamma 5.6e-17) := by
    unfold gser; simp only [ar_lt, ar_inf]
  have es : gserLoop (1e-20 : F64) 10000 5.6e-17 (1.0 / 5.6e-17) (1.0 / 5.6e-17) = 1.0 / 5.6e-17 := by decide +kernel
  rw [hl, es]
  generalize -(1e-20 : F64) + 5.6e-17 * Libm.ln 1e-20 - lnGamma 5.6e-17 = l at *
  have H := rel_inside (l := -37.0) (h := 700.0) rl (by decide +kernel)
  have v37 : (37.0 : F64).val = 37 := by have := val_of_int (x := (37.0 : F64)) 37 (by decide +kernel); rw [this]; norm_num
  rw [val_neg, v37, lit700.2] at H
  have k1 : F64.lt 700.0 l = false := (lt_false_iff (isFin_notNaN lit700.1) (isFin_notNaN H.1)).2 (by rw [lit700.2]; exact H.2.2)
  have k2 : F64.lt l (-700.0) = false := (lt_false_iff (isFin_notNaN H.1) (by decide +kernel)).2 (by rw [val_neg, lit700.2]; linarith)
  rw [k1, k2]
  simp only [Bool.false_eq_true, if_false]
  have hacc := A.exp_acc l (abs_le.2 ⟨by linarith, H.2.2⟩)
  have hlow : (7.5e-17 : F64).val ≤ (Libm.exp l).val := by
    refine exp_neg37.trans ?_
    have h1 := (abs_le.1 hacc).1
    have h2 : Real.exp (-37) ≤ Real.exp l.val := Real.exp_le_exp.2 H.2.1
    have h3 : Real.exp (-37) * (1 - 1/10^6) ≤ Real.exp l.val * (1 - 1/10^6) := mul_le_mul_of_nonneg_right h2 (by norm_num)
    linarith
  have hfe := (A.exp_mid l (abs_le.2 ⟨by linarith, H.2.2⟩)).1
  have fo : ((1.0 : F64) / 5.6e-17).isFin = true := by decide +kernel
  have M := Iv.mul_spec' fo hfe
  have fl : (7.5e-17 : F64).isFin = true := by decide +kernel
  have M2 := Iv.mul_spec' fo fl
  have hfin : 1 < ((1.0 : F64) / 5.6e-17 * 7.5e-17).val := by
    have := (lt_iff.1 (by decide +kernel : F64.lt 1.0 ((1.0 : F64) / 5.6e-17 * 7.5e-17) = true)).2.2
    rwa [one_val] at this
  refine lt_of_lt_of_le hfin ?_
  rw [M.2, M2.2]
  apply RN_mono
  exact mul_le_mul_of_nonneg_left hlow (hpos _ (by decide +kernel)).le

/-! ## C18 -/

/-- C18 is false of the code: below `a·2^-52` the function returns 0, but for `a = 1e-5`, `x = 1e-22` the true value
`P(a,x) = ∫₀ˣ t^(a-1) e^(-t) dt / Γ(a)` exceeds 0.99. -/
theorem gammp_misses_small_a : Returns (gammp (1e-5 : F64) 1e-22) 0.0 ∧ 0.99 ≤ regP (1e-5 : F64).val (1e-22 : F64).val := by
  constructor
  · have hv : (F64.le 0.0 (1e-22 : F64) && F64.lt 0.0 (1e-5 : F64)) = true := by decide +kernel
    unfold Returns
    rw [gammp_eq hv]
    have c1 : F64.eq (1e-22 : F64) 0.0 = false := by decide +kernel
    have c2 : F64.lt (1e-22 : F64) (1e-5 * EPS) = true := by decide +kernel
    rw [c1, c2]
    rfl
  · have a1 := val_le_of_sv (x := (1e-5 : F64)) 2 100000 (by norm_num) (by decide +kernel)
    have a0 : 0 < (1e-5 : F64).val := by
      have := (lt_iff.1 (by decide +kernel : F64.lt 0.0 (1e-5 : F64) = true)).2.2; rwa [zero_val] at this
    have x1 := val_le_of_sv (x := (1e-22 : F64)) 1 1000 (by norm_num) (by decide +kernel)
    have x0 := le_val_of_sv (x := (1e-22 : F64)) 1 (2^74) (by norm_num) (by decide +kernel)
    push_cast at a1 x1 x0
    generalize (1e-5 : F64).val = a at *
    generalize (1e-22 : F64).val = x at *
    have xp : 0 < x := lt_of_lt_of_le (by norm_num) x0
    refine le_trans ?_ (regP_lower a0 (by linarith) xp.le)
    rw [Real.rpow_def_of_pos xp, ← Real.exp_add]
    have hlog : -52 ≤ Real.log x := by
      have h := Real.log_le_log (by norm_num) x0
      rw [one_div, Real.log_inv, show (18889465931478580854784:ℝ) = 2^74 by norm_num, Real.log_pow] at h
      have := Real.log_two_lt_d9
      push_cast at h
      linarith
    have h1 : -(52 * (2/100000)) ≤ Real.log x * a := by
      have h2 : -52 * a ≤ Real.log x * a := mul_le_mul_of_nonneg_right hlog a0.le
      linarith
    have := Real.add_one_le_exp (Real.log x * a + -x)
    norm_num at this ⊢
    linarith

/-- C18: more generally the result is 0 for every `0 < x < a·2^-52`, although `P(a,x) ≥ x^a e^(-x)` for `a ≤ 1`. -/
theorem gammp_cutoff (a x : F64) (hx : x.isNaN = false ∧ 0 < x.val) (ha : a.isNaN = false ∧ 0 < a.val) (hc : F64.lt x (a * EPS) = true) (ha1 : a.val ≤ 1) :
    Returns (gammp a x) 0.0 ∧ x.val ^ a.val * Real.exp (-x.val) ≤ regP a.val x.val := by
  refine ⟨?_, regP_lower ha.2 ha1 hx.2.le⟩
  unfold Returns
  rw [gammp_eq (valid_iff.2 ⟨⟨hx.1, hx.2.le⟩, ha⟩)]
  have c1 : F64.eq x 0.0 = false := by
    rw [← Bool.not_eq_true, eq_zero_iff, ← val_eq_zero]; exact hx.2.ne'
  rw [c1, hc]
  rfl

omit [Libm F64] in
/-- C18, what does hold, in exact arithmetic: the series accumulated by `gammp`'s small-`x` branch approaches `γ(a,x)` from below; when its
stopping rule fires after `m` steps, the relative deviation is at most `ε·x/(a+m+1-x)`.  Missing: the effect of rounding, of the Lanczos
approximation in `ln_gamma`, and the cut-off of `gammp_cutoff`. -/
theorem gser_series_partial (a x : ℝ) (ha : 0 < a) (hx : 0 ≤ x) (hxa : x < a + 1) (n : ℕ) :
    ∃ m ≤ n, x^a * Real.exp (-x) * gserLoop x n a (1.0 / a) (1.0 / a) ≤ lowerGamma a x ∧
      (m < n → lowerGamma a x ≤ x^a * Real.exp (-x) * gserLoop x n a (1.0 / a) (1.0 / a) * (1 + EPS * (x / (a + (m+1 : ℕ) - x)))) := by
  obtain ⟨m, h1, h2, h3⟩ := gserLoop_real (a := a) (x := x) n
  have hm : x < a + ((m+1 : ℕ):ℝ) := by push_cast; have : (0:ℝ) ≤ m := by positivity
                                        linarith
  obtain ⟨t1, t2⟩ := lowerGamma_trunc ha hx m hm
  refine ⟨m, h1, by rw [h2]; exact t1, fun hmn => ?_⟩
  obtain ⟨_, h4⟩ := h3 hmn
  rw [h2]
  have hs : ∀ k, 0 ≤ serTerm a x k := fun k => div_nonneg (pow_nonneg hx _) (prod_pos' ha _).le
  have hS : 0 ≤ ∑ k ∈ Finset.range (m+1), serTerm a x k := Finset.sum_nonneg fun k _ => hs k
  rw [abs_of_nonneg (hs m), abs_of_nonneg hS] at h4
  have hr : 0 ≤ x / (a + ((m+1 : ℕ):ℝ) - x) := div_nonneg hx (by linarith)
  have hc : 0 ≤ x^a * Real.exp (-x) := mul_nonneg (Real.rpow_nonneg hx _) (Real.exp_pos _).le
  have h5 := mul_le_mul_of_nonneg_left (mul_le_mul_of_nonneg_right h4.le hr) hc
  linarith

/-! ## C19 -/

/-- C19, exactly where it holds: `ln_gamma` is finite for `2^-54 < z ≤ 1e300`.  Missing: `z ≤ 2^-54`, see `ln_gamma_overflows`. -/
theorem ln_gamma_finite_partial (L : LibmSpec) (z : F64) (h1 : 2^(-54:ℤ) < z.val) (h2 : z.val ≤ (1e300 : F64).val) : (lnGamma z).isFin = true :=
  lnGamma_fin L (tiny_succ (by rw [tiny_val']; exact h1)) h2

/-- C19 is false of the code: `ln_gamma(z) = +∞` for every `0 < z ≤ 2^-54`, although the true value is at most `745`. -/
theorem ln_gamma_overflows (L : LibmSpec) (z : F64) (h1 : 0 < z.val) (h2 : z.val ≤ 2^(-54:ℤ)) : lnGamma z = inf :=
  lnGamma_tiny L h1 (by rw [tiny_val']; exact h2)

example : 0 < (1e-20 : F64).val ∧ (1e-20 : F64).val ≤ 2^(-54:ℤ) := by
  have := val_le_of_sv (x := (1e-20 : F64)) 1 (2^54) (by norm_num) (by decide +kernel)
  refine ⟨by have := (lt_iff.1 (by decide +kernel : F64.lt 0.0 (1e-20 : F64) = true)).2.2; rwa [zero_val] at this, this.trans (by norm_num)⟩

/-! ## C20, C21 -/

/-- C20: `invgammp` panics when `a` is not a positive number. -/
theorem invgammp_panics (p a : F64) (h : ¬ (a.isNaN = false ∧ 0 < a.val)) : Panics (invgammp p a) := by
  have : F64.lt 0.0 a = false := by
    rw [Bool.eq_false_iff]; intro hc
    have := lt_iff.1 hc
    rw [zero_val] at this; exact h this.2
  unfold Panics
  rw [invgammp_eq, this, if_neg Bool.false_ne_true]

/-- C20: saturation at `p ≤ 0` and `p ≥ 1`. -/
theorem invgammp_saturates (p a : F64) (ha : a.isNaN = false ∧ 0 < a.val) (hp : p.isNaN = false) :
    (p.val ≤ 0 → Returns (invgammp p a) 0.0) ∧ (1 ≤ p.val → Returns (invgammp p a) (F64.max 100.0 (a + 100.0 * F64.sqrt a))) := by
  have e : F64.lt 0.0 a = true := lt_iff.2 ⟨isFin_notNaN zero_fin, ha.1, by rw [zero_val]; exact ha.2⟩
  unfold Returns
  rw [invgammp_eq, e, if_pos rfl]
  constructor
  · intro h
    have e1 : F64.le 1.0 p = false := by
      rw [Bool.eq_false_iff]; intro hc
      have := (le_iff.1 hc).2.2; rw [one_val] at this; linarith
    have e2 : F64.le p 0.0 = true := le_iff.2 ⟨hp, isFin_notNaN zero_fin, by rw [zero_val]; exact h⟩
    rw [e1, if_neg Bool.false_ne_true, e2, if_pos rfl]
  · intro h
    have e1 : F64.le 1.0 p = true := le_iff.2 ⟨isFin_notNaN one_fin, hp, by rw [one_val]; exact h⟩
    rw [e1, if_pos rfl]

/-- C21: whatever `invgammp` returns is at least zero, or NaN. -/
theorem invgammp_nonneg (p a v : F64) (h : Returns (invgammp p a) v) : v.isNaN = true ∨ 0 ≤ v.val := by
  unfold Returns at h
  rw [invgammp_eq] at h
  rcases c1 : F64.lt 0.0 a with _ | _
  · rw [c1, if_neg Bool.false_ne_true] at h; cases h
  rw [c1, if_pos rfl] at h
  rcases ite_ok h with h | h
  · have hn : (100.0 : F64).isNaN = false := by decide +kernel
    have v100 : (100.0 : F64).val = 100 := by have := val_of_int (x := (100.0 : F64)) 100 (by decide +kernel); rw [this]; norm_num
    rcases c : (a + 100.0 * F64.sqrt a).isNaN with _ | _
    · right
      rw [← h, (max_val hn c).2, v100]
      exact le_trans (by norm_num) (le_max_left _ _)
    · right
      have : F64.max 100.0 (a + 100.0 * F64.sqrt a) = 100.0 := by
        unfold F64.max; rw [c, hn]; rfl
      rw [← h, this, v100]; norm_num
  · rcases ite_ok h with h | h
    · right; rw [← h, zero_val]
    · exact invgammpLoop_nonneg _ _ _ _ _ _ 12 _ _ (fun h => absurd h (by decide)) h

example : ((2.5 : F64).isNaN = false ∧ 0 < (2.5 : F64).val) ∧ (1.0 : F64).isNaN = false ∧ 1 ≤ (1.0 : F64).val := by
  refine ⟨⟨by decide +kernel, ?_⟩, by decide +kernel, by rw [one_val]⟩
  have := (lt_iff.1 (by decide +kernel : F64.lt 0.0 (2.5 : F64) = true)).2.2; rwa [zero_val] at this

end Verif
