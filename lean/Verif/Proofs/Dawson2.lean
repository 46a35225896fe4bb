import Verif.Proofs.Dawson

/-! # More lemmas about dawson: the reduction, the polynomial, Dawson's integral -/

namespace Verif
open F64 OIv

section
variable [Libm F64] [Cfg]

theorem exp_bd (A : LibmAcc) {x : F64} (h : |x.val| ≤ 10) : Bd (Libm.exp x) 15 := by
  have h1 := A.exp_acc x (h.trans (by norm_num))
  have e1 : Real.exp 10 ≤ 22100 := by
    have : Real.exp 10 = Real.exp 1 ^ 10 := by rw [← Real.exp_nat_mul]; norm_num
    rw [this]
    calc Real.exp 1 ^ 10 ≤ 2.7182818286 ^ 10 := pow_le_pow_left₀ (Real.exp_pos _).le Real.exp_one_lt_d9.le _
      _ ≤ 22100 := by norm_num
  have e2 : (1:ℝ) / 22100 ≤ Real.exp (-10) := by
    rw [Real.exp_neg, ← one_div]
    exact one_div_le_one_div_of_le (Real.exp_pos _) e1
  rw [abs_le] at h
  have m1 := Real.exp_le_exp.2 h.1
  have m2 := Real.exp_le_exp.2 h.2
  have m3 := e2.trans m1
  have m4 := m2.trans e1
  clear m1 m2 e1 e2
  rw [abs_le] at h1
  unfold Bd
  generalize Real.exp x.val = E at *
  constructor
  · norm_num at *; linarith
  · norm_num at *; linarith

/-- `0.5·|x|/h + 0.5` and everything up to the argument of the first exponential, for `|x| ≤ 2^54` -/
theorem dawson_reduce (A : LibmAcc) {x : F64} (hx : |x.val| ≤ 2^54) :
    2 * toUnsigned U64_MAX (0.5 * x.abs / 0.4 + 0.5) ≤ 2^57 ∧
    |(x.abs - F64.ofNat (2 * toUnsigned U64_MAX (0.5 * x.abs / 0.4 + 0.5)) * 0.4).val| ≤ 2^4 ∧
    Bd (Libm.exp (2.0 * (x.abs - F64.ofNat (2 * toUnsigned U64_MAX (0.5 * x.abs / 0.4 + 0.5)) * 0.4) * 0.4)) 15 := by
  have fx : x.isFin = true := fin_pow2 (p := 54) (by omega) hx
  obtain ⟨hH, hH', fH⟩ := h_val
  have va : x.abs.val = |x.val| := F64.val_abs x
  have fa : x.abs.isFin = true := by simpa using fx
  have fh : (0.5 : F64).isFin = true := by decide +kernel
  have s1 := Iv.mul_spec' fh fa
  rw [half_val, va] at s1
  have b1 : |(0.5 * x.abs : F64).val| ≤ 2^54 := by
    rw [s1.2]
    refine abs_RN_le_pow2 (by omega) ?_
    rw [abs_of_nonneg (by positivity)]; linarith [abs_nonneg x.val]
  have s2 := Iv.div_spec' (fin_pow2 (p := 54) (by omega) b1) fH (by linarith)
  have b2 : |(0.5 * x.abs / 0.4 : F64).val| ≤ 2^(54 + 2) :=
    div_bound b1 (by rw [abs_of_pos (by linarith)]; norm_num at *; linarith) fH (by omega)
  have s3 := add_spec (fin_pow2 (p := 56) (by omega) b2) fh
  rw [half_val] at s3
  have b3 : |(0.5 * x.abs / 0.4 + 0.5 : F64).val| ≤ 2^(56 + 1) := add_bound b2 (by rw [half_val]; norm_num) (by omega)
  have f3 : (0.5 * x.abs / 0.4 + 0.5 : F64).isFin = true := fin_pow2 (p := 57) (by omega) b3
  have q3p : 0 ≤ (0.5 * x.abs / 0.4 + 0.5 : F64).val := by
    rw [s3.2, s2.2, s1.2]
    refine RN_nonneg (add_nonneg (RN_nonneg (div_nonneg (RN_nonneg (by positivity)) (by linarith))) (by norm_num))
  have ht : toUnsigned U64_MAX (0.5 * x.abs / 0.4 + 0.5) = ⌊(0.5 * x.abs / 0.4 + 0.5 : F64).val⌋₊ := by
    rw [toUnsigned_spec f3 q3p]
    apply Nat.min_eq_left
    have : ⌊(0.5 * x.abs / 0.4 + 0.5 : F64).val⌋₊ ≤ 2^57 := by
      apply Nat.floor_le_of_le
      push_cast
      exact (abs_le.1 b3).2.trans (by norm_num)
    exact this.trans (by decide)
  set n := toUnsigned U64_MAX (0.5 * x.abs / 0.4 + 0.5) with hn
  have hN := ofNat_spec (2 * n)
  have key0 := xp_bound (X := |x.val|) (H := (0.4 : F64).val) (n := n) (abs_nonneg _) hx hH hH' rfl rfl rfl
    (by rw [ht, s3.2, s2.2, s1.2]) rfl rfl rfl
  have hn57 := key0.1
  have bN : |(F64.ofNat (2 * n)).val| ≤ 2^57 := by
    rw [hN.2.1]
    refine abs_RN_le_pow2 (by omega) ?_
    rw [abs_of_nonneg (by positivity)]; exact_mod_cast hn57
  have s4 := Iv.mul_spec' (fin_pow2 (p := 57) (by omega) bN) fH
  have b4 : |(F64.ofNat (2 * n) * 0.4).val| ≤ 2^(57 + 0) := mul_bound bN (by rw [abs_of_pos (by linarith)]; linarith) (by omega)
  have s5 := sub_spec fa (fin_pow2 (p := 57) (by omega) b4)
  have hxp : |(x.abs - F64.ofNat (2 * n) * 0.4).val| ≤ 12 := by
    rw [s5.2, s4.2, hN.2.1, va]; exact key0.2.1
  refine ⟨hn57, hxp.trans (by norm_num), ?_⟩
  have fxp : (x.abs - F64.ofNat (2 * n) * 0.4).isFin = true := fin_pow2 (p := 4) (by omega) (hxp.trans (by norm_num))
  have ftwo : (2.0 : F64).isFin = true := by decide +kernel
  have s6 := Iv.mul_spec' ftwo fxp
  rw [two_val] at s6
  have b6 : |(2.0 * (x.abs - F64.ofNat (2 * n) * 0.4)).val| ≤ 24 := by
    rw [s6.2]
    have := RN_abs_le_int (r := 2 * (x.abs - F64.ofNat (2 * n) * 0.4).val) 24 (by norm_num) (by rw [abs_mul]; norm_num; linarith)
    exact_mod_cast this
  have s7 := Iv.mul_spec' (fin_pow2 (p := 5) (by omega) (b6.trans (by norm_num))) fH
  refine exp_bd A ?_
  rw [s7.2]
  have := RN_abs_le_int (r := (2.0 * (x.abs - F64.ofNat (2 * n) * 0.4)).val * (0.4 : F64).val) 10 (by norm_num)
    (by rw [abs_mul, abs_of_pos (by linarith : 0 < (0.4 : F64).val)]
        have : |(2.0 * (x.abs - F64.ofNat (2 * n) * 0.4)).val| * (0.4 : F64).val ≤ 24 * 0.4001 :=
          mul_le_mul b6 hH' (by linarith) (by norm_num)
        norm_num at *; linarith)
  exact_mod_cast this

end

/-! ## Dawson's integral -/

theorem dawsonR_neg (x : ℝ) : dawsonR (-x) = -dawsonR x := by
  unfold dawsonR
  have h : (∫ t in (0:ℝ)..(-x), Real.exp (t^2)) = -∫ t in (0:ℝ)..x, Real.exp (t^2) := by
    have := intervalIntegral.integral_comp_neg (a := 0) (b := x) (fun t : ℝ => Real.exp (t^2))
    simp only [neg_sq, neg_zero] at this
    rw [intervalIntegral.integral_symm, ← this]
  rw [neg_sq, h]; ring

theorem dawsonR_pos {x : ℝ} (hx : 0 < x) : 0 < dawsonR x := by
  unfold dawsonR
  refine mul_pos (Real.exp_pos _) ?_
  refine intervalIntegral.intervalIntegral_pos_of_pos ?_ (fun t => Real.exp_pos _) hx
  exact (by fun_prop : Continuous fun t : ℝ => Real.exp (t^2)).intervalIntegrable _ _

/-- the Maclaurin polynomial used by the code -/
noncomputable def dawsonP (x : ℝ) : ℝ := x * (1 - 2/3 * x^2 * (1 - 2/5 * x^2 * (1 - 2/7 * x^2)))

theorem scaled_deriv (x : ℝ) : HasDerivAt (fun x => Real.exp (x^2) * dawsonP x - ∫ t in (0:ℝ)..x, Real.exp (t^2))
    (Real.exp (x^2) * (-(16/105) * x^8)) x := by
  have h1 : HasDerivAt (fun x : ℝ => Real.exp (x^2)) (Real.exp (x^2) * (2 * x)) x := by
    have := (hasDerivAt_pow 2 x).exp
    simpa using this
  have h2 : HasDerivAt dawsonP (1 - 2 * x^2 + 4/3 * x^4 - 8/15 * x^6) x := by
    have e : dawsonP = fun x : ℝ => x - 2/3 * x^3 + 4/15 * x^5 - 8/105 * x^7 := by
      funext y; unfold dawsonP; ring
    rw [e]
    have := (((hasDerivAt_id x).sub ((hasDerivAt_pow 3 x).const_mul (2/3))).add ((hasDerivAt_pow 5 x).const_mul (4/15))).sub
      ((hasDerivAt_pow 7 x).const_mul (8/105))
    refine this.congr_deriv ?_
    norm_num; ring
  have h3 : HasDerivAt (fun x => ∫ t in (0:ℝ)..x, Real.exp (t^2)) (Real.exp (x^2)) x := by
    have hc : Continuous fun t : ℝ => Real.exp (t^2) := by fun_prop
    exact intervalIntegral.integral_hasDerivAt_right (hc.intervalIntegrable _ _) (hc.stronglyMeasurableAtFilter _ _) hc.continuousAt
  refine ((h1.mul h2).sub h3).congr_deriv ?_
  unfold dawsonP; ring

theorem dawsonP_err {x : ℝ} (h0 : 0 ≤ x) (h1 : x ≤ 0.201) : |dawsonP x - dawsonR x| ≤ x / (2 * 10^7) := by
  set G : ℝ → ℝ := fun x => Real.exp (x^2) * dawsonP x - ∫ t in (0:ℝ)..x, Real.exp (t^2) with hG
  have G0 : G 0 = 0 := by simp [hG, dawsonP]
  have anti : AntitoneOn G (Set.Icc 0 x) := by
    apply antitoneOn_of_deriv_nonpos (convex_Icc _ _)
    · intro y _; exact (scaled_deriv y).continuousAt.continuousWithinAt
    · intro y _; exact (scaled_deriv y).differentiableAt.differentiableWithinAt
    · intro y _
      rw [(scaled_deriv y).deriv]
      have : 0 ≤ y^8 := by positivity
      nlinarith [Real.exp_pos (y^2)]
  have hE : Real.exp (x^2) ≤ 1.1 := by
    have h2 : x^2 ≤ 1/24 := by nlinarith
    have h3 := Real.exp_le_exp.2 h2
    have h4 : Real.exp (1/24) ≤ 1.1 := by
      have := Real.add_one_le_exp (-(1/24) : ℝ)
      rw [Real.exp_neg] at this
      have hp := Real.exp_pos (1/24 : ℝ)
      have : (23/24 : ℝ) * Real.exp (1/24) ≤ 1 := by
        have h5 : (23/24:ℝ) ≤ (Real.exp (1/24))⁻¹ := by linarith
        calc (23/24 : ℝ) * Real.exp (1/24) ≤ (Real.exp (1/24))⁻¹ * Real.exp (1/24) := by gcongr
          _ = 1 := inv_mul_cancel₀ hp.ne'
      linarith
    linarith
  have mono : MonotoneOn (fun y => G y + 1.1 * (16/945) * y^9) (Set.Icc 0 x) := by
    have hd : ∀ y, HasDerivAt (fun y => G y + 1.1 * (16/945) * y^9) (Real.exp (y^2) * (-(16/105) * y^8) + 1.1 * (16/945) * (9 * y^8)) y := by
      intro y
      have := (scaled_deriv y).add ((hasDerivAt_pow 9 y).const_mul (1.1 * (16/945)))
      refine this.congr_deriv ?_
      norm_num
    apply monotoneOn_of_deriv_nonneg (convex_Icc _ _)
    · intro y _; exact (hd y).continuousAt.continuousWithinAt
    · intro y _; exact (hd y).differentiableAt.differentiableWithinAt
    · intro y hy
      rw [interior_Icc] at hy
      rw [(hd y).deriv]
      have h8 : 0 ≤ y^8 := by positivity
      have : Real.exp (y^2) ≤ 1.1 := (Real.exp_le_exp.2 (by nlinarith [hy.1, hy.2])).trans hE
      have h9 : Real.exp (y^2) * y^8 ≤ 1.1 * y^8 := by gcongr
      nlinarith
  have mem0 : (0:ℝ) ∈ Set.Icc 0 x := ⟨le_refl _, h0⟩
  have memx : x ∈ Set.Icc 0 x := ⟨h0, le_refl _⟩
  have a1 := anti mem0 memx h0
  have a2 := mono mem0 memx h0
  simp only at a2
  rw [G0] at a1 a2
  have hx8 : x^8 ≤ 0.201^8 := pow_le_pow_left₀ h0 h1 8
  have hx9 : x^9 ≤ x * 0.201^8 := by rw [pow_succ, mul_comm]; gcongr
  have hGx : |G x| ≤ x / (2 * 10^7) := by
    rw [abs_le]
    constructor
    · norm_num at *; linarith
    · have : 0 ≤ x / (2 * 10^7) := by positivity
      linarith
  have e : dawsonP x - dawsonR x = Real.exp (-x^2) * G x := by
    simp only [hG]; unfold dawsonR
    have : Real.exp (-x^2) * Real.exp (x^2) = 1 := by rw [← Real.exp_add]; simp
    linear_combination (-(dawsonP x)) * this
  rw [e, abs_mul, abs_of_pos (Real.exp_pos _)]
  calc Real.exp (-x^2) * |G x| ≤ 1 * |G x| := by
        gcongr
        rw [← Real.exp_zero]; exact Real.exp_le_exp.2 (by nlinarith [sq_nonneg x])
    _ ≤ x / (2 * 10^7) := by rw [one_mul]; exact hGx

/-! ## rounding error of the polynomial -/

/-- `a` is within `e` of `A`, both in `[0, 1]` -/
structure Near (a : F64) (A e : ℝ) : Prop where
  fin : a.isFin = true
  lo : 0 ≤ a.val
  hi : a.val ≤ 1
  LO : 0 ≤ A
  HI : A ≤ 1
  err : |a.val - A| ≤ e

theorem rn_unit {r : ℝ} (h : |r| ≤ 1) : |RN r - r| ≤ 1 / 2^52 := by
  have hH : |r| < HUGE := lt_of_le_of_lt h (lt_of_lt_of_le (by norm_num) HUGE_ge)
  refine (RN_err hH).trans (max_le ?_ ?_)
  · have : |r| / 2^53 ≤ 1 / 2^53 := by gcongr
    exact this.trans (by norm_num)
  · apply one_div_le_one_div_of_le (by positivity)
    exact pow_le_pow_right₀ (by norm_num) (by norm_num)

theorem Near.mul {a b : F64} {A B e f : ℝ} (ha : Near a A e) (hb : Near b B f) : Near (a * b) (A * B) (e + f + 1/2^52) := by
  have S := (Iv.mul_spec' ha.fin hb.fin).2
  have p0 : 0 ≤ a.val * b.val := mul_nonneg ha.lo hb.lo
  have p1 : a.val * b.val ≤ 1 := mul_le_one₀ ha.hi hb.lo hb.hi
  have hl : 0 ≤ (a * b).val := by rw [S]; exact RN_nonneg p0
  have hh : (a * b).val ≤ 1 := by rw [S, ← RN_one]; exact RN_mono p1
  refine ⟨abs_fin (b := 1) (by linarith) hh (by norm_num), hl, hh, mul_nonneg ha.LO hb.LO, mul_le_one₀ ha.HI hb.LO hb.HI, ?_⟩
  have r := rn_unit (r := a.val * b.val) (by rw [abs_of_nonneg p0]; exact p1)
  rw [← S] at r
  have e1 : (a * b).val - A * B = ((a * b).val - a.val * b.val) + (a.val - A) * b.val + A * (b.val - B) := by ring
  rw [e1]
  have t1 : |(a.val - A) * b.val| ≤ e := by
    rw [abs_mul, abs_of_nonneg hb.lo]
    exact (mul_le_of_le_one_right (abs_nonneg _) hb.hi).trans ha.err
  have t2 : |A * (b.val - B)| ≤ f := by
    rw [abs_mul, abs_of_nonneg ha.LO]
    exact (mul_le_of_le_one_left (abs_nonneg _) ha.HI).trans hb.err
  have := abs_add_three ((a * b).val - a.val * b.val) ((a.val - A) * b.val) (A * (b.val - B))
  linarith

theorem Near.oneSub {a : F64} {A e : ℝ} (ha : Near a A e) : Near (1.0 - a) (1 - A) (e + 1/2^52) := by
  have fone : (1.0 : F64).isFin = true := by decide +kernel
  have S := (sub_spec fone ha.fin).2
  rw [one_val] at S
  have p0 : 0 ≤ 1 - a.val := by linarith [ha.hi]
  have p1 : 1 - a.val ≤ 1 := by linarith [ha.lo]
  have hl : 0 ≤ (1.0 - a).val := by rw [S]; exact RN_nonneg p0
  have hh : (1.0 - a).val ≤ 1 := by rw [S, ← RN_one]; exact RN_mono (by rw [RN_one]; exact p1)
  refine ⟨abs_fin (b := 1) (by linarith) hh (by norm_num), hl, hh, by linarith [ha.HI], by linarith [ha.LO], ?_⟩
  have r := rn_unit (r := 1 - a.val) (by rw [abs_of_nonneg p0]; exact p1)
  rw [← S] at r
  have h := ha.err
  rw [abs_le] at *
  constructor <;> linarith

theorem near_lit {a : F64} (n : ℤ) (d : ℕ) (hd : 0 < d) (A : ℝ) (h : a.sv * d = n * 2^1074) (hn : 0 ≤ n) (hnd : n ≤ d) (hA : 0 ≤ A) (hA1 : A ≤ 1)
    (he : |(n:ℝ) / d - A| ≤ 1 / 2^52) : Near a A (1 / 2^52) := by
  have v := val_of_sv n d hd h
  have hd' : (0:ℝ) < d := by exact_mod_cast hd
  have l : 0 ≤ a.val := by rw [v]; exact div_nonneg (by exact_mod_cast hn) hd'.le
  have u : a.val ≤ 1 := by rw [v, div_le_one hd']; exact_mod_cast hnd
  exact ⟨abs_fin (b := 1) (by linarith) u (by norm_num), l, u, hA, hA1, by rw [v]; exact he⟩

/-- the bracket `1 - a1·x²·(1 - a2·x²·(1 - a3·x²))` of the small branch -/
theorem small_bracket {x : F64} (hx : |x.val| ≤ 1/5 + 1/10^10) :
    Near (1.0 - 2.0 / 3.0 * (x * x) * (1.0 - 0.4 * (x * x) * (1.0 - 2.0 / 7.0 * (x * x))))
      (1 - 2/3 * x.val^2 * (1 - 2/5 * x.val^2 * (1 - 2/7 * x.val^2))) (1 / 10^13) := by
  have fx : x.isFin = true := fin_pow2 (p := 0) (by omega) (hx.trans (by norm_num))
  have hxx : x.val * x.val ≤ 1 := by rw [abs_le] at hx; nlinarith
  have S := (Iv.mul_spec' fx fx).2
  have p0 : 0 ≤ x.val * x.val := mul_self_nonneg _
  have l : 0 ≤ (x * x).val := by rw [S]; exact RN_nonneg p0
  have u : (x * x).val ≤ 1 := by rw [S, ← RN_one]; exact RN_mono hxx
  have n2 : Near (x * x) (x.val^2) (1 / 2^52) := by
    refine ⟨abs_fin (b := 1) (by linarith) u (by norm_num), l, u, by positivity, by rw [sq]; exact hxx, ?_⟩
    rw [S, sq]; exact rn_unit (by rw [abs_of_nonneg p0]; exact hxx)
  have n3 : Near (2.0 / 7.0 : F64) (2/7) (1 / 2^52) :=
    near_lit 5146971002709138 18014398509481984 (by norm_num) _ (by decide +kernel) (by norm_num) (by norm_num) (by norm_num) (by norm_num)
      (by rw [abs_le]; norm_num)
  have n4 : Near (0.4 : F64) (2/5) (1 / 2^52) :=
    near_lit 3602879701896397 9007199254740992 (by norm_num) _ (by decide +kernel) (by norm_num) (by norm_num) (by norm_num) (by norm_num)
      (by rw [abs_le]; norm_num)
  have n5 : Near (2.0 / 3.0 : F64) (2/3) (1 / 2^52) :=
    near_lit 6004799503160661 9007199254740992 (by norm_num) _ (by decide +kernel) (by norm_num) (by norm_num) (by norm_num) (by norm_num)
      (by rw [abs_le]; norm_num)
  have r := (((n5.mul n2).mul ((n4.mul n2).mul (n3.mul n2).oneSub).oneSub)).oneSub
  exact ⟨r.fin, r.lo, r.hi, r.LO, r.HI, r.err.trans (by norm_num)⟩

end Verif
