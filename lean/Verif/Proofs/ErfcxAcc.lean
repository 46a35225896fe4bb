import Verif.Proofs.ErfcxCheck
import Verif.Proofs.ErfcxReal
import Mathlib.Analysis.Real.Pi.Bounds

/-!
# Accuracy of the erfcx table (src/error.rs)

The lemmas that turn the integer certificates of `Verif.Proofs.ErfcxCheck` into bounds for real numbers.
-/

namespace Verif
open F64

/-! ## From integers to reals -/

/-- the unit of the error bounds -/
noncomputable def TT : ℝ := 10^46 * 2^20
theorem TT_pos : 0 < TT := by unfold TT; positivity
theorem TT_lt : TT < 10^60 := by unfold TT; norm_num

theorem tiny_TT : (1:ℝ) / 2^1075 ≤ 1 / TT := by
  refine one_div_le_one_div_of_le TT_pos (TT_lt.le.trans ?_)
  have : (10:ℝ)^60 ≤ 2^200 := by norm_num
  exact this.trans (pow_le_pow_right₀ (by norm_num) (by norm_num))

theorem rn_err_nat {x : ℝ} {N : ℕ} (h : |x| ≤ N / TT) (hN : (N:ℝ) ≤ 10^100) : |RN x - x| ≤ ((N / 2^53 + 2 : ℕ) : ℝ) / TT := by
  have hT := TT_pos
  have h1 : |x| < HUGE := by
    refine lt_of_le_of_lt h (lt_of_lt_of_le ?_ HUGE_ge)
    rw [div_lt_iff₀ hT]
    have : (1:ℝ) ≤ TT := by unfold TT; norm_num
    nlinarith [this]
  have h2 := RN_err' h1
  have h3 := tiny_TT
  have h4 : |x| / 2^53 ≤ ((N / 2^53 + 1 : ℕ) : ℝ) / TT := by
    rw [div_le_div_iff₀ (by norm_num) hT]
    rw [le_div_iff₀ hT] at h
    refine h.trans ?_
    have : N ≤ (N / 2^53 + 1) * 2^53 := by omega
    exact_mod_cast this
  have h5 : ((N / 2^53 + 2 : ℕ) : ℝ) / TT = ((N / 2^53 + 1 : ℕ) : ℝ) / TT + 1 / TT := by
    rw [← add_div]; congr 1; generalize N / 2^53 = m; push_cast; ring
  rw [h5]
  generalize (1:ℝ) / 2^1075 = u at *
  linarith

theorem ofDec_val {d : Int × Nat} (h : d.2 ≤ 46) : (ofDec d : F64).isNaN = false ∧ (ofDec d : F64).val = RN ((ci d : ℝ) / 10^46) := by
  have e : ∀ m : ℕ, (OfScientific.ofScientific m true d.2 : F64) = F64.mk' false (m * 2^1074) (10^d.2) := fun m => if_pos rfl
  have v : ∀ m : ℕ, (F64.mk' false (m * 2^1074) (10^d.2)).val = RN (((m:ℝ) * 10^(46 - d.2)) / 10^46) := by
    intro m
    rw [F64.mk'_val _ _ _ (by positivity)]
    congr 1
    have hp : (10:ℝ)^46 = 10^(46 - d.2) * 10^d.2 := by rw [← pow_add]; congr 1; omega
    rw [hp]
    have : (0:ℝ) < 2^1074 := by positivity
    rw [Nat.cast_mul, Nat.cast_pow, Nat.cast_pow, Nat.cast_ofNat, Nat.cast_ofNat]
    generalize (2:ℝ)^1074 = u at *
    simp only [Bool.false_eq_true, if_false, one_mul]
    field_simp
  unfold ofDec ci
  split
  · rename_i hn
    rw [e]
    refine ⟨by rw [isNaN_neg]; exact F64.mk'_notNaN _ _ _, ?_⟩
    rw [val_neg, v, ← RN_neg]
    congr 1
    have : ((d.1.natAbs : ℕ) : ℝ) = -(d.1 : ℝ) := by
      rw [Nat.cast_natAbs, Int.cast_abs, abs_of_neg (by exact_mod_cast hn)]
    rw [this]; push_cast; ring
  · rename_i hn
    rw [e]
    refine ⟨F64.mk'_notNaN _ _ _, ?_⟩
    rw [v]
    congr 1
    have : ((d.1.natAbs : ℕ) : ℝ) = (d.1 : ℝ) := by
      rw [Nat.cast_natAbs, Int.cast_abs, abs_of_nonneg (by exact_mod_cast not_lt.1 hn)]
    rw [this]; push_cast; ring

theorem natAbs_div (z : ℤ) : |(z:ℝ) / 10^46| = ((z.natAbs * 2^20 : ℕ) : ℝ) / TT := by
  rw [abs_div, abs_of_pos (by positivity : (0:ℝ) < 10^46)]
  unfold TT
  have : |(z:ℝ)| = (z.natAbs : ℝ) := by rw [Nat.cast_natAbs, Int.cast_abs]
  rw [this, Nat.cast_mul]
  rw [show (((2^20 : ℕ)) : ℝ) = 2^20 by norm_num, mul_div_mul_right _ _ (by norm_num)]

/-- `h` is a finite float of magnitude at most `A` units that approximates `H` within `e` units -/
def FlB (h : F64) (H : ℝ) (A e : ℕ) : Prop := h.isFin = true ∧ |h.val| ≤ A / TT ∧ |h.val - H| ≤ e / TT

theorem fin_of_units {a : F64} {N : ℕ} (h : |a.val| ≤ N / TT) (hN : (N:ℝ) ≤ 10^100) : a.isFin = true := by
  rw [isFin_iff_val]
  refine lt_of_le_of_lt h (lt_of_lt_of_le ?_ HUGE_ge)
  rw [div_lt_iff₀ TT_pos]
  have : (1:ℝ) ≤ TT := by unfold TT; norm_num
  nlinarith [this]

theorem flb_lit {d : Int × Nat} (h : d.2 ≤ 46) (hb : ca (ci d) ≤ 10^46 * 2^20) : FlB (ofDec d) ((ci d : ℝ) / 10^46) (ca (ci d)) (ce (ci d)) := by
  obtain ⟨v1, v2⟩ := ofDec_val h
  have hN : (((ci d).natAbs * 2^20 : ℕ) : ℝ) ≤ 10^100 := by
    have : (ci d).natAbs * 2^20 ≤ 10^46 * 2^20 := le_trans (by unfold ca; omega) hb
    have h2 : (((ci d).natAbs * 2^20 : ℕ) : ℝ) ≤ ((10^46 * 2^20 : ℕ) : ℝ) := by exact_mod_cast this
    refine h2.trans (by norm_num)
  have e := rn_err_nat (natAbs_div (ci d)).le hN
  rw [← v2] at e
  have hm : |(ofDec d : F64).val| ≤ (ca (ci d) : ℕ) / TT := by
    have : |(ofDec d : F64).val| ≤ |(ofDec d : F64).val - (ci d : ℝ) / 10^46| + |(ci d : ℝ) / 10^46| := by
      have := abs_add_le ((ofDec d : F64).val - (ci d : ℝ) / 10^46) ((ci d : ℝ) / 10^46)
      simpa using this
    refine this.trans ?_
    refine (add_le_add e (natAbs_div (ci d)).le).trans ?_
    rw [← add_div]
    refine div_le_div_of_nonneg_right ?_ TT_pos.le
    have : (ci d).natAbs * 2^20 / 2^53 + 2 + (ci d).natAbs * 2^20 = ca (ci d) := by unfold ca; omega
    exact_mod_cast this.le
  refine ⟨fin_of_units hm ?_, hm, e⟩
  have h2 : ((ca (ci d) : ℕ) : ℝ) ≤ ((10^46 * 2^20 : ℕ) : ℝ) := by exact_mod_cast hb
  exact h2.trans (by norm_num)

theorem abs_RN_mul_le {h t : F64} (hh : h.isFin = true) (ht1 : |t.val| ≤ 1) : |RN (h.val * t.val)| ≤ |h.val| := by
  have : |h.val| = RN |h.val| := by rw [← RN_abs, RN_val (isFin_notNaN hh)]
  rw [this, RN_abs]
  refine RN_mono ?_
  rw [abs_mul]
  exact mul_le_of_le_one_right (abs_nonneg _) ht1

theorem flb_step {h t : F64} {H : ℝ} {A e : ℕ} {d : Int × Nat} (hF : FlB h H A e) (ht : t.isFin = true) (ht1 : |t.val| ≤ 1) (hd : d.2 ≤ 46)
    (hb : flA A (ci d) ≤ 10^46 * 2^20) : FlB (h * t + ofDec d) (H * t.val + (ci d : ℝ) / 10^46) (flA A (ci d)) (flE A e (ci d)) := by
  obtain ⟨f1, f2, f3⟩ := hF
  have hca : ca (ci d) ≤ 10^46 * 2^20 := le_trans (by unfold flA; omega) hb
  have hA : A + ca (ci d) ≤ 10^46 * 2^20 := le_trans (by unfold flA; omega) hb
  have hAr : ((A + ca (ci d) : ℕ) : ℝ) ≤ 10^100 := by
    have h2 : ((A + ca (ci d) : ℕ) : ℝ) ≤ ((10^46 * 2^20 : ℕ) : ℝ) := by exact_mod_cast hA
    exact h2.trans (by norm_num)
  have hA0 : (A : ℝ) ≤ 10^100 := by
    refine le_trans ?_ hAr
    exact_mod_cast Nat.le_add_right _ _
  obtain ⟨c1, c2, c3⟩ := flb_lit hd hca
  have M := mul_spec f1 ht
  have pm : |(h * t).val| ≤ A / TT := by rw [M.2.1]; exact (abs_RN_mul_le f1 ht1).trans f2
  have pf : (h * t).isFin = true := fin_of_units pm hA0
  have hx : |h.val * t.val| ≤ A / TT := by rw [abs_mul]; exact (mul_le_of_le_one_right (abs_nonneg _) ht1).trans f2
  have pe := rn_err_nat hx hA0
  rw [← M.2.1] at pe
  have S := add_spec pf c1
  have sm : |(h * t).val + (ofDec d : F64).val| ≤ ((A + ca (ci d) : ℕ) : ℝ) / TT := by
    refine (abs_add_le _ _).trans ?_
    push_cast; rw [add_div]; exact add_le_add pm c2
  have se := rn_err_nat sm hAr
  rw [← S.2] at se
  have hm : |(h * t + ofDec d).val| ≤ (flA A (ci d) : ℕ) / TT := by
    have := abs_add_le ((h * t + ofDec d).val - ((h * t).val + (ofDec d : F64).val)) ((h * t).val + (ofDec d : F64).val)
    rw [sub_add_cancel] at this
    refine this.trans ((add_le_add se sm).trans ?_)
    rw [← add_div]
    refine div_le_div_of_nonneg_right ?_ TT_pos.le
    have : (A + ca (ci d)) / 2^53 + 2 + (A + ca (ci d)) = flA A (ci d) := by unfold flA; omega
    exact_mod_cast this.le
  refine ⟨fin_of_units hm ?_, hm, ?_⟩
  · have h2 : ((flA A (ci d) : ℕ) : ℝ) ≤ ((10^46 * 2^20 : ℕ) : ℝ) := by exact_mod_cast hb
    exact h2.trans (by norm_num)
  · have e1 : (h * t + ofDec d).val - (H * t.val + (ci d : ℝ) / 10^46) =
        ((h * t + ofDec d).val - ((h * t).val + (ofDec d : F64).val)) + ((h * t).val - h.val * t.val) + (h.val - H) * t.val
          + ((ofDec d : F64).val - (ci d : ℝ) / 10^46) := by ring
    rw [e1]
    have e2 : |(h.val - H) * t.val| ≤ e / TT := by
      rw [abs_mul]; exact (mul_le_of_le_one_right (abs_nonneg _) ht1).trans f3
    refine (abs_add_le _ _).trans ((add_le_add ((abs_add_le _ _).trans (add_le_add ((abs_add_le _ _).trans (add_le_add se pe)) e2)) c3).trans ?_)
    rw [← add_div, ← add_div, ← add_div]
    refine div_le_div_of_nonneg_right ?_ TT_pos.le
    have : (A + ca (ci d)) / 2^53 + 2 + (A / 2^53 + 2) + e + ce (ci d) ≤ flE A e (ci d) := by
      unfold flE
      have : A / 2^53 ≤ (A + ca (ci d)) / 2^53 := Nat.div_le_div_right (Nat.le_add_right _ _)
      omega
    exact_mod_cast this

/-- the exact polynomial of a row -/
noncomputable def rowPolyR (r0 r1 : List (Int × Nat)) (t : ℝ) : ℝ :=
  horner10 t ((zc r1 7 : ℝ) / 10^46) ((zc r1 6 : ℝ) / 10^46) ((zc r1 5 : ℝ) / 10^46) ((zc r1 4 : ℝ) / 10^46) ((zc r1 3 : ℝ) / 10^46)
    ((zc r1 2 : ℝ) / 10^46) ((zc r1 1 : ℝ) / 10^46) ((zc r1 0 : ℝ) / 10^46) ((zc r0 1 : ℝ) / 10^46) ((zc r0 0 : ℝ) / 10^46)

theorem shape_get {r : List (Int × Nat)} (h : shapeOk r = true) (k : ℕ) : (r.getD k (0,0)).2 ≤ 46 := by
  unfold shapeOk at h
  rw [List.all_eq_true] at h
  rw [List.getD_eq_getElem?_getD]
  rcases hk : r[k]? with _ | d
  · simp
  · simp only [Option.getD_some]
    have := h d (List.mem_of_getElem? hk)
    exact Nat.le_of_ble_eq_true this

theorem flA_ge (A : ℕ) (z : ℤ) : A ≤ flA A z := by unfold flA; omega

theorem rowPoly_flb {r0 r1 : List (Int × Nat)} {t : F64} (h0 : shapeOk r0 = true) (h1 : shapeOk r1 = true) (hb : (flB r0 r1).1 ≤ 10^46 * 2^20)
    (ht : t.isFin = true) (ht1 : |t.val| ≤ 1) : FlB (rowPoly r0 r1 t) (rowPolyR r0 r1 t.val) (flB r0 r1).1 (flB r0 r1).2 := by
  unfold flB flStep at *
  simp only at *
  have b9 := hb
  have b8 := (flA_ge _ _).trans b9
  have b7 := (flA_ge _ _).trans b8
  have b6 := (flA_ge _ _).trans b7
  have b5 := (flA_ge _ _).trans b6
  have b4 := (flA_ge _ _).trans b5
  have b3 := (flA_ge _ _).trans b4
  have b2 := (flA_ge _ _).trans b3
  have b1 := (flA_ge _ _).trans b2
  have b0 := (flA_ge _ _).trans b1
  exact flb_step (flb_step (flb_step (flb_step (flb_step (flb_step (flb_step (flb_step (flb_step (flb_lit (shape_get h1 7) b0) ht ht1 (shape_get h1 6) b1)
    ht ht1 (shape_get h1 5) b2) ht ht1 (shape_get h1 4) b3) ht ht1 (shape_get h1 3) b4) ht ht1 (shape_get h1 2) b5) ht ht1 (shape_get h1 1) b6)
    ht ht1 (shape_get h1 0) b7) ht ht1 (shape_get h0 1) b8) ht ht1 (shape_get h0 0) b9

/-! ## The residual -/

theorem kap_bounds : (1.1283791670955125738 : ℝ) ≤ kap ∧ kap ≤ 1.1283791670955125739 := by
  unfold kap
  have h1 := Real.pi_gt_d20
  have h2 := Real.pi_lt_d20
  have hs : 0 < Real.sqrt Real.pi := Real.sqrt_pos.2 Real.pi_pos
  constructor
  · rw [le_div_iff₀ hs]
    have : Real.sqrt Real.pi ≤ 2 / 1.1283791670955125738 := by
      rw [Real.sqrt_le_left (by norm_num)]
      refine h2.le.trans (by norm_num)
    calc (1.1283791670955125738:ℝ) * Real.sqrt Real.pi ≤ 1.1283791670955125738 * (2 / 1.1283791670955125738) := by gcongr
      _ = 2 := by norm_num
  · rw [div_le_iff₀ hs]
    have : 2 / 1.1283791670955125739 ≤ Real.sqrt Real.pi := by
      refine Real.le_sqrt_of_sq_le (le_trans ?_ h1.le)
      norm_num
    calc (2:ℝ) = 1.1283791670955125739 * (2 / 1.1283791670955125739) := by norm_num
      _ ≤ 1.1283791670955125739 * Real.sqrt Real.pi := by gcongr

theorem abs_horner {a t b B A : ℝ} (ht : |t| ≤ 1) (ha : |a| ≤ A) (hb : |b| ≤ B) : |a + t * b| ≤ A + B := by
  refine (abs_add_le _ _).trans (add_le_add ha ?_)
  rw [abs_mul]
  exact (mul_le_of_le_one_left (abs_nonneg _) ht).trans hb

/-- derivative of the polynomial -/
noncomputable def dpoly (t c9 c8 c7 c6 c5 c4 c3 c2 c1 : ℝ) : ℝ :=
  c1 + t * (2 * c2 + t * (3 * c3 + t * (4 * c4 + t * (5 * c5 + t * (6 * c6 + t * (7 * c7 + t * (8 * c8 + t * (9 * c9))))))))

theorem horner10_deriv (c9 c8 c7 c6 c5 c4 c3 c2 c1 c0 t : ℝ) :
    HasDerivAt (fun t => horner10 t c9 c8 c7 c6 c5 c4 c3 c2 c1 c0) (dpoly t c9 c8 c7 c6 c5 c4 c3 c2 c1) t := by
  unfold horner10 dpoly
  have hid := hasDerivAt_id t
  have d1 := (hid.const_mul c9).add_const c8
  have d2 := (d1.mul hid).add_const c7
  have d3 := (d2.mul hid).add_const c6
  have d4 := (d3.mul hid).add_const c5
  have d5 := (d4.mul hid).add_const c4
  have d6 := (d5.mul hid).add_const c3
  have d7 := (d6.mul hid).add_const c2
  have d8 := (d7.mul hid).add_const c1
  have d9 := (d8.mul hid).add_const c0
  refine d9.congr_deriv ?_
  simp only [id, Pi.mul_apply]
  ring

theorem abs_intcast (z : ℤ) : |(z:ℝ)| ≤ (z.natAbs : ℝ) := by rw [Nat.cast_natAbs, Int.cast_abs]

theorem abs_intcast_neg (z : ℤ) : |-(z:ℝ)| ≤ (z.natAbs : ℝ) := by rw [abs_neg]; exact abs_intcast z

theorem resid (q n : ℕ) (c0 c1 c2 c3 c4 c5 c6 c7 c8 c9 : ℤ) {t : ℝ} (ht : |t| ≤ 1) :
    |dpoly t ((c9:ℝ)/10^46) ((c8:ℝ)/10^46) ((c7:ℝ)/10^46) ((c6:ℝ)/10^46) ((c5:ℝ)/10^46) ((c4:ℝ)/10^46) ((c3:ℝ)/10^46) ((c2:ℝ)/10^46) ((c1:ℝ)/10^46)
      - 2 * ((2:ℝ)^q / 2^10)^2 * (n + t) *
        horner10 t ((c9:ℝ)/10^46) ((c8:ℝ)/10^46) ((c7:ℝ)/10^46) ((c6:ℝ)/10^46) ((c5:ℝ)/10^46) ((c4:ℝ)/10^46) ((c3:ℝ)/10^46) ((c2:ℝ)/10^46) ((c1:ℝ)/10^46) ((c0:ℝ)/10^46)
      + (2:ℝ)^q / 2^10 * kap| ≤ (rhoN q n c0 c1 c2 c3 c4 c5 c6 c7 c8 c9 : ℝ) / TT := by
  rw [le_div_iff₀ TT_pos]
  nth_rewrite 1 [← abs_of_pos TT_pos]
  rw [← abs_mul]
  have hk : |((2^20 * c1 - 2 * 4^q * (n * c0) + 2^(q+10) * KAP : ℤ) : ℝ) + (2^(q+10) * (kap * 10^46 - KAP))| ≤
      (((2^20 * c1 - 2 * 4^q * (n * c0) + 2^(q+10) * KAP).natAbs : ℕ) : ℝ) + ((2^(q+10) * 10^27 : ℕ) : ℝ) := by
    refine (abs_add_le _ _).trans (add_le_add (abs_intcast _) ?_)
    rw [abs_mul, abs_of_pos (by positivity : (0:ℝ) < 2^(q+10))]
    push_cast
    refine mul_le_mul_of_nonneg_left ?_ (by positivity)
    have hb := kap_bounds
    unfold KAP
    push_cast
    rw [abs_le]
    constructor
    · nlinarith [hb.1]
    · nlinarith [hb.2]
  have A := abs_horner ht hk (abs_horner ht (abs_intcast (2^20 * (2 * c2) - 2 * 4^q * (n * c1 + c0)))
    (abs_horner ht (abs_intcast (2^20 * (3 * c3) - 2 * 4^q * (n * c2 + c1)))
    (abs_horner ht (abs_intcast (2^20 * (4 * c4) - 2 * 4^q * (n * c3 + c2)))
    (abs_horner ht (abs_intcast (2^20 * (5 * c5) - 2 * 4^q * (n * c4 + c3)))
    (abs_horner ht (abs_intcast (2^20 * (6 * c6) - 2 * 4^q * (n * c5 + c4)))
    (abs_horner ht (abs_intcast (2^20 * (7 * c7) - 2 * 4^q * (n * c6 + c5)))
    (abs_horner ht (abs_intcast (2^20 * (8 * c8) - 2 * 4^q * (n * c7 + c6)))
    (abs_horner ht (abs_intcast (2^20 * (9 * c9) - 2 * 4^q * (n * c8 + c7)))
    (abs_horner ht (abs_intcast_neg (2 * 4^q * (n * c9 + c8)))
      (abs_intcast_neg (2 * 4^q * c9)))))))))))
  refine le_trans (le_of_eq ?_) (A.trans (le_of_eq ?_))
  · congr 1
    have h4 : (4:ℝ)^q = (2^q)^2 := by rw [← pow_mul, mul_comm, pow_mul]; norm_num
    push_cast
    rw [h4, pow_add]
    unfold TT dpoly horner10
    field_simp
    ring
  · unfold rhoN
    push_cast
    ring

/-! ## All rows -/

theorem checkAll_get : ∀ (as bs : List (List (Int × Nat))) (es : List ℕ) (i : ℕ), checkAll i as bs es = true → ∀ k, k < as.length →
    rowCheck (i + k) (as.getD k []) (bs.getD k []) (as.getD (k+1) []) (bs.getD (k+1) []) (es.getD k 0) (es.getD (k+1) 0) = true := by
  intro as
  induction as with
  | nil => intro bs es i _ k hk; simp at hk
  | cons a as ih =>
    intro bs es i h k hk
    match bs, es with
    | [], _ => simp [checkAll] at h
    | _ :: _, [] => simp [checkAll] at h
    | _ :: _, [_] => simp [checkAll] at h
    | b :: bs, e :: e' :: es =>
      simp only [checkAll, Bool.and_eq_true] at h
      cases k with
      | zero =>
        have := h.1
        have e1 : (a :: as).getD (0+1) [] = as.headD [] := by cases as <;> rfl
        have e2 : (b :: bs).getD (0+1) [] = bs.headD [] := by cases bs <;> rfl
        rw [e1, e2]
        exact this
      | succ k =>
        have := ih bs (e' :: es) (i+1) h.2 k (by simpa using hk)
        rw [show i + (k+1) = i + 1 + k by ring]
        exact this

def row0 (i : ℕ) : List (Int × Nat) := cheb0Rows.getD i []
def row1 (i : ℕ) : List (Int × Nat) := cheb1Rows.getD i []
def errN (i : ℕ) : ℕ := erfcxErr.getD i 0

theorem row_ok {i : ℕ} (h : i < 448) : rowCheck i (row0 i) (row1 i) (row0 (i+1)) (row1 (i+1)) (errN i) (errN (i+1)) = true := by
  have := checkAll_get _ _ _ 0 checkAll_ok i (by rw [cheb0_len]; exact h)
  rw [zero_add] at this
  exact this

noncomputable def rowW (i : ℕ) : ℝ := (2:ℝ)^(i/64) / 2^10
def rowN (i : ℕ) : ℕ := 129 + 2 * (i % 64)
/-- the left end of row `i` -/
noncomputable def edge (i : ℕ) : ℝ := rowW i * ((rowN i : ℝ) - 1)

theorem edge_succ (i : ℕ) : rowW i * ((rowN i : ℝ) + 1) = edge (i+1) := by
  unfold edge rowW rowN
  by_cases h : i % 64 = 63
  · have h1 : (i+1) / 64 = i / 64 + 1 := by omega
    have h2 : (i+1) % 64 = 0 := by omega
    rw [h1, h2, h, pow_succ]; push_cast; ring
  · have h1 : (i+1) / 64 = i / 64 := by omega
    have h2 : (i+1) % 64 = i % 64 + 1 := by omega
    rw [h1, h2]; push_cast; ring

theorem rowPolyR_one (r0 r1 : List (Int × Nat)) : rowPolyR r0 r1 1 = (rowR r0 r1 : ℝ) / 10^46 := by
  unfold rowPolyR rowR horner10; push_cast; ring
theorem rowPolyR_neg_one (r0 r1 : List (Int × Nat)) : rowPolyR r0 r1 (-1) = (rowL r0 r1 : ℝ) / 10^46 := by
  unfold rowPolyR rowL horner10; push_cast; ring

theorem seam_jump (r0 r1 s0 s1 : List (Int × Nat)) : |rowPolyR r0 r1 1 - rowPolyR s0 s1 (-1)| = (rowJ r0 r1 s0 s1 : ℝ) / TT := by
  rw [rowPolyR_one, rowPolyR_neg_one, ← sub_div, ← Int.cast_sub, natAbs_div]
  unfold rowJ
  congr 2; ring

theorem rowW_pos (i : ℕ) : 0 < rowW i := by unfold rowW; positivity
theorem rowN_gt (i : ℕ) : (1:ℝ) < rowN i := by
  have : 1 < rowN i := by unfold rowN; omega
  exact_mod_cast this

theorem row_err {i : ℕ} {D : ℝ} (hD : |rowPolyR (row0 i) (row1 i) 1 - erfcxR (edge (i+1))| ≤ D) {t : ℝ} (h1 : -1 ≤ t) (h2 : t ≤ 1) :
    |rowPolyR (row0 i) (row1 i) t - erfcxR (rowW i * (rowN i + t))| ≤
      D * Real.exp ((rowW i * (rowN i + t))^2 - (rowW i * (rowN i + 1))^2) + 2 * ((rowRho i (row0 i) (row1 i) : ℝ) / TT) := by
  have := row_error (rowW_pos i) (rowN_gt i) (ρ := (rowRho i (row0 i) (row1 i) : ℝ) / TT) (fun t => horner10_deriv _ _ _ _ _ _ _ _ _ _ t)
    (fun t a b => resid (i/64) (rowN i) (zc (row0 i) 0) (zc (row0 i) 1) (zc (row1 i) 0) (zc (row1 i) 1) (zc (row1 i) 2) (zc (row1 i) 3) (zc (row1 i) 4)
      (zc (row1 i) 5) (zc (row1 i) 6) (zc (row1 i) 7) (abs_le.2 ⟨a, b⟩)) h1 h2
  refine this.trans (add_le_add ?_ le_rfl)
  refine mul_le_mul_of_nonneg_right ?_ (Real.exp_pos _).le
  rw [edge_succ]
  exact hD

theorem rowCheck_iff {i r0 r1 s0 s1 E E1} (h : rowCheck i r0 r1 s0 s1 E E1 = true) :
    shapeOk r0 = true ∧ shapeOk r1 = true ∧
    (E1 + rowJ r0 r1 s0 s1) * 2^20 + 2 * rowRho i r0 r1 * dampN i ≤ E * dampN i ∧
    (i < 417 → (E1 + rowJ r0 r1 s0 s1 + 2 * rowRho i r0 r1) * (10^14 + 1) + (flB r0 r1).2 * 10^14 + rowT r0 r1 * 2^20 ≤ (zc r0 0).toNat * 2^20) ∧
    (flB r0 r1).1 ≤ 10^46 * 2^20 ∧ (flB r0 r1).2 * (3 * 10^15) ≤ 10^46 * 2^20 ∧
    (i < 417 → rowJ r0 r1 s0 s1 * (5 * 10^15) ≤ 10^46 * 2^20 ∧ rowT r0 r1 * 400 ≤ 10^46) := by
  unfold rowCheck at h
  simp only [Bool.and_eq_true, Bool.or_eq_true] at h
  obtain ⟨⟨⟨⟨⟨⟨a, b⟩, c⟩, d⟩, e⟩, f⟩, g⟩ := h
  refine ⟨a, b, Nat.le_of_ble_eq_true c, fun hi => ?_, Nat.le_of_ble_eq_true e, Nat.le_of_ble_eq_true f, fun hi => ?_⟩
  · rcases d with d | d
    · have := Nat.le_of_ble_eq_true d; omega
    · exact Nat.le_of_ble_eq_true d
  · rcases g with g | g
    · have := Nat.le_of_ble_eq_true g; omega
    · exact ⟨Nat.le_of_ble_eq_true g.1, Nat.le_of_ble_eq_true g.2⟩

theorem right_err {i : ℕ} (hL : |rowPolyR (row0 (i+1)) (row1 (i+1)) (-1) - erfcxR (edge (i+1))| ≤ (errN (i+1) : ℝ) / TT) :
    |rowPolyR (row0 i) (row1 i) 1 - erfcxR (edge (i+1))| ≤ ((errN (i+1) + rowJ (row0 i) (row1 i) (row0 (i+1)) (row1 (i+1)) : ℕ) : ℝ) / TT := by
  have := abs_add_le (rowPolyR (row0 i) (row1 i) 1 - rowPolyR (row0 (i+1)) (row1 (i+1)) (-1))
    (rowPolyR (row0 (i+1)) (row1 (i+1)) (-1) - erfcxR (edge (i+1)))
  rw [sub_add_sub_cancel, seam_jump] at this
  refine this.trans ?_
  rw [Nat.cast_add, add_div]
  linarith

theorem damp {i : ℕ} : Real.exp ((rowW i * ((rowN i : ℝ) + -1))^2 - (rowW i * (rowN i + 1))^2) ≤ 2^20 / dampN i := by
  have e : (rowW i * ((rowN i : ℝ) + -1))^2 - (rowW i * (rowN i + 1))^2 = -(4 * (rowW i)^2 * rowN i) := by ring
  have hp : 0 ≤ 4 * (rowW i)^2 * (rowN i : ℝ) := by positivity
  rw [e, Real.exp_neg]
  have h := Real.add_one_le_exp (4 * (rowW i)^2 * (rowN i : ℝ))
  have hd : (dampN i : ℝ) = 2^20 * (4 * (rowW i)^2 * rowN i + 1) := by
    have h4 : (4:ℝ)^(i/64) = (2^(i/64))^2 := by rw [← pow_mul, mul_comm, pow_mul]; norm_num
    unfold dampN rowW rowN
    push_cast
    rw [h4]; ring
  rw [hd, div_mul_eq_div_div, div_self (by norm_num), one_div]
  exact inv_anti₀ (by linarith) h

theorem left_err : ∀ k, k ≤ 448 → |rowPolyR (row0 (448 - k)) (row1 (448 - k)) (-1) - erfcxR (edge (448 - k))| ≤ (errN (448 - k) : ℝ) / TT := by
  intro k
  induction k with
  | zero =>
    intro _
    have e1 : row0 448 = [] := by unfold row0; rw [List.getD_eq_getElem?_getD, List.getElem?_eq_none (by rw [cheb0_len])]; rfl
    have e2 : row1 448 = [] := by unfold row1; rw [List.getD_eq_getElem?_getD, List.getElem?_eq_none (by rw [cheb1_len])]; rfl
    have e3 : errN 448 = 10^46 * 2^20 := by decide +kernel
    have e4 : edge 448 = 16 := by unfold edge rowW rowN; norm_num
    have e5 : rowPolyR [] [] (-1) = 0 := by rw [rowPolyR_neg_one]; unfold rowL zc ci; simp
    have e6 : ((10^46 * 2^20 : ℕ) : ℝ) / TT = 1 := by unfold TT; norm_num
    rw [Nat.sub_zero, e1, e2, e3, e4, e5, e6, zero_sub, abs_neg, abs_of_pos (erfcxR_pos _)]
    refine (erfcxR_le (by norm_num)).trans ?_
    have := kap_bounds.2
    rw [div_le_one (by norm_num)]
    linarith
  | succ k ih =>
    intro hk
    have ih := ih (by omega)
    obtain ⟨i, hi⟩ : ∃ i, 448 - k = i + 1 := ⟨448 - k - 1, by omega⟩
    rw [hi] at ih
    rw [show 448 - (k+1) = i by omega]
    obtain ⟨-, -, c, -⟩ := rowCheck_iff (row_ok (i := i) (by omega))
    have R := row_err (right_err ih) (t := -1) le_rfl (by norm_num)
    have e7 : rowW i * ((rowN i : ℝ) + -1) = edge i := by unfold edge; ring
    have D := damp (i := i)
    rw [e7] at R D
    refine R.trans ?_
    refine (add_le_add (mul_le_mul_of_nonneg_left D (div_nonneg (Nat.cast_nonneg _) TT_pos.le)) le_rfl).trans ?_
    have hdp : (0:ℝ) < dampN i := by
      have : 0 < dampN i := by unfold dampN; positivity
      exact_mod_cast this
    have c' : ((errN (i+1) + rowJ (row0 i) (row1 i) (row0 (i+1)) (row1 (i+1)) : ℕ) : ℝ) * 2^20 + 2 * (rowRho i (row0 i) (row1 i) : ℝ) * dampN i ≤ errN i * dampN i := by
      exact_mod_cast c
    generalize ((errN (i+1) + rowJ (row0 i) (row1 i) (row0 (i+1)) (row1 (i+1)) : ℕ) : ℝ) = X at *
    generalize (rowRho i (row0 i) (row1 i) : ℝ) = Y at *
    have hT := TT_pos
    generalize TT = T at *
    have : X / T * (2^20 / dampN i) + 2 * (Y / T) = (X * 2^20 + 2 * Y * dampN i) / (dampN i) / T := by field_simp
    rw [this]
    refine div_le_div_of_nonneg_right ?_ hT.le
    rw [div_le_iff₀ hdp]; exact c'

/-- the error of row `i` anywhere in the row, in units -/
def supN (i : ℕ) : ℕ := errN (i+1) + rowJ (row0 i) (row1 i) (row0 (i+1)) (row1 (i+1)) + 2 * rowRho i (row0 i) (row1 i)

theorem row_sup {i : ℕ} (hi : i < 448) {t : ℝ} (h1 : -1 ≤ t) (h2 : t ≤ 1) :
    |rowPolyR (row0 i) (row1 i) t - erfcxR (rowW i * (rowN i + t))| ≤ (supN i : ℝ) / TT := by
  have L := left_err (448 - (i+1)) (by omega)
  rw [show 448 - (448 - (i+1)) = i+1 by omega] at L
  have R := row_err (right_err L) h1 h2
  refine R.trans ?_
  have : Real.exp ((rowW i * ((rowN i:ℝ) + t))^2 - (rowW i * (rowN i + 1))^2) ≤ 1 := by
    rw [Real.exp_le_one_iff]
    have hn := rowN_gt i
    have hw := rowW_pos i
    have a : rowW i * ((rowN i:ℝ) + t) ≤ rowW i * (rowN i + 1) := mul_le_mul_of_nonneg_left (by linarith) hw.le
    have b : 0 ≤ rowW i * ((rowN i:ℝ) + t) := mul_nonneg hw.le (by linarith)
    have := pow_le_pow_left₀ b a 2
    linarith
  have m := mul_le_of_le_one_right (a := ((errN (i+1) + rowJ (row0 i) (row1 i) (row0 (i+1)) (row1 (i+1)) : ℕ) : ℝ) / TT)
    (div_nonneg (Nat.cast_nonneg _) TT_pos.le) this
  refine (add_le_add m le_rfl).trans (le_of_eq ?_)
  unfold supN
  rw [Nat.cast_add _ (2 * _), add_div]
  push_cast
  ring

theorem row_lower (r0 r1 : List (Int × Nat)) {t : ℝ} (ht : |t| ≤ 1) :
    ((zc r0 0 : ℝ) - rowT r0 r1) / 10^46 ≤ rowPolyR r0 r1 t := by
  have A := abs_horner ht (abs_intcast (zc r0 1)) (abs_horner ht (abs_intcast (zc r1 0)) (abs_horner ht (abs_intcast (zc r1 1))
    (abs_horner ht (abs_intcast (zc r1 2)) (abs_horner ht (abs_intcast (zc r1 3)) (abs_horner ht (abs_intcast (zc r1 4))
    (abs_horner ht (abs_intcast (zc r1 5)) (abs_horner ht (abs_intcast (zc r1 6)) (abs_intcast (zc r1 7)))))))))
  have e : rowPolyR r0 r1 t = ((zc r0 0 : ℝ) + t * ((zc r0 1 : ℝ) + t * ((zc r1 0 : ℝ) + t * ((zc r1 1 : ℝ) + t * ((zc r1 2 : ℝ) + t * ((zc r1 3 : ℝ)
      + t * ((zc r1 4 : ℝ) + t * ((zc r1 5 : ℝ) + t * ((zc r1 6 : ℝ) + t * (zc r1 7 : ℝ)))))))))) / 10^46 := by
    unfold rowPolyR horner10; ring
  rw [e]
  refine div_le_div_of_nonneg_right ?_ (by positivity)
  have B : |t * ((zc r0 1 : ℝ) + t * ((zc r1 0 : ℝ) + t * ((zc r1 1 : ℝ) + t * ((zc r1 2 : ℝ) + t * ((zc r1 3 : ℝ)
      + t * ((zc r1 4 : ℝ) + t * ((zc r1 5 : ℝ) + t * ((zc r1 6 : ℝ) + t * (zc r1 7 : ℝ)))))))))| ≤ (rowT r0 r1 : ℝ) := by
    rw [abs_mul]
    refine (mul_le_of_le_one_left (abs_nonneg _) ht).trans (A.trans (le_of_eq ?_))
    unfold rowT; push_cast; ring
  have := (abs_le.1 B).1
  linarith

theorem rel_arith {X Y R z y P : ℝ} {m : ℕ} (hX : 0 ≤ X) (hY : 0 ≤ Y) (hR : 0 ≤ R) (hy : 0 < y) (hz : (m:ℝ) = z ∨ m = 0)
    (hc : X * (10^14 + 1) + Y * 10^14 + R * 2^20 ≤ (m:ℝ) * 2^20) (L : (z - R) / 10^46 ≤ P) (S : P - X / TT ≤ y) :
    X / TT + Y / TT ≤ y / 10^14 := by
  have hT := TT_pos
  rw [← add_div, div_le_iff₀ hT]
  have e3 : (z - R) / 10^46 = (z - R) * 2^20 / TT := by unfold TT; rw [mul_div_mul_right _ _ (by norm_num)]
  rw [e3] at L
  have e4 : (z - R) * 2^20 - X ≤ y * TT := by
    rw [← div_le_iff₀ hT, sub_div]; linarith
  have hp : 0 < y * TT := mul_pos hy hT
  clear e3 L S
  rw [div_mul_eq_mul_div, le_div_iff₀ (by norm_num)]
  generalize y * TT = Z at *
  rcases hz with hz | hz
  · rw [hz] at hc; linarith
  · rw [hz, Nat.cast_zero] at hc
    linarith

/-- The floating-point value of row `i` is within `10^-14` of `erfcx`, relatively. -/
theorem row_acc {i : ℕ} (hi : i < 417) {t : F64} (ht : t.isFin = true) (ht1 : |t.val| ≤ 1) :
    (rowPoly (row0 i) (row1 i) t).isFin = true ∧
    |(rowPoly (row0 i) (row1 i) t).val - erfcxR (rowW i * (rowN i + t.val))| ≤ erfcxR (rowW i * (rowN i + t.val)) / 10^14 ∧
    |(rowPoly (row0 i) (row1 i) t).val| ≤ 1 ∧
    |(rowPoly (row0 i) (row1 i) t).val - rowPolyR (row0 i) (row1 i) t.val| ≤ 1 / (3 * 10^15) := by
  obtain ⟨s0, s1, -, c, b, f, -⟩ := rowCheck_iff (row_ok (i := i) (by omega))
  have c := c hi
  obtain ⟨f1, f2, f3⟩ := rowPoly_flb s0 s1 b ht ht1
  have S := row_sup (i := i) (by omega) (abs_le.1 ht1).1 (abs_le.1 ht1).2
  have L := row_lower (row0 i) (row1 i) ht1
  have hT := TT_pos
  have fE : ((flB (row0 i) (row1 i)).2 : ℝ) / TT ≤ 1 / (3 * 10^15) := by
    rw [div_le_div_iff₀ hT (by norm_num), one_mul]
    have : (((flB (row0 i) (row1 i)).2 * (3 * 10^15) : ℕ) : ℝ) ≤ ((10^46 * 2^20 : ℕ) : ℝ) := by exact_mod_cast f
    push_cast at this
    unfold TT
    norm_num at this ⊢
    exact this
  refine ⟨f1, ?_, f2.trans ?_, f3.trans fE⟩
  · have c' : (supN i : ℝ) * (10^14 + 1) + ((flB (row0 i) (row1 i)).2 : ℝ) * 10^14 + (rowT (row0 i) (row1 i) : ℝ) * 2^20 ≤ (((zc (row0 i) 0).toNat : ℕ) : ℝ) * 2^20 := by
      exact_mod_cast c
    have hz : (zc (row0 i) 0).toNat = (zc (row0 i) 0 : ℝ) ∨ (zc (row0 i) 0).toNat = 0 := by
      by_cases h0 : 0 ≤ zc (row0 i) 0
      · left; exact_mod_cast Int.toNat_of_nonneg h0
      · right; omega
    set y := erfcxR (rowW i * (rowN i + t.val)) with hy
    have hy0 : 0 < y := erfcxR_pos _
    have e1 : |(rowPoly (row0 i) (row1 i) t).val - y| ≤ (supN i : ℝ) / TT + ((flB (row0 i) (row1 i)).2 : ℝ) / TT := by
      have := abs_add_le ((rowPoly (row0 i) (row1 i) t).val - rowPolyR (row0 i) (row1 i) t.val) (rowPolyR (row0 i) (row1 i) t.val - y)
      rw [sub_add_sub_cancel] at this
      linarith
    have hY : (0:ℝ) ≤ ((flB (row0 i) (row1 i)).2 : ℝ) := Nat.cast_nonneg _
    have hX : (0:ℝ) ≤ (supN i : ℝ) := Nat.cast_nonneg _
    have hR : (0:ℝ) ≤ rowT (row0 i) (row1 i) := Nat.cast_nonneg _
    exact e1.trans (rel_arith hX hY hR hy0 hz c' L (by linarith [(abs_le.1 S).2]))
  · rw [div_le_one hT]
    have : (((flB (row0 i) (row1 i)).1 : ℕ) : ℝ) ≤ ((10^46 * 2^20 : ℕ) : ℝ) := by exact_mod_cast b
    refine this.trans (le_of_eq ?_)
    unfold TT; norm_num

/-! ## Continuity -/

theorem dpoly_bound (r0 r1 : List (Int × Nat)) {t : ℝ} (ht : |t| ≤ 1) :
    |dpoly t ((zc r1 7 : ℝ) / 10^46) ((zc r1 6 : ℝ) / 10^46) ((zc r1 5 : ℝ) / 10^46) ((zc r1 4 : ℝ) / 10^46) ((zc r1 3 : ℝ) / 10^46)
      ((zc r1 2 : ℝ) / 10^46) ((zc r1 1 : ℝ) / 10^46) ((zc r1 0 : ℝ) / 10^46) ((zc r0 1 : ℝ) / 10^46)| ≤ 9 * (rowT r0 r1 : ℝ) / 10^46 := by
  have k : ∀ (m : ℝ) (z : ℤ), 0 ≤ m → m ≤ 9 → |m * ((z:ℝ) / 10^46)| ≤ 9 * (z.natAbs : ℝ) / 10^46 := by
    intro m z h0 h9
    rw [abs_mul, abs_of_nonneg h0, abs_div, abs_of_pos (by positivity : (0:ℝ) < 10^46), mul_div_assoc]
    exact mul_le_mul h9 (div_le_div_of_nonneg_right (abs_intcast z) (by positivity)) (by positivity) (by norm_num)
  have k1 : |((zc r0 1 : ℝ) / 10^46)| ≤ 9 * ((zc r0 1).natAbs : ℝ) / 10^46 := by
    have := k 1 (zc r0 1) (by norm_num) (by norm_num); rwa [one_mul] at this
  unfold dpoly
  refine (abs_horner ht k1 (abs_horner ht (k 2 _ (by norm_num) (by norm_num)) (abs_horner ht (k 3 _ (by norm_num) (by norm_num))
    (abs_horner ht (k 4 _ (by norm_num) (by norm_num)) (abs_horner ht (k 5 _ (by norm_num) (by norm_num)) (abs_horner ht (k 6 _ (by norm_num) (by norm_num))
    (abs_horner ht (k 7 _ (by norm_num) (by norm_num)) (abs_horner ht (k 8 _ (by norm_num) (by norm_num)) (k 9 _ (by norm_num) (by norm_num)))))))))).trans ?_
  unfold rowT
  push_cast
  refine le_of_eq ?_
  ring

theorem rowPolyR_lip (r0 r1 : List (Int × Nat)) {s t : ℝ} (hs : -1 ≤ s) (hst : s ≤ t) (ht : t ≤ 1) :
    |rowPolyR r0 r1 t - rowPolyR r0 r1 s| ≤ 9 * (rowT r0 r1 : ℝ) / 10^46 * (t - s) := by
  have := norm_image_sub_le_of_norm_deriv_le_segment' (f := rowPolyR r0 r1) (a := s) (b := t) (C := 9 * (rowT r0 r1 : ℝ) / 10^46)
    (fun u _ => (horner10_deriv _ _ _ _ _ _ _ _ _ _ u).hasDerivWithinAt)
    (fun u hu => dpoly_bound r0 r1 (abs_le.2 ⟨hs.trans hu.1, hu.2.le.trans ht⟩)) t ⟨hst, le_rfl⟩
  exact this

/-- Values of one row at coordinates `2^-45` apart are close. -/
theorem row_step {i : ℕ} (hi : i < 417) {s t : ℝ} (hs : -1 ≤ s) (hst : t = s + 1 / 2^45) (ht : t ≤ 1) :
    |rowPolyR (row0 i) (row1 i) t - rowPolyR (row0 i) (row1 i) s| ≤ 2 / (3 * 10^15) := by
  obtain ⟨-, -, -, -, -, -, g⟩ := rowCheck_iff (row_ok (i := i) (by omega))
  have h1 : (0:ℝ) < 1 / 2^45 := by positivity
  refine (rowPolyR_lip _ _ hs (by linarith) ht).trans ?_
  have g' : (rowT (row0 i) (row1 i) : ℝ) * 400 ≤ 10^46 := by exact_mod_cast (g hi).2
  have : (rowT (row0 i) (row1 i) : ℝ) / 10^46 ≤ 1 / 400 := by
    rw [div_le_div_iff₀ (by norm_num) (by norm_num)]; linarith
  rw [hst, add_sub_cancel_left, mul_div_assoc]
  generalize (rowT (row0 i) (row1 i) : ℝ) / 10^46 = R at *
  have : 9 * R * (1 / 2^45) ≤ 9 * (1/400) * (1 / 2^45) := by gcongr
  exact this.trans (by norm_num)

/-- Neighbouring rows agree at the seam. -/
theorem row_seam {i : ℕ} (hi : i < 417) : |rowPolyR (row0 i) (row1 i) 1 - rowPolyR (row0 (i+1)) (row1 (i+1)) (-1)| ≤ 1 / (5 * 10^15) := by
  obtain ⟨-, -, -, -, -, -, g⟩ := rowCheck_iff (row_ok (i := i) (by omega))
  rw [seam_jump, div_le_div_iff₀ TT_pos (by norm_num), one_mul]
  have : ((rowJ (row0 i) (row1 i) (row0 (i+1)) (row1 (i+1)) * (5 * 10^15) : ℕ) : ℝ) ≤ ((10^46 * 2^20 : ℕ) : ℝ) := by exact_mod_cast (g hi).1
  rw [Nat.cast_mul] at this
  refine le_trans (le_of_eq ?_) (this.trans (le_of_eq ?_))
  · congr 1; norm_num
  · unfold TT; norm_num

end Verif
