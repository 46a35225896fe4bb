import Verif.Proofs.ErfcxAcc

/-! # Value ranges of the branches of erfcx (src/error.rs) -/

namespace Verif
open F64 OIv

/-! ## The table -/

theorem lit_0125 : (0.125 : F64).mag = 1020 * 2^52 ∧ (0.125 : F64).neg = false ∧ (0.125 : F64).isNaN = false := by decide +kernel
theorem lit_12 : (12.0 : F64).mag = 65696 * 2^46 ∧ (12.0 : F64).neg = false ∧ (12.0 : F64).isNaN = false := by decide +kernel
theorem val_0125 : (0.125 : F64).val = 1/8 := by
  have := val_of_sv (x := (0.125 : F64)) 1 8 (by norm_num) (by decide +kernel); rw [this]; norm_num
theorem val_12 : (12.0 : F64).val = 12 := by
  have := val_of_int (x := (12.0 : F64)) 12 (by decide +kernel); rw [this]; norm_num

theorem row_coord {x : F64} (hneg : x.neg = false) (h1 : 1020 * 2^52 ≤ x.mag) {t : ℝ}
    (ht : t = (((x.mag % 2^46 : ℕ) : ℤ) - 2^45 : ℤ) * (2:ℝ)^(-45:ℤ)) :
    x.val = rowW (x.mag / 2^46 - 65280) * (rowN (x.mag / 2^46 - 65280) + t) := by
  rw [val_normal (by omega), hneg, if_neg Bool.false_ne_true, one_mul, ht]
  set f := x.mag % 2^46
  set g := x.mag / 2^46 - 65280 with hg
  have e1 : x.mag / 2^52 = 1020 + g / 64 := by omega
  have e2 : 2^52 + x.mag % 2^52 = 2^52 + 2^46 * (g % 64) + f := by omega
  rw [e1, e2]
  unfold rowW rowN
  have e3 : (((1020 + g/64 : ℕ) : ℤ) - 1075) = ((g/64 : ℕ) : ℤ) + (-55) := by omega
  rw [e3, zpow_add₀ (by norm_num), zpow_natCast]
  clear_value f g
  have a1 : (2:ℝ)^(-55:ℤ) = 1 / 2^55 := by rw [zpow_neg, one_div]; norm_cast
  have a2 : (2:ℝ)^(-45:ℤ) = 1 / 2^45 := by rw [zpow_neg, one_div]; norm_cast
  rw [a1, a2]
  generalize g / 64 = q
  generalize g % 64 = j
  push_cast
  ring

structure ChebOut (x v : F64) : Prop where
  fin : v.isFin = true
  acc : |v.val - erfcxR x.val| ≤ erfcxR x.val / 10^14
  le_one : v.val ≤ 1
  pos : 0 < v.val

theorem mag_range {x : F64} (h1 : 1/8 ≤ x.val) (h2 : x.val ≤ 12) :
    x.neg = false ∧ 1020 * 2^52 ≤ x.mag ∧ x.mag < 1027 * 2^52 ∧ x.mag / 2^46 - 65280 < 417 := by
  have hneg : x.neg = false := neg_of_val_pos (by linarith)
  have a := mag_ge_of_val lit_0125.2.1 hneg (by rw [val_0125]; exact h1)
  have b := mag_ge_of_val hneg lit_12.2.1 (by rw [val_12]; exact h2)
  rw [lit_0125.1] at a
  rw [lit_12.1] at b
  refine ⟨hneg, a, by omega, by omega⟩

theorem tcoord {x : F64} : |((((x.mag % 2^46 : ℕ) : ℤ) - 2^45 : ℤ) : ℝ) * (2:ℝ)^(-45:ℤ)| ≤ 1 := by
  have a1 : |(((x.mag % 2^46 : ℕ) : ℤ) - 2^45 : ℤ)| ≤ 2^45 := by rw [abs_le]; omega
  rw [abs_mul, abs_of_pos (zpow_pos (by norm_num : (0:ℝ) < 2) _), zpow_neg, ← div_eq_mul_inv, div_le_one (by positivity)]
  have : ((|(((x.mag % 2^46 : ℕ) : ℤ) - 2^45 : ℤ)| : ℤ) : ℝ) ≤ ((2^45 : ℤ) : ℝ) := Int.cast_le.2 a1
  rw [Int.cast_abs] at this
  refine this.trans (le_of_eq ?_)
  push_cast; norm_cast

theorem row0_get {i : ℕ} (h : i < 448) : cheb0Rows[i]'(by rw [cheb0_len]; exact h) = row0 i := by
  unfold row0; rw [List.getD_eq_getElem?_getD, List.getElem?_eq_getElem (by rw [cheb0_len]; exact h)]; rfl
theorem row1_get {i : ℕ} (h : i < 448) : cheb1Rows[i]'(by rw [cheb1_len]; exact h) = row1 i := by
  unfold row1; rw [List.getD_eq_getElem?_getD, List.getElem?_eq_getElem (by rw [cheb1_len]; exact h)]; rfl

/-- the exact polynomial of row `i` -/
noncomputable def PR (i : ℕ) (t : ℝ) : ℝ := rowPolyR (row0 i) (row1 i) t
/-- row and coordinate of `x` -/
def rowOf (x : F64) : ℕ := x.mag / 2^46 - 65280
noncomputable def tOf (x : F64) : ℝ := (((x.mag % 2^46 : ℕ) : ℤ) - 2^45 : ℤ) * (2:ℝ)^(-45:ℤ)

theorem pos_of_acc {v y : ℝ} (hp : 0 < y) (h : |v - y| ≤ y / 10^14) : 0 < v := by
  have := (abs_le.1 h).1
  have : y / 10^14 ≤ y / 2 := by gcongr; norm_num
  linarith

theorem cheb_at {x : F64} (h1 : 1/8 ≤ x.val) (h2 : x.val ≤ 12) : ∃ v, chebInterpolant x = .ok v ∧ ChebOut x v ∧
    |v.val - PR (rowOf x) (tOf x)| ≤ 1 / (3 * 10^15) := by
  obtain ⟨hneg, a, b, c⟩ := mag_range h1 h2
  have hi : x.mag / 2^46 - 65280 < 448 := by omega
  have e := chebInterpolant_row hneg a b hi
  rw [row0_get hi, row1_get hi] at e
  obtain ⟨-, t1, t2⟩ := chebIndex_eq hneg a b
  have ht := tcoord (x := x)
  rw [← t2] at ht
  obtain ⟨r1, r2, r3, r4⟩ := row_acc c t1 ht
  have hx := row_coord hneg a t2
  rw [← hx] at r2
  rw [t2] at r4
  refine ⟨_, e, ⟨r1, r2, (abs_le.1 r3).2, ?_⟩, r4⟩
  exact pos_of_acc (erfcxR_pos x.val) r2

theorem z45 : (2:ℝ)^(-45:ℤ) = 1 / 2^45 := by
  rw [show (-45:ℤ) = -((45:ℕ):ℤ) by norm_num, zpow_neg, zpow_natCast, one_div]

theorem pr_adjacent {x y : F64} (hxy : x.mag = y.mag + 1) (hl : 65280 * 2^46 ≤ y.mag) (c : rowOf y < 417) :
    |PR (rowOf x) (tOf x) - PR (rowOf y) (tOf y)| ≤ 2 / (3 * 10^15) + 1 / (5 * 10^15) := by
  have tx : |tOf x| ≤ 1 := tcoord (x := x)
  have ty : |tOf y| ≤ 1 := tcoord (x := y)
  by_cases hs : x.mag % 2^46 = 0
  · have e1 : rowOf x = rowOf y + 1 := by unfold rowOf; omega
    have e2 : y.mag % 2^46 = 2^46 - 1 := by omega
    have e3 : tOf x = -1 := by unfold tOf; rw [hs, z45]; norm_num
    have e4 : tOf y + 1 / 2^45 = 1 := by unfold tOf; rw [e2, z45]; norm_num
    rw [e1, e3]
    generalize rowOf y = i at *
    have S : |PR i 1 - PR (i+1) (-1)| ≤ _ := row_seam c
    have T : |PR i 1 - PR i (tOf y)| ≤ _ := row_step c (abs_le.1 ty).1 e4.symm le_rfl
    have := abs_add_le (PR (i+1) (-1) - PR i 1) (PR i 1 - PR i (tOf y))
    rw [sub_add_sub_cancel, abs_sub_comm (PR (i+1) (-1)) (PR i 1)] at this
    refine this.trans ((add_le_add S T).trans (by norm_num))
  · have e1 : rowOf x = rowOf y := by unfold rowOf; omega
    have e2 : x.mag % 2^46 = y.mag % 2^46 + 1 := by omega
    have e3 : tOf x = tOf y + 1 / 2^45 := by
      unfold tOf
      rw [e2, z45]; generalize y.mag % 2^46 = m; push_cast; ring
    have T : |PR (rowOf y) (tOf x) - PR (rowOf y) (tOf y)| ≤ _ := row_step c (abs_le.1 ty).1 e3 (abs_le.1 tx).2
    rw [e1]
    exact T.trans (by norm_num)

theorem adj_arith {v w X Y : ℝ} (h1 : |v - X| ≤ 1 / (3 * 10^15)) (h2 : |w - Y| ≤ 1 / (3 * 10^15)) (h3 : |X - Y| ≤ 2 / (3 * 10^15) + 1 / (5 * 10^15)) :
    |v - w| ≤ 1 / 2^49 := by
  have t1 := abs_add_le (v - X) (X - Y)
  rw [sub_add_sub_cancel] at t1
  have t2 := abs_add_le (v - Y) (Y - w)
  rw [sub_add_sub_cancel] at t2
  rw [abs_sub_comm] at h2
  have : (1:ℝ) / (3 * 10^15) + (2 / (3 * 10^15) + 1 / (5 * 10^15)) + 1 / (3 * 10^15) ≤ 1 / 2^49 := by norm_num
  linarith

/-- neighbouring floats in the table's range have close values -/
theorem cheb_adjacent {x y : F64} (h1 : 1/8 ≤ y.val) (h2 : x.val ≤ 12) (hxy : x.mag = y.mag + 1) (hx : x.neg = false) {v w : F64}
    (hv : chebInterpolant x = .ok v) (hw : chebInterpolant y = .ok w) : |v.val - w.val| ≤ 1 / 2^49 := by
  have hy : y.neg = false := neg_of_val_pos (lt_of_lt_of_le (by norm_num) h1)
  have hle : y.val ≤ x.val := by
    rw [val_pos_form hy, val_pos_form hx]; exact ivU_mono.2 (by omega)
  obtain ⟨v', ev, -, fv⟩ := cheb_at (x := x) (h1.trans hle) h2
  obtain ⟨w', ew, -, fw⟩ := cheb_at (x := y) h1 (hle.trans h2)
  rw [hv] at ev; rw [hw] at ew
  injection ev with ev
  injection ew with ew
  subst ev; subst ew
  obtain ⟨-, a', b', c'⟩ := mag_range (x := y) h1 (hle.trans h2)
  exact adj_arith fv fw (pr_adjacent hxy (by omega) c')

/-! ## The other branches -/

def macO (x : OIv) : OIv :=
  (((((((((((((1.984126984126984e-4 * x - 5.344009079373427e-4)
    * x + 1.388888888888889e-3)
    * x - 3.4736059015927274e-3)
    * x + 8.333333333333333e-3)
    * x - 1.910483245876e-2)
    * x + 4.1666666666666664e-2)
    * x - 8.597174606442e-2)
    * x + 1.6666666666666666e-1)
    * x - 3.0090111122547003e-1)
    * x + 5e-1)
    * x - 7.522527780636751e-1)
    * x + 1.0)
    * x - pt Arith.frac2SqrtPi)
    * x + 1.0

theorem rel_mac {I : OIv} {x : F64} (h : Encl I x) : Encl (macO I) (erfcxMaclaurin x) := by
  unfold macO erfcxMaclaurin
  have L := fun m s e => rel_lit m s e
  exact rel_add (rel_mul (rel_sub (rel_mul (rel_add (rel_mul (rel_sub (rel_mul (rel_add (rel_mul (rel_sub (rel_mul (rel_add (rel_mul (rel_sub (rel_mul
    (rel_add (rel_mul (rel_sub (rel_mul (rel_add (rel_mul (rel_sub (rel_mul (rel_add (rel_mul (rel_sub (rel_mul (L _ _ _) h) (L _ _ _)) h) (L _ _ _)) h) (L _ _ _))
    h) (L _ _ _)) h) (L _ _ _)) h) (L _ _ _)) h) (L _ _ _)) h) (L _ _ _)) h) (L _ _ _)) h) (L _ _ _)) h) (L _ _ _)) h) (L _ _ _)) h) (rel_pt _)) h) (L _ _ _)

theorem mac_range {x : F64} (h : |x.val| ≤ 1/8) : (erfcxMaclaurin x).isFin = true ∧ 1/2 ≤ (erfcxMaclaurin x).val ∧ (erfcxMaclaurin x).val ≤ 2 := by
  have h' := abs_le.1 h
  have e : Encl (mk2 (-0.125) 0.125) x := rel_mk2 (by rw [val_neg, val_0125]; exact h'.1) (by rw [val_0125]; exact h'.2)
  have := rel_inside (rel_mac e) (l := 0.5) (h := 2.0) (by decide +kernel)
  rwa [half_val, two_val] at this

def asy10O (r : OIv) : OIv :=
  ((((((((((3.607337150008376e5 * (r * r)
    - 3.7971970000088164e4) * (r * r)
    + 4.467290588245667e3) * (r * r)
    - 5.956387450994222e2) * (r * r)
    + 9.163673001529573e1) * (r * r)
    - 1.6661223639144676e1) * (r * r)
    + 3.7024941420321507) * (r * r)
    - 1.057855469152043) * (r * r)
    + 4.2314218766081724e-1) * (r * r)
    - 2.8209479177387814e-1) * (r * r)
    + 5.641895835477563e-1) * r
def asy6O (r : OIv) : OIv :=
  ((((((9.163673001529573e1 * (r * r) - 1.6661223639144676e1) * (r * r)
    + 3.7024941420321507) * (r * r)
    - 1.057855469152043) * (r * r)
    + 4.2314218766081724e-1) * (r * r)
    - 2.8209479177387814e-1) * (r * r)
    + 5.641895835477563e-1) * r
def asy3O (r : OIv) : OIv :=
  ((((-1.057855469152043) * (r * r) + 4.2314218766081724e-1) * (r * r)
    - 2.8209479177387814e-1) * (r * r)
    + 5.641895835477563e-1) * r

theorem rel_asy10 {I : OIv} {x : F64} (h : Encl I x) : Encl (asy10O I) (erfcxAsy10 x) := by
  unfold asy10O erfcxAsy10
  have L := fun m s e => rel_lit m s e
  have h2 := rel_mul h h
  exact rel_mul (rel_add (rel_mul (rel_sub (rel_mul (rel_add (rel_mul (rel_sub (rel_mul (rel_add (rel_mul (rel_sub (rel_mul (rel_add (rel_mul (rel_sub (rel_mul
    (rel_add (rel_mul (rel_sub (rel_mul (L _ _ _) h2) (L _ _ _)) h2) (L _ _ _)) h2) (L _ _ _)) h2) (L _ _ _)) h2) (L _ _ _)) h2) (L _ _ _)) h2) (L _ _ _)) h2)
    (L _ _ _)) h2) (L _ _ _)) h2) (L _ _ _)) h
theorem rel_asy6 {I : OIv} {x : F64} (h : Encl I x) : Encl (asy6O I) (erfcxAsy6 x) := by
  unfold asy6O erfcxAsy6
  have L := fun m s e => rel_lit m s e
  have h2 := rel_mul h h
  exact rel_mul (rel_add (rel_mul (rel_sub (rel_mul (rel_add (rel_mul (rel_sub (rel_mul (rel_add (rel_mul (rel_sub (rel_mul
    (L _ _ _) h2) (L _ _ _)) h2) (L _ _ _)) h2) (L _ _ _)) h2) (L _ _ _)) h2) (L _ _ _)) h2) (L _ _ _)) h
theorem rel_asy3 {I : OIv} {x : F64} (h : Encl I x) : Encl (asy3O I) (erfcxAsy3 x) := by
  unfold asy3O erfcxAsy3
  have L := fun m s e => rel_lit m s e
  have h2 := rel_mul h h
  exact rel_mul (rel_add (rel_mul (rel_sub (rel_mul (rel_add (rel_mul (rel_neg (L _ _ _)) h2) (L _ _ _)) h2) (L _ _ _)) h2) (L _ _ _)) h

theorem asy_range {x : F64} (h1 : 12 ≤ x.val) (h2 : x.val ≤ (6.9e7 : F64).val) :
    ((erfcxAsy10 (1.0 / x)).isFin = true ∧ 0 < (erfcxAsy10 (1.0 / x)).val ∧ (erfcxAsy10 (1.0 / x)).val ≤ 1) ∧
    ((erfcxAsy6 (1.0 / x)).isFin = true ∧ 0 < (erfcxAsy6 (1.0 / x)).val ∧ (erfcxAsy6 (1.0 / x)).val ≤ 1) ∧
    ((erfcxAsy3 (1.0 / x)).isFin = true ∧ 0 < (erfcxAsy3 (1.0 / x)).val ∧ (erfcxAsy3 (1.0 / x)).val ≤ 1) := by
  have e : Encl (mk2 12.0 6.9e7) x := rel_mk2 (by rw [val_12]; exact h1) h2
  have o1 : Encl 1.0 (1.0:F64) := rel_lit _ _ _
  have r := rel_div o1 e
  have k : (0:ℝ) < (1e-10 : F64).val := by
    have := le_val_of_sv (x := (1e-10 : F64)) 1 (10^11) (by norm_num) (by decide +kernel)
    refine lt_of_lt_of_le ?_ this; norm_num
  have a := rel_inside (rel_asy10 r) (l := 1e-10) (h := 1.0) (by decide +kernel)
  have b := rel_inside (rel_asy6 r) (l := 1e-10) (h := 1.0) (by decide +kernel)
  have c := rel_inside (rel_asy3 r) (l := 1e-10) (h := 1.0) (by decide +kernel)
  rw [one_val] at a b c
  exact ⟨⟨a.1, lt_of_lt_of_le k a.2.1, a.2.2⟩, ⟨b.1, lt_of_lt_of_le k b.2.1, b.2.2⟩, ⟨c.1, lt_of_lt_of_le k c.2.1, c.2.2⟩⟩

end Verif
