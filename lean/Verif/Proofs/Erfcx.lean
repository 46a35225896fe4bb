import Verif.Proofs.Error
import Verif.Proofs.Utils

/-! # Lemmas about the table look-up of erfcx (src/error.rs) -/

namespace Verif
open F64 OIv

theorem mag_ge_of_val {x c : F64} (hc : c.neg = false) (hx : x.neg = false) (h : c.val ≤ x.val) : c.mag ≤ x.mag := by
  rw [val_pos_form hc, val_pos_form hx] at h
  exact ivU_mono.1 h

theorem toSigned_nonneg {mx : Nat} {a : F64} (ha : a.isFin = true) (h0 : 0 < a.val) : toSigned mx a = (Nat.min ⌊a.val⌋₊ mx : ℕ) := by
  unfold toSigned
  rw [isFin_notNaN ha, isFin_notInf ha, imag_eq, abs_of_nonneg h0.le, neg_of_val_pos h0]
  simp

theorem dyadic_floor (n k : ℕ) : ⌊(n:ℝ) * 2^(-(k:ℤ))⌋₊ = n / 2^k := by
  have h := Nat.floor_div_eq_div (K := ℝ) n (2^k)
  rw [← h]; congr 1
  rw [zpow_neg, zpow_natCast, Nat.cast_pow]; rfl

/-- the table row and the reduced coordinate, in terms of the bit pattern -/
theorem chebIndex_eq {x : F64} (hneg : x.neg = false) (h1 : 1020 * 2^52 ≤ x.mag) (h2 : x.mag < 1027 * 2^52) :
    (chebIndex x).1 = ((x.mag / 2^46 : ℕ) : ℤ) - 65280 ∧ (chebIndex x).2.isFin = true ∧
    (chebIndex x).2.val = (((x.mag % 2^46 : ℕ) : ℤ) - 2^45 : ℤ) * (2:ℝ)^(-45:ℤ) := by
  have hz : x.isZero = false := by
    rcases h : x.isZero with _ | _
    · rfl
    · rw [isZero_iff] at h; omega
  unfold chebIndex
  simp only [ar_frexp, ar_toS, ar_ofInt]
  rw [frexp_eq hz]
  simp only
  set f := x.mag % 2^52 with hf
  have hf2 : f < 2^52 := Nat.mod_lt _ (by norm_num)
  have hmag : x.mag = (x.mag / 2^52) * 2^52 + f := by omega
  have hv := val_enc x.neg 0x3fe f (by norm_num) hf2 (by omega)
  have hm : (2^52 + f) < 2^53 := by omega
  set xm : F64 := ⟨x.neg, 0x3fe * 2^52 + f, by omega⟩ with hxm
  rw [hneg, if_neg Bool.false_ne_true, one_mul] at hv
  have hv' : xm.val = ((2^52 + f : ℕ) : ℝ) * (2:ℝ)^(-53:ℤ) := hv
  clear_value xm
  have fxm : xm.isFin = true := by
    rw [isFin_iff_val, hv', abs_of_nonneg (by positivity)]
    have hb : ((2^52 + f : ℕ) : ℝ) < 2^53 := by exact_mod_cast hm
    have h1' : ((2^52 + f : ℕ) : ℝ) * (2:ℝ)^(-53:ℤ) < 1 := by
      rw [zpow_neg, ← div_eq_mul_inv, div_lt_one (by positivity)]
      exact_mod_cast hm
    exact lt_of_lt_of_le h1' (le_trans (by norm_num) HUGE_ge)
  have e128 : (128.0 : F64).val = 128 := by
    have := val_of_int (x := (128.0 : F64)) 128 (by decide +kernel); rw [this]; norm_num
  have e256 : (256.0 : F64).val = 256 := by
    have := val_of_int (x := (256.0 : F64)) 256 (by decide +kernel); rw [this]; norm_num
  have scale : ∀ (m : ℕ) (k : ℕ), m ≤ 2^53 → k ≤ 46 → |((m:ℤ):ℝ) * (2:ℝ)^(-(k:ℤ))| ≤ HUGE ∧ RN ((m:ℝ) * (2:ℝ)^(-(k:ℤ))) = (m:ℝ) * (2:ℝ)^(-(k:ℤ)) := by
    intro m k hm hk
    have hb : |((m:ℤ):ℝ) * (2:ℝ)^(-(k:ℤ))| ≤ HUGE := by
      rw [abs_of_nonneg (by positivity)]
      have a1 : ((m:ℤ):ℝ) ≤ 2^53 := by exact_mod_cast hm
      have a2 : (2:ℝ)^(-(k:ℤ)) ≤ 1 := zpow_le_one_of_nonpos₀ (by norm_num) (by omega)
      have a3 : (0:ℝ) < (2:ℝ)^(-(k:ℤ)) := by positivity
      have a4 : ((m:ℤ):ℝ) * (2:ℝ)^(-(k:ℤ)) ≤ 2^53 * 1 := mul_le_mul a1 a2 a3.le (by positivity)
      exact a4.trans (le_trans (by norm_num) HUGE_ge)
    exact ⟨hb, by have := RN_dyadic (m:ℤ) (-(k:ℤ)) (by rw [abs_of_nonneg (by omega)]; exact_mod_cast hm) (by omega) hb; exact_mod_cast this⟩
  have S1 := Iv.mul_spec' (a := 128.0) (b := xm) (by decide +kernel) fxm
  have v1 : (128.0 * xm).val = ((2^52 + f : ℕ) : ℝ) * (2:ℝ)^(-((46:ℕ):ℤ)) := by
    rw [S1.2, e128, hv', show (128:ℝ) * (((2^52 + f : ℕ) : ℝ) * (2:ℝ)^(-53:ℤ)) = ((2^52 + f : ℕ) : ℝ) * (2:ℝ)^(-((46:ℕ):ℤ)) by
      rw [show (-((46:ℕ):ℤ)) = 7 + (-53) by norm_num, zpow_add₀ (by norm_num)]; norm_num; ring]
    exact (scale _ 46 hm.le (le_refl _)).2
  have f1 : (128.0 * xm).isFin = true := by
    refine abs_fin (b := 2^53) ?_ ?_ (by norm_num)
    · rw [v1]; have : (0:ℝ) ≤ ((2^52 + f : ℕ) : ℝ) * (2:ℝ)^(-((46:ℕ):ℤ)) := by positivity
      linarith
    · rw [v1]
      have a1 : ((2^52 + f : ℕ):ℝ) ≤ 2^53 := by exact_mod_cast hm.le
      have a2 : (2:ℝ)^(-((46:ℕ):ℤ)) ≤ 1 := zpow_le_one_of_nonpos₀ (by norm_num) (by omega)
      have a4 : ((2^52 + f : ℕ):ℝ) * (2:ℝ)^(-((46:ℕ):ℤ)) ≤ 2^53 * 1 := mul_le_mul a1 a2 (by positivity) (by positivity)
      linarith
  have hip : toSigned I32_MAX (128.0 * xm) = ((64 + f / 2^46 : ℕ) : ℤ) := by
    rw [toSigned_nonneg f1 (by rw [v1]; positivity), v1, dyadic_floor]
    congr 1
    show Min.min _ _ = _
    rw [Nat.min_eq_left]
    · omega
    · unfold I32_MAX; omega
  have S2 := Iv.mul_spec' (a := 256.0) (b := xm) (by decide +kernel) fxm
  have v2 : (256.0 * xm).val = ((2^52 + f : ℕ) : ℝ) * (2:ℝ)^(-((45:ℕ):ℤ)) := by
    rw [S2.2, e256, hv', show (256:ℝ) * (((2^52 + f : ℕ) : ℝ) * (2:ℝ)^(-53:ℤ)) = ((2^52 + f : ℕ) : ℝ) * (2:ℝ)^(-((45:ℕ):ℤ)) by
      rw [show (-((45:ℕ):ℤ)) = 8 + (-53) by norm_num, zpow_add₀ (by norm_num)]; norm_num; ring]
    exact (scale _ 45 hm.le (by norm_num)).2
  have f2 : (256.0 * xm).isFin = true := by
    refine abs_fin (b := 2^53) ?_ ?_ (by norm_num)
    · rw [v2]; have : (0:ℝ) ≤ ((2^52 + f : ℕ) : ℝ) * (2:ℝ)^(-((45:ℕ):ℤ)) := by positivity
      linarith
    · rw [v2]
      have a1 : ((2^52 + f : ℕ):ℝ) ≤ 2^53 := by exact_mod_cast hm.le
      have a2 : (2:ℝ)^(-((45:ℕ):ℤ)) ≤ 1 := zpow_le_one_of_nonpos₀ (by norm_num) (by omega)
      have a4 : ((2^52 + f : ℕ):ℝ) * (2:ℝ)^(-((45:ℕ):ℤ)) ≤ 2^53 * 1 := mul_le_mul a1 a2 (by positivity) (by positivity)
      linarith
  have hfd : f / 2^46 < 64 := by omega
  rw [hip]
  have S3 := ofInt_spec (1 + 2 * ((64 + f / 2^46 : ℕ) : ℤ))
  have v3 : (F64.ofInt (1 + 2 * ((64 + f / 2^46 : ℕ) : ℤ))).val = ((129 + 2 * (f / 2^46) : ℕ) : ℝ) := by
    rw [S3.2]
    have := RN_int (1 + 2 * ((64 + f / 2^46 : ℕ) : ℤ)) (by rw [abs_of_nonneg (by omega)]; omega)
    rw [this]; clear this S3 hip
    generalize f / 2^46 = q
    push_cast; ring
  have f3 : (F64.ofInt (1 + 2 * ((64 + f / 2^46 : ℕ) : ℤ))).isFin = true := by
    refine abs_fin (b := 2^53) ?_ ?_ (by norm_num)
    · rw [v3]; have : (0:ℝ) ≤ ((129 + 2 * (f / 2^46) : ℕ) : ℝ) := by positivity
      linarith
    · rw [v3]; have : 129 + 2 * (f / 2^46) ≤ 2^53 := by omega
      exact_mod_cast this
  have S4 := sub_spec f2 f3
  have hr : x.mag % 2^46 = f % 2^46 := by omega
  have hr2 : f % 2^46 < 2^46 := Nat.mod_lt _ (by norm_num)
  have hfe : f = 2^46 * (f / 2^46) + f % 2^46 := by omega
  have e4 : (256.0 * xm).val - (F64.ofInt (1 + 2 * ((64 + f / 2^46 : ℕ) : ℤ))).val = (((x.mag % 2^46 : ℕ) : ℤ) - 2^45 : ℤ) * (2:ℝ)^(-45:ℤ) := by
    have hfe' : ((2^52 + f : ℕ):ℝ) = ((2^52 + (2^46 * (f / 2^46) + f % 2^46) : ℕ):ℝ) := by rw [← hfe]
    rw [v2, v3, hr, hfe']
    generalize f / 2^46 = q
    generalize f % 2^46 = r
    rw [show (-((45:ℕ):ℤ)) = -45 by norm_num, show (2:ℝ)^(-45:ℤ) = 1/2^45 by rw [zpow_neg, one_div]; norm_cast]
    push_cast
    ring
  rw [e4] at S4
  have hd : RN ((((x.mag % 2^46 : ℕ) : ℤ) - 2^45 : ℤ) * (2:ℝ)^(-45:ℤ)) = (((x.mag % 2^46 : ℕ) : ℤ) - 2^45 : ℤ) * (2:ℝ)^(-45:ℤ) ∧
      |((((x.mag % 2^46 : ℕ) : ℤ) - 2^45 : ℤ):ℝ) * (2:ℝ)^(-45:ℤ)| ≤ 1 := by
    have a1 : |(((x.mag % 2^46 : ℕ) : ℤ) - 2^45 : ℤ)| ≤ 2^45 := by rw [abs_le]; omega
    have a2 : |((((x.mag % 2^46 : ℕ) : ℤ) - 2^45 : ℤ):ℝ) * (2:ℝ)^(-45:ℤ)| ≤ 1 := by
      rw [abs_mul, abs_of_pos (zpow_pos (by norm_num : (0:ℝ) < 2) _), zpow_neg, ← div_eq_mul_inv, div_le_one (by positivity)]
      have : ((|(((x.mag % 2^46 : ℕ) : ℤ) - 2^45 : ℤ)| : ℤ) : ℝ) ≤ ((2^45 : ℤ) : ℝ) := Int.cast_le.2 a1
      rw [Int.cast_abs] at this
      refine this.trans (le_of_eq ?_)
      push_cast; norm_cast
    exact ⟨RN_dyadic _ (-45) (a1.trans (by norm_num)) (by norm_num) (a2.trans (le_trans (by norm_num) HUGE_ge)), a2⟩
  rw [hd.1] at S4
  refine ⟨?_, ?_, S4.2⟩
  · omega
  · rw [isFin_iff_val, S4.2]
    exact lt_of_le_of_lt hd.2 (lt_of_lt_of_le (by norm_num) HUGE_ge)

/-! ## Table look-ups -/

theorem flatten_get {β : Type} {n : ℕ} : ∀ (L : List (List β)), (∀ r ∈ L, r.length = n) → ∀ (i k : ℕ), k < n →
    L.flatten[i * n + k]? = (L[i]?).bind (fun r => r[k]?) := by
  intro L
  induction L with
  | nil => intro _ i k _; simp
  | cons r L ih =>
    intro h i k hk
    have hr : r.length = n := h r (by simp)
    rw [List.flatten_cons]
    cases i with
    | zero =>
      rw [List.getElem?_append_left (by omega)]
      simp
    | succ i =>
      rw [List.getElem?_append_right (by rw [hr, Nat.succ_mul]; omega), hr, show (i+1) * n + k - n = i * n + k by rw [Nat.succ_mul]; omega,
        ih (fun r hr => h r (by simp [hr])) i k hk]
      simp

theorem cheb_shape : (cheb0Rows.all (fun r => r.length == 2) && cheb1Rows.all (fun r => r.length == 8) &&
    (cheb0Rows.length == 448) && (cheb1Rows.length == 448)) = true := by decide +kernel

theorem cheb0_len : cheb0Rows.length = 448 := by
  have := cheb_shape; simp only [Bool.and_eq_true, beq_iff_eq] at this; exact this.1.2
theorem cheb1_len : cheb1Rows.length = 448 := by
  have := cheb_shape; simp only [Bool.and_eq_true, beq_iff_eq] at this; exact this.2
theorem cheb0_row {r} (h : r ∈ cheb0Rows) : r.length = 2 := by
  have := cheb_shape; simp only [Bool.and_eq_true, beq_iff_eq, List.all_eq_true] at this; exact this.1.1.1 r h
theorem cheb1_row {r} (h : r ∈ cheb1Rows) : r.length = 8 := by
  have := cheb_shape; simp only [Bool.and_eq_true, beq_iff_eq, List.all_eq_true] at this; exact this.1.1.2 r h

/-- coefficient `k` of a table row -/
def rc {α : Type} [Neg α] [OfScientific α] (r : List (Int × Nat)) (k : ℕ) : α := ofDec (r.getD k (0, 0))

/-- the degree-9 polynomial of a table row -/
def rowPoly {α : Type} [Add α] [Mul α] [Neg α] [OfScientific α] (r0 r1 : List (Int × Nat)) (t : α) : α :=
  horner10 t (rc r1 7) (rc r1 6) (rc r1 5) (rc r1 4) (rc r1 3) (rc r1 2) (rc r1 1) (rc r1 0) (rc r0 1) (rc r0 0)

theorem lookup_row {rows : List (List (Int × Nat))} {n : ℕ} (h : ∀ r ∈ rows, r.length = n) {i k : ℕ} (hi : i < rows.length) (hk : k < n) (j : ℤ)
    (hj : j = (i:ℤ) * n + k) : lookup (rows.flatten.map (ofDec (α := F64))) j = .ok (rc rows[i] k) := by
  have e : rows.flatten[i * n + k]? = some (rows[i].getD k (0,0)) := by
    rw [flatten_get rows h i k hk, List.getElem?_eq_getElem hi]
    have hl : k < rows[i].length := by rw [h _ (List.getElem_mem hi)]; exact hk
    simp [List.getD_eq_getElem?_getD, List.getElem?_eq_getElem hl]
  have hj0 : 0 ≤ j := by rw [hj]; positivity
  have hjn : j.toNat = i * n + k := by rw [hj]; exact_mod_cast Int.toNat_natCast (i * n + k)
  unfold lookup
  rw [if_pos hj0, hjn, List.getElem?_map, e]
  rfl

theorem chebInterpolant_row {x : F64} (hneg : x.neg = false) (h1 : 1020 * 2^52 ≤ x.mag) (h2 : x.mag < 1027 * 2^52)
    (hi : x.mag / 2^46 - 65280 < 448) :
    chebInterpolant x = .ok (rowPoly (cheb0Rows[x.mag / 2^46 - 65280]'(by rw [cheb0_len]; exact hi))
      (cheb1Rows[x.mag / 2^46 - 65280]'(by rw [cheb1_len]; exact hi)) (chebIndex x).2) := by
  obtain ⟨c1, c2, c3⟩ := chebIndex_eq hneg h1 h2
  have hlij : (chebIndex x).1 = ((x.mag / 2^46 - 65280 : ℕ) : ℤ) := by rw [c1]; omega
  generalize hI : x.mag / 2^46 - 65280 = i at *
  have hi0 : i < cheb0Rows.length := by rw [cheb0_len]; exact hi
  have hi1 : i < cheb1Rows.length := by rw [cheb1_len]; exact hi
  have L0 := fun k (hk : k < 2) j hj => lookup_row (rows := cheb0Rows) (fun r => cheb0_row) hi0 hk j hj
  have L1 := fun k (hk : k < 8) j hj => lookup_row (rows := cheb1Rows) (fun r => cheb1_row) hi1 hk j hj
  unfold chebInterpolant CHEB0 CHEB1
  simp only [hlij]
  rw [if_neg (by push Not; constructor <;> positivity)]
  rw [L1 7 (by norm_num) _ (by push_cast; ring), L1 6 (by norm_num) _ (by push_cast; ring), L1 5 (by norm_num) _ (by push_cast; ring),
    L1 4 (by norm_num) _ (by push_cast; ring), L1 3 (by norm_num) _ (by push_cast; ring), L1 2 (by norm_num) _ (by push_cast; ring),
    L1 1 (by norm_num) _ (by push_cast; ring), L1 0 (by norm_num) _ (by push_cast; ring),
    L0 1 (by norm_num) _ (by push_cast; ring), L0 0 (by norm_num) _ (by push_cast; ring)]
  rfl

end Verif
