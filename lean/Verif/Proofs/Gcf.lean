import Verif.Proofs.IncGamma3

/-! # The continued fraction of `gcf`: every convergent is a positive number -/

namespace Verif
open F64 OIv

theorem ofNat_val {n : Nat} (h : n ≤ 2^53) : (F64.ofNat n).isFin = true ∧ (F64.ofNat n).val = n := by
  obtain ⟨h1, h2, h3⟩ := ofNat_spec n
  rw [RN_nat n h] at h2
  refine ⟨?_, h2⟩
  refine isFin_of_abs (b := 2^53) ?_ (by norm_num)
  rw [h2, abs_of_nonneg (Nat.cast_nonneg _)]; exact_mod_cast h

theorem lit2 : (2.0 : F64).isFin = true ∧ (2.0 : F64).val = 2 := by
  refine ⟨by decide +kernel, ?_⟩
  have := val_of_int (x := (2.0 : F64)) 2 (by decide +kernel); rw [this]; norm_num

theorem RN_le_half {r : ℝ} (i : ℤ) (hi : |i| ≤ 2^53) (h : r ≤ (i:ℝ)/2) : RN r ≤ (i:ℝ)/2 := by
  rw [← RN_half i hi]; exact RN_mono h
theorem RN_ge_half {r : ℝ} (i : ℤ) (hi : |i| ≤ 2^53) (h : (i:ℝ)/2 ≤ r) : (i:ℝ)/2 ≤ RN r := by
  rw [← RN_half i hi]; exact RN_mono h

theorem FPMIN_small : (FPMIN : F64).isFin = true ∧ (FPMIN : F64).val ≤ 1/4 := by
  refine ⟨by decide +kernel, ?_⟩
  have := val_le_of_sv (x := (FPMIN : F64)) 1 4 (by norm_num) (by decide +kernel)
  push_cast at this; exact this

theorem guardTiny_id {d : F64} (hd : d.isFin = true) (h : 1/2 ≤ d.val) : guardTiny d = d := by
  unfold guardTiny
  have : F64.lt (F64.abs d) FPMIN = false := by
    rw [lt_false_iff (by exact isFin_notNaN hd) (isFin_notNaN FPMIN_small.1), val_abs, abs_of_nonneg (by linarith)]
    linarith [FPMIN_small.2]
  rw [ar_lt, ar_abs, this, if_neg Bool.false_ne_true]

theorem RN_up_small {r : ℝ} (h0 : 0 ≤ r) (h1 : r ≤ 1) : RN r ≤ r + 1 / 2^51 := by
  have derr := RN_err' (x := r) (by
    rw [abs_of_nonneg h0]
    have := HUGE_ge
    have h2 : (2:ℝ) ≤ 10^200 := by norm_num
    linarith)
  have t1075 : (1:ℝ) / 2^1075 ≤ 1 / 2^80 := one_div_le_one_div_of_le (by positivity) (pow_le_pow_right₀ (by norm_num) (by norm_num))
  have h3 := (abs_le.1 derr).2
  rw [abs_of_nonneg h0] at h3
  have h6 := h3.trans (add_le_add_right t1075 _)
  clear derr h3 t1075
  norm_num at h6 ⊢; linarith

namespace GcfR
theorem r1 {i v : ℝ} (h0 : 0 ≤ i) (h : v ≤ i) : -i^2 ≤ -i * v := by nlinarith
theorem r2 {i v : ℝ} (h0 : 0 ≤ i) (h : i - 100 ≤ v) : -i * v ≤ 100 * i := by nlinarith
theorem r3 {i n d : ℝ} (h0 : 0 < d) (hn : -i^2 ≤ n) (h : i^2 * d ≤ i + 1) : -(i + 1) ≤ n * d := by nlinarith
theorem r4 {i n d : ℝ} (hi : 1 ≤ i) (h0 : 0 < d) (h2 : d ≤ 2) (hn : n ≤ 100 * i) : n * d ≤ 200 * i := by nlinarith
theorem r5 {i n c : ℝ} (hi : 1 ≤ i) (hn : -i^2 ≤ n) (hc : i - 1/2 ≤ c) : -(i + 1) * c ≤ n := by nlinarith
theorem r6 {i n c : ℝ} (hi : 1 ≤ i) (hn : n ≤ 100 * i) (hc : i - 1/2 ≤ c) : n ≤ 200 * i * c := by nlinarith
theorem r7 {d c : ℝ} (hd : 0 < d) (hd2 : d ≤ 2) (hc0 : 0 ≤ c) (hc : c ≤ 10^7) : d * c ≤ 10^9 := by nlinarith
theorem r8 {i : ℝ} (h0 : 0 ≤ i) (h : i ≤ 10000) : (i + 1)^2 ≤ 1/4 * 2^51 := by nlinarith
end GcfR

/-- invariant of the loop of `gcf` at counter `i` -/
structure GcfInv (i : Nat) (b c d h : F64) : Prop where
  bf : b.isFin = true
  b1 : 2 * (i:ℝ) - 1/2 ≤ b.val
  b2 : b.val ≤ 2 * (i:ℝ) + 510
  cf : c.isFin = true
  c1 : (i:ℝ) - 1/2 ≤ c.val
  df : d.isFin = true
  d0 : 0 < d.val
  d1 : (i:ℝ)^2 * d.val ≤ i + 1
  d2 : d.val ≤ 2
  h1 : PN h

theorem gcf_step' {a : F64} (ha0 : 0 < a.val) (ha1 : a.val ≤ 100) {i : Nat} (hi : 1 ≤ i) (hi2 : i ≤ 10000) {b c d h : F64} (I : GcfInv i b c d h)
    {an b' D c' d' del h' : F64} (ean : an = -(F64.ofNat i) * (F64.ofNat i - a)) (eb : b' = b + 2.0) (eD0 : D = guardTiny (an * d + b'))
    (ec0 : c' = guardTiny (b' + an / c)) (ed0 : d' = 1.0 / D) (edel : del = d' * c') (eh : h' = h * del) :
    GcfInv (i+1) b' c' d' h' := by
  have fa : a.isFin = true := abs_fin (b := 100) (by linarith) ha1 (by norm_num)
  have i0 : (1:ℝ) ≤ i := by exact_mod_cast hi
  have i1 : (i:ℝ) ≤ 10000 := by exact_mod_cast hi2
  obtain ⟨nf, nv⟩ := ofNat_val (n := i) (by omega)
  have nf' : (-(F64.ofNat i)).isFin = true := by rw [isFin_neg]; exact nf
  -- i - a
  have s := sub_spec nf fa
  have s1 : (F64.ofNat i - a).val ≤ i := by
    rw [s.2, ← nv]; exact RN_le_of_le (isFin_notNaN nf) (by linarith)
  have s2 : (i:ℝ) - 100 ≤ (F64.ofNat i - a).val := by
    rw [s.2, nv]
    have := RN_ge_int (r := (i:ℝ) - a.val) ((i:ℤ) - 100) (by rw [abs_le]; constructor <;> omega) (by push_cast; linarith)
    push_cast at this; exact this
  have sf : (F64.ofNat i - a).isFin = true := abs_fin (b := 10^6) (by linarith) (by linarith) (by norm_num)
  -- an
  have m := Iv.mul_spec' nf' sf
  rw [val_neg, nv] at m
  have an1 : -(i:ℝ)^2 ≤ an.val := by
    rw [ean, m.2]
    have := RN_ge_int (r := -(i:ℝ) * (F64.ofNat i - a).val) (-(i:ℤ)^2) (by
      rw [abs_neg, abs_of_nonneg (by positivity)]
      have : (i:ℤ) ≤ 10000 := by omega
      have h2 : (i:ℤ)^2 ≤ 10000^2 := pow_le_pow_left₀ (by omega) this 2
      omega) (by push_cast; exact GcfR.r1 (by linarith) s1)
    push_cast at this; exact this
  have an2 : an.val ≤ 100 * (i:ℝ) := by
    rw [ean, m.2]
    have := RN_le_int (r := -(i:ℝ) * (F64.ofNat i - a).val) (100 * (i:ℤ)) (by
      rw [abs_of_nonneg (by positivity)]; omega) (by push_cast; exact GcfR.r2 (by linarith) s2)
    push_cast at this; exact this
  have isq : (i:ℝ)^2 ≤ 10000^2 := pow_le_pow_left₀ (by linarith) i1 2
  have anf : an.isFin = true := abs_fin (b := 10^9) (by linarith) (by linarith) (by norm_num)
  -- b'
  have hb := add_spec I.bf lit2.1
  rw [lit2.2] at hb
  have b1' : 2 * ((i:ℝ) + 1) - 1/2 ≤ b'.val := by
    rw [eb, hb.2]
    have := RN_ge_half (r := b.val + 2) (4 * (i:ℤ) + 3) (by rw [abs_of_nonneg (by positivity)]; omega) (by push_cast; linarith [I.b1])
    push_cast at this; linarith
  have b2' : b'.val ≤ 2 * ((i:ℝ) + 1) + 510 := by
    rw [eb, hb.2]
    have := RN_le_int (r := b.val + 2) (2 * (i:ℤ) + 512) (by rw [abs_of_nonneg (by positivity)]; omega) (by push_cast; linarith [I.b2])
    push_cast at this; linarith
  have bf' : b'.isFin = true := abs_fin (b := 10^6) (by linarith) (by linarith) (by norm_num)
  -- an * d
  have hm := Iv.mul_spec' anf I.df
  have ad1 : -((i:ℝ) + 1) ≤ (an * d).val := by
    rw [hm.2]
    have := RN_ge_int (r := an.val * d.val) (-((i:ℤ) + 1)) (by rw [abs_neg, abs_of_nonneg (by positivity)]; omega) (by
      push_cast; exact GcfR.r3 I.d0 an1 I.d1)
    push_cast at this; linarith
  have ad2 : (an * d).val ≤ 200 * (i:ℝ) := by
    rw [hm.2]
    have := RN_le_int (r := an.val * d.val) (200 * (i:ℤ)) (by rw [abs_of_nonneg (by positivity)]; omega) (by
      push_cast; exact GcfR.r4 i0 I.d0 I.d2 an2)
    push_cast at this; linarith
  have adf : (an * d).isFin = true := abs_fin (b := 10^9) (by linarith) (by linarith) (by norm_num)
  -- D
  have hD := add_spec adf bf'
  have D1 : (i:ℝ) + 1/2 ≤ (an * d + b').val := by
    rw [hD.2]
    have := RN_ge_half (r := (an * d).val + b'.val) (2 * (i:ℤ) + 1) (by rw [abs_of_nonneg (by positivity)]; omega) (by push_cast; linarith)
    push_cast at this; linarith
  have D2 : (an * d + b').val ≤ 10^7 := by
    rw [hD.2]
    have := RN_le_int (r := (an * d).val + b'.val) (10^7) (by norm_num) (by push_cast; linarith)
    push_cast at this; linarith
  have Df : (an * d + b').isFin = true := abs_fin (b := 10^7) (by linarith) D2 (by norm_num)
  have eD : D = an * d + b' := by rw [eD0]; exact guardTiny_id Df (by linarith)
  -- d'
  have hd := Iv.div_spec' one_fin Df (by linarith)
  rw [one_val] at hd
  have ed : d' = 1.0 / (an * d + b') := by rw [ed0, eD]
  have Dinv : 1 / (an * d + b').val ≤ 1 / ((i:ℝ) + 1/2) := one_div_le_one_div_of_le (by linarith) D1
  have Dinv0 : 0 < 1 / (an * d + b').val := by apply one_div_pos.2; linarith
  have small : (1:ℝ) / ((i:ℝ) + 1/2) ≤ 1 := by rw [div_le_one (by linarith)]; linarith
  have dup : d'.val ≤ 1 / ((i:ℝ) + 1/2) + 1 / 2^51 := by
    rw [ed, hd.2]
    exact (RN_up_small Dinv0.le (Dinv.trans small)).trans (add_le_add_left Dinv _)
  have dlo : 0 < d'.val := by
    rw [ed, hd.2]
    have h3 : RN (1 / 2^30) ≤ RN (1 / (an * d + b').val) := by
      apply RN_mono
      exact one_div_le_one_div_of_le (by linarith) (D2.trans (by norm_num))
    rw [one_div, RN_inv_pow2 (by norm_num)] at h3
    exact lt_of_lt_of_le (by positivity) h3
  have dd2 : d'.val ≤ 2 := by
    have h5 : (1:ℝ)/2^51 ≤ 1 := by norm_num
    linarith
  have dd1 : ((i:ℝ) + 1)^2 * d'.val ≤ i + 2 := by
    have h5 : ((i:ℝ) + 1)^2 * d'.val ≤ ((i:ℝ) + 1)^2 * (1 / ((i:ℝ) + 1/2) + 1 / 2^51) := mul_le_mul_of_nonneg_left dup (by positivity)
    refine h5.trans ?_
    have h6 : ((i:ℝ) + 1)^2 * (1 / ((i:ℝ) + 1/2)) = (i:ℝ) + 3/2 + (1/4) / ((i:ℝ) + 1/2) := by
      field_simp; ring
    have h7 : ((i:ℝ) + 1)^2 * (1 / 2^51) ≤ 1/4 := by
      rw [mul_one_div, div_le_iff₀ (by positivity)]; exact GcfR.r8 (by linarith) i1
    have h8 : (1/4 : ℝ) / ((i:ℝ) + 1/2) ≤ 1/4 := by
      rw [div_le_iff₀ (by linarith)]; linarith
    rw [mul_add, h6]; linarith
  have df' : d'.isFin = true := abs_fin (b := 2) (by linarith) dd2 (by norm_num)
  -- c'
  have c0 : 0 < c.val := by linarith [I.c1]
  have hc := Iv.div_spec' anf I.cf c0.ne'
  have cinv : 1 / c.val ≤ 1 / ((i:ℝ) - 1/2) := one_div_le_one_div_of_le (by linarith) I.c1
  have ac1 : -((i:ℝ) + 1) ≤ (an / c).val := by
    rw [hc.2]
    have := RN_ge_int (r := an.val / c.val) (-((i:ℤ) + 1)) (by rw [abs_neg, abs_of_nonneg (by positivity)]; omega) (by
      push_cast
      rw [le_div_iff₀ c0]
      exact GcfR.r5 i0 an1 I.c1)
    push_cast at this; linarith
  have ac2 : (an / c).val ≤ 200 * (i:ℝ) := by
    rw [hc.2]
    have := RN_le_int (r := an.val / c.val) (200 * (i:ℤ)) (by rw [abs_of_nonneg (by positivity)]; omega) (by
      push_cast
      rw [div_le_iff₀ c0]
      exact GcfR.r6 i0 an2 I.c1)
    push_cast at this; linarith
  have acf : (an / c).isFin = true := abs_fin (b := 10^9) (by linarith) (by linarith) (by norm_num)
  have hC := add_spec bf' acf
  have C1 : (i:ℝ) + 1/2 ≤ (b' + an / c).val := by
    rw [hC.2]
    have := RN_ge_half (r := b'.val + (an / c).val) (2 * (i:ℤ) + 1) (by rw [abs_of_nonneg (by positivity)]; omega) (by push_cast; linarith)
    push_cast at this; linarith
  have C2 : (b' + an / c).val ≤ 10^7 := by
    rw [hC.2]
    have := RN_le_int (r := b'.val + (an / c).val) (10^7) (by norm_num) (by push_cast; linarith)
    push_cast at this; linarith
  have Cf : (b' + an / c).isFin = true := abs_fin (b := 10^7) (by linarith) C2 (by norm_num)
  have eC : c' = b' + an / c := by rw [ec0]; exact guardTiny_id Cf (by linarith)
  -- del, h
  have cf' : c'.isFin = true := by rw [eC]; exact Cf
  have c1' : (i:ℝ) + 1/2 ≤ c'.val := by rw [eC]; exact C1
  have c2' : c'.val ≤ 10^7 := by rw [eC]; exact C2
  have hdel := mul_spec df' cf'
  have del0 : 0 < del.val := by
    rw [edel, hdel.2.1]
    have h3 : RN (((2:ℝ)^31)⁻¹) ≤ RN (d'.val * c'.val) := by
      apply RN_mono
      have h4 : ((2:ℝ)^30)⁻¹ ≤ d'.val := by
        rw [ed, hd.2, ← RN_inv_pow2 (by norm_num), ← one_div]
        apply RN_mono
        exact one_div_le_one_div_of_le (by linarith) (D2.trans (by norm_num))
      have h5 : ((2:ℝ)^31)⁻¹ = ((2:ℝ)^30)⁻¹ * (1/2) := by norm_num
      rw [h5]
      exact mul_le_mul h4 (by linarith) (by norm_num) dlo.le
    rw [RN_inv_pow2 (by norm_num)] at h3
    exact lt_of_lt_of_le (by positivity) h3
  have del1 : del.val ≤ 10^9 := by
    rw [edel, hdel.2.1]
    have := RN_le_int (r := d'.val * c'.val) (10^9) (by norm_num) (by
      rw [show (((10^9 : ℤ)) : ℝ) = 10^9 by norm_num]; exact GcfR.r7 dlo dd2 (by linarith) c2')
    rwa [show (((10^9 : ℤ)) : ℝ) = 10^9 by norm_num] at this
  have delf : del.isFin = true := abs_fin (b := 10^9) (by linarith) del1 (by norm_num)
  have hh : PN h' := by
    rw [eh]
    exact mul_pn I.h1 (pn_of_pos (isFin_notNaN delf) del0) (fun _ => del0) (fun hc => by rw [isFin_notInf delf] at hc; cases hc)
  exact ⟨bf', by push_cast; linarith, by push_cast; linarith, cf', by push_cast; linarith, df', dlo, by push_cast; linarith, dd2, hh⟩

theorem gcf_step {a : F64} (ha0 : 0 < a.val) (ha1 : a.val ≤ 100) {i : Nat} (hi : 1 ≤ i) (hi2 : i ≤ 10000) {b c d h : F64} (I : GcfInv i b c d h) :
    let an := -(F64.ofNat i) * (F64.ofNat i - a)
    let b := b + 2.0
    let d := guardTiny (an * d + b)
    let c := guardTiny (b + an / c)
    let d := 1.0 / d
    let del := d * c
    let h := h * del
    GcfInv (i+1) b c d h := gcf_step' ha0 ha1 hi hi2 I rfl rfl rfl rfl rfl rfl rfl

theorem gcfLoop_num {a : F64} (ha0 : 0 < a.val) (ha1 : a.val ≤ 100) : ∀ (n i : Nat) (b c d h : F64), 1 ≤ i → i + n ≤ 10001 →
    GcfInv i b c d h → PN (gcfLoop a n i b c d h) := by
  intro n
  induction n with
  | zero => intro i b c d h _ _ I; exact I.h1
  | succ n ih =>
    intro i b c d h h1 h2 I
    have I' := gcf_step ha0 ha1 h1 (by omega) I
    unfold gcfLoop
    simp only [ar_ofNat]
    split
    · exact I'.h1
    · exact ih _ _ _ _ _ (by omega) (by omega) I'

end Verif
