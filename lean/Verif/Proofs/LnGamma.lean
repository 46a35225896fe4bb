import Verif.Model.Gamma
import Verif.Proofs.OIv
import Verif.Proofs.Inst
import Verif.LibmSpec

/-! # `ln_gamma`: finite above `2^-54`, infinite at and below -/

namespace Verif
open F64 OIv

/-- `s` of `ln_gamma` as an explicit expression in `z - 1` -/
theorem lanczos_eq (z : F64) : lanczosSum z + lg5n7Head =
    0.0 + 76.18009172948503 / (z + F64.ofNat 1) + -86.50532032927205 / (z + F64.ofNat 2) + 24.01409824118972 / (z + F64.ofNat 3)
      + -1.2317395783752254 / (z + F64.ofNat 4) + 0.0012086577526594748 / (z + F64.ofNat 5) + -0.00000539702438713199 / (z + F64.ofNat 6)
      + 1.000000000189712 := rfl

def lanczosO (z : OIv) : OIv :=
    0.0 + 76.18009172948503 / (z + pt (F64.ofNat 1)) + -86.50532032927205 / (z + pt (F64.ofNat 2)) + 24.01409824118972 / (z + pt (F64.ofNat 3))
      + -1.2317395783752254 / (z + pt (F64.ofNat 4)) + 0.0012086577526594748 / (z + pt (F64.ofNat 5)) + -0.00000539702438713199 / (z + pt (F64.ofNat 6))
      + 1.000000000189712

theorem rel_lanczos {I : OIv} {z : F64} (h : Encl I z) : Encl (lanczosO I) (lanczosSum z + lg5n7Head) := by
  rw [lanczos_eq]; unfold lanczosO
  have t : ∀ n, Encl (I + pt (F64.ofNat n)) (z + F64.ofNat n) := fun n => rel_add h (rel_pt _)
  exact rel_add (rel_add (rel_add (rel_add (rel_add (rel_add (rel_add (rel_lit _ _ _) (rel_div (rel_lit _ _ _) (t 1))) (rel_div (rel_neg (rel_lit _ _ _)) (t 2)))
    (rel_div (rel_lit _ _ _) (t 3))) (rel_div (rel_neg (rel_lit _ _ _)) (t 4))) (rel_div (rel_lit _ _ _) (t 5))) (rel_div (rel_neg (rel_lit _ _ _)) (t 6))) (rel_lit _ _ _)

def lanBreaks : List F64 :=
  [0.9204, 1.75, 2.651, 3.552, 4.84, 6.128, 7.416, 9.256, 11.1, 12.94, 15.57, 18.2, 21.95, 25.7, 29.45, 34.81, 40.17, 47.83, 55.49, 66.44, 82.08,
   97.72, 120.1, 152.0, 197.6, 290.6, 480.5, 1034.0, 1e300]

def lanTest (a b : F64) : Bool := (lanczosO (mk2 a b - 1.0)).inside 0.5 1e20

theorem lan_cover : cover lanTest (5.551115123125784e-17 :: lanBreaks) = true := by decide +kernel

theorem lan_bounds {z : F64} (h1 : (5.551115123125784e-17 : F64).val ≤ z.val) (h2 : z.val ≤ (1e300 : F64).val) :
    (lanczosSum (z - 1.0) + lg5n7Head).isFin = true ∧ (0.5 : F64).val ≤ (lanczosSum (z - 1.0) + lg5n7Head).val ∧
      (lanczosSum (z - 1.0) + lg5n7Head).val ≤ (1e20 : F64).val := by
  obtain ⟨b, c, hf, hb, hc⟩ := cover_two (l := lanBreaks.tail) lan_cover h1 h2
  exact rel_inside (rel_lanczos (rel_sub (rel_mk2 hb hc) (rel_lit _ _ _))) hf

theorem half_pos : 0 < (0.5 : F64).val := by
  have := val_of_sv (x := (0.5 : F64)) 1 2 (by norm_num) (by decide +kernel); rw [this]; norm_num

theorem rel_ln [Libm F64] (L : LibmSpec) {x : F64} (hf : x.isFin = true) (h0 : 0 < x.val) : Encl (mk2 (-746.0) 746.0) (Libm.ln x) := by
  obtain ⟨_, h⟩ := L.ln_num x hf h0
  rw [abs_le] at h
  have e1 : (746.0 : F64).val = 746 := by have := val_of_int (x := (746.0 : F64)) 746 (by decide +kernel); rw [this]; norm_num
  exact rel_mk2 (by rw [val_neg, e1]; exact h.1) (by rw [e1]; exact h.2)

theorem lnGamma_fin [Libm F64] (L : LibmSpec) {z : F64} (h1 : (5.551115123125784e-17 : F64).val ≤ z.val) (h2 : z.val ≤ (1e300 : F64).val) :
    (lnGamma z).isFin = true := by
  obtain ⟨s1, s2, s3⟩ := lan_bounds h1 h2
  have hp := half_pos
  have rz : Encl (mk2 5.551115123125784e-17 1e300 - 1.0) (z - 1.0) := rel_sub (rel_mk2 h1 h2) (rel_lit _ _ _)
  have rb : Encl (mk2 5.551115123125784e-17 1e300 - 1.0 + 5.0 + 0.5) (z - 1.0 + 5.0 + 0.5) :=
    rel_add (rel_add rz (rel_lit _ _ _)) (rel_lit _ _ _)
  obtain ⟨b1, b2, b3⟩ := rel_inside (l := 0.5) (h := 2e300) rb (by decide +kernel)
  have q : ∀ x : F64, x = F64.sqrt (2.0 * Arith.pi) → x.isFin = true ∧ 0 < x.val := by
    intro x hx
    subst hx
    refine ⟨by decide +kernel, ?_⟩
    have : F64.lt 0.0 (F64.sqrt (2.0 * Arith.pi)) = true := by decide +kernel
    have := (lt_iff.1 this).2.2
    rwa [zero_val] at this
  obtain ⟨q1, q2⟩ := q _ rfl
  have e : lnGamma z = Libm.ln (F64.sqrt (2.0 * Arith.pi)) + Libm.ln (lanczosSum (z - 1.0) + lg5n7Head) - (z - 1.0 + 5.0 + 0.5)
      + Libm.ln (z - 1.0 + 5.0 + 0.5) * (z - 1.0 + 0.5) := by unfold lnGamma; rw [ar_sqrt]
  rw [e]
  have r1 := rel_ln L q1 q2
  have r2 := rel_ln L s1 (by linarith)
  have r3 := rel_ln L b1 (by linarith)
  generalize Libm.ln (F64.sqrt (2.0 * Arith.pi)) = l1 at *
  generalize Libm.ln (lanczosSum (z - 1.0) + lg5n7Head) = l2 at *
  have r5 : Encl 0.5 (0.5 : F64) := rel_lit _ _ _
  have r := rel_add (rel_sub (rel_add r1 r2) rb) (rel_mul r3 (rel_add rz r5))
  exact (rel_inside (l := -1e306) (h := 1e306) r (by decide +kernel)).1

/-- at and below `2^-54` the argument is absorbed by `z - 1.0` -/
theorem sub_one_small {z : F64} (h1 : 0 < z.val) (h2 : z.val ≤ (5.551115123125783e-17 : F64).val) : z - 1.0 = (-1.0 : F64) := by
  have hz : z.isFin = true := by
    have : (5.551115123125783e-17 : F64).isFin = true := by decide +kernel
    rw [isFin_iff_val, abs_of_pos h1]; exact lt_of_le_of_lt h2 (fin_lt this)
  have hs := sub_spec hz one_fin
  have lo : ((0.0 : F64) - 1.0) = (-1.0 : F64) := by decide +kernel
  have hi : ((5.551115123125783e-17 : F64) - 1.0) = (-1.0 : F64) := by decide +kernel
  have l2 := sub_spec zero_fin one_fin
  have h5 := sub_spec (a := 5.551115123125783e-17) (by decide +kernel) one_fin
  rw [lo] at l2; rw [hi] at h5
  have hv : (z - 1.0).val = (-1.0 : F64).val := by
    rw [hs.2]
    apply le_antisymm
    · rw [h5.2]; exact RN_mono (by linarith)
    · rw [l2.2, zero_val]; exact RN_mono (by linarith)
  exact eq_of_val_ne hv (by rw [hv, val_neg, one_val]; norm_num)

theorem lnGamma_tiny [Libm F64] (L : LibmSpec) {z : F64} (h1 : 0 < z.val) (h2 : z.val ≤ (5.551115123125783e-17 : F64).val) :
    lnGamma z = inf := by
  unfold lnGamma
  simp only
  rw [sub_one_small h1 h2]
  have e1 : lanczosSum (-1.0 : F64) + lg5n7Head = inf := by decide +kernel
  rw [e1, L.ln_inf, ar_sqrt]
  have q1 : (F64.sqrt (2.0 * Arith.pi)).isFin = true := by decide +kernel
  have q2 : 0 < (F64.sqrt (2.0 * Arith.pi)).val := by
    have : F64.lt 0.0 (F64.sqrt (2.0 * Arith.pi)) = true := by decide +kernel
    have := (lt_iff.1 this).2.2
    rwa [zero_val] at this
  have r1 : (Libm.ln (F64.sqrt (2.0 * Arith.pi))).isFin = true := (rel_inside (l := -746.0) (h := 746.0) (rel_ln L q1 q2) (by decide +kernel)).1
  rw [add_inf_right r1 (by decide)]
  have e2 : inf - ((-1.0 : F64) + 5.0 + 0.5) = inf := by decide +kernel
  rw [e2]
  have b : ((-1.0 : F64) + 5.0 + 0.5).isFin = true ∧ 0 < ((-1.0 : F64) + 5.0 + 0.5).val := by
    refine ⟨by decide +kernel, ?_⟩
    have : F64.lt 0.0 ((-1.0 : F64) + 5.0 + 0.5) = true := by decide +kernel
    have := (lt_iff.1 this).2.2
    rwa [zero_val] at this
  have r2 : Encl (mk2 (-746.0) 746.0 * (-1.0 + 0.5)) (Libm.ln ((-1.0 : F64) + 5.0 + 0.5) * ((-1.0 : F64) + 0.5)) :=
    rel_mul (rel_ln L b.1 b.2) (rel_add (rel_neg (rel_lit _ _ _)) (rel_lit _ _ _))
  have r3 := (rel_inside (l := -1e6) (h := 1e6) r2 (by decide +kernel)).1
  exact add_inf_left (by decide) (isFin_notNaN r3) (fun h => by rw [isFin_notInf r3] at h; cases h)

/-- every double above `2^-54` is at least its successor -/
theorem tiny_succ {z : F64} (h : (5.551115123125783e-17 : F64).val < z.val) : (5.551115123125784e-17 : F64).val ≤ z.val := by
  rw [← key_lt] at h; rw [← key_le]
  have e1 : (5.551115123125783e-17 : F64).key = 4363988038922010624 := by decide +kernel
  have e2 : (5.551115123125784e-17 : F64).key = 4363988038922010625 := by decide +kernel
  rw [e1] at h; rw [e2]; omega

theorem tiny_val' : (5.551115123125783e-17 : F64).val = 2^(-54:ℤ) := by
  have := val_of_sv (x := (5.551115123125783e-17 : F64)) 1 (2^54) (by norm_num) (by decide +kernel); rw [this]; norm_num

end Verif
