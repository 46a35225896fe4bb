import Verif.Proofs.GcfF3

/-! One step of the loop of `gcf` in binary64. -/

namespace Verif
namespace Gcf
open F64

theorem ge_half {s D : ℝ} (h : |s - D| ≤ 1996 / 2^53 * D) (hD : 1 ≤ D) : 1/2 ≤ s := by
  have := (abs_le.1 h).1
  norm_num at this ⊢
  linarith

theorem pos_of_rel {s D : ℝ} (h : |s - D| ≤ 2000 / 2^53 * D) (hD : 1 ≤ D) : 0 < s := by
  have := (abs_le.1 h).1
  norm_num at this ⊢
  linarith

theorem ratio_bd {C D : ℝ} (hC : 1 ≤ C) (hD : 1 ≤ D) (C2 : C ≤ 10^6) (D2 : D ≤ 10^6) : 1 / 10^20 ≤ C / D ∧ C / D ≤ 10^20 := by
  norm_num at C2 D2
  constructor
  · rw [div_le_div_iff₀ (by norm_num) (by linarith)]; norm_num; linarith
  · rw [div_le_iff₀ (by linarith)]; norm_num; linarith

/-- loop invariant: `y` is the real argument for which the first denominator is exact -/
structure Inv (a : F64) (y : ℝ) (k : ℕ) (b c d h : F64) : Prop where
  bb : Bin b (bk a.val y k)
  cf : c.isFin = true
  ce : |c.val - C a.val y phi k| ≤ 2000 / 2^53 * C a.val y phi k
  df : d.isFin = true
  de : |d.val * D a.val y k - 1| ≤ 2000 / 2^53
  hf : h.isFin = true
  he : |h.val - H a.val y phi k| ≤ (k + 1) * (4010 / 2^53) * H a.val y phi k

/-- the partial numerator -/
theorem an_err {a : F64} (ha : 0 < a.val) (ha1 : a.val < 100) {i : ℕ} (hi : 1 ≤ i) (hi2 : i ≤ 10000) :
    (-(F64.ofNat i) * (F64.ofNat i - a)).isFin = true ∧
    |(-(F64.ofNat i) * (F64.ofNat i - a)).val - ak a.val i| ≤ 3 / 2^53 * |ak a.val i| + 1 / 10^55 := by
  have fa : a.isFin = true := isFin_of_abs (b := 100) (by rw [abs_of_pos ha]; exact ha1.le) (by norm_num)
  obtain ⟨nf, nv⟩ := ofNat_val (n := i) (by omega)
  have i0 : (1:ℝ) ≤ i := by exact_mod_cast hi
  have i1 : (i:ℝ) ≤ 10000 := by exact_mod_cast hi2
  have hs := (sub_spec nf fa).2
  rw [nv] at hs
  have hd : |(i:ℝ) - a.val| ≤ 10100 := by rw [abs_le]; constructor <;> linarith
  obtain ⟨r1, r2⟩ := rn_mod (le_refl |(i:ℝ) - a.val|) (hd.trans (by norm_num))
  have fs : (F64.ofNat i - a).isFin = true := by rw [isFin_iff_val, hs]; exact r1
  have hm := (mul_spec (a := -(F64.ofNat i)) (b := F64.ofNat i - a) (by rw [isFin_neg]; exact nf) fs).2.1
  rw [val_neg, nv, hs] at hm
  have e1 : |-(i:ℝ) * RN (i - a.val) - ak a.val i| ≤ |ak a.val i| / 2^53 + 1 / 10^56 := by
    have e : -(i:ℝ) * RN (i - a.val) - ak a.val i = -(i:ℝ) * (RN (i - a.val) - (i - a.val)) := by unfold ak; ring
    have e2 : |ak a.val i| = i * |(i:ℝ) - a.val| := by unfold ak; rw [abs_neg, abs_mul, abs_of_nonneg (by linarith)]
    rw [e, abs_mul, abs_neg, abs_of_nonneg (show (0:ℝ) ≤ i by linarith), e2]
    refine (mul_le_mul_of_nonneg_left r2 (by linarith)).trans ?_
    generalize |(i:ℝ) - a.val| = w at *
    have : (i:ℝ) * (w / 2^53 + 1 / 10^60) = i * w / 2^53 + i / 10^60 := by ring
    rw [this]
    clear this r2 hd e e2 hm nv hs
    norm_num at i1 ⊢
    have i2 : (i:ℝ) ≤ 10000 := by exact_mod_cast i1
    linarith
  have hA : |ak a.val i| ≤ 10^9 := by
    have e2 : |ak a.val i| = i * |(i:ℝ) - a.val| := by unfold ak; rw [abs_neg, abs_mul, abs_of_nonneg (by linarith)]
    rw [e2]
    have := mul_le_mul i1 hd (abs_nonneg _) (by norm_num)
    exact this.trans (by norm_num)
  have hY : |-(i:ℝ) * RN (i - a.val)| ≤ 1.1 * |ak a.val i| + 1 / 10^56 := by
    have : |-(i:ℝ) * RN (i - a.val)| ≤ |-(i:ℝ) * RN (i - a.val) - ak a.val i| + |ak a.val i| := by
      have := abs_add_le (-(i:ℝ) * RN (i - a.val) - ak a.val i) (ak a.val i); rwa [sub_add_cancel] at this
    have h0 := abs_nonneg (ak a.val i)
    generalize |ak a.val i| = w at *
    norm_num at *
    linarith
  obtain ⟨q1, q2⟩ := rn_mod hY (by generalize |ak a.val i| = w at *; norm_num at *; linarith)
  refine ⟨by rw [isFin_iff_val, hm]; exact q1, ?_⟩
  rw [hm]
  have e : RN (-(i:ℝ) * RN (i - a.val)) - ak a.val i = (RN (-(i:ℝ) * RN (i - a.val)) - -(i:ℝ) * RN (i - a.val)) + (-(i:ℝ) * RN (i - a.val) - ak a.val i) := by ring
  rw [e]
  refine (abs_add_le _ _).trans ((add_le_add q2 e1).trans ?_)
  have h0 := abs_nonneg (ak a.val i)
  generalize |ak a.val i| = w at *
  norm_num at *
  linarith

theorem inv_step {a : F64} {y : ℝ} (ha : 0 < a.val) (ha1 : a.val < 100) (hy : a.val + 99/100 ≤ y) (hy1 : y ≤ 400) {k : ℕ} (hk : k + 1 ≤ 10000)
    {b c d h an b' D' c' d' del h' : F64} (I : Inv a y k b c d h)
    (ean : an = -(F64.ofNat (k + 1)) * (F64.ofNat (k + 1) - a)) (eb : b' = b + 2.0) (eD : D' = guardTiny (an * d + b'))
    (ec : c' = guardTiny (b' + an / c)) (ed : d' = 1.0 / D') (edel : del = d' * c') (eh : h' = h * del) :
    Inv a y (k + 1) b' c' d' h' ∧ del.isFin = true ∧
      |del.val - C a.val y phi (k + 1) / D a.val y (k + 1)| ≤ 4008 / 2^53 * (C a.val y phi (k + 1) / D a.val y (k + 1)) := by
  have hk0 : (0:ℝ) ≤ k := Nat.cast_nonneg k
  have hK : (k:ℝ) + 1 ≤ 10000 := by exact_mod_cast hk
  obtain ⟨anf, ane⟩ := an_err ha ha1 (i := k + 1) (by omega) hk
  rw [← ean] at anf ane
  have l2 := lit2
  -- b
  have hbk : bk a.val y k + (2:ℕ) = bk a.val y (k + 1) := by unfold bk; push_cast; ring
  have bb : Bin b' (bk a.val y (k + 1)) := by
    rw [eb, ← hbk]
    refine I.bb.step 2 le_rfl l2.1 (by rw [l2.2]; norm_num) ?_
    rw [hbk]; unfold bk; push_cast; norm_num; linarith
  obtain ⟨be, b1, _⟩ := bb.err
  have bf := bb.fin
  -- bounds in real numbers
  have hD := D_ge ha hy k
  have hD' := D_ge' ha hy k
  have hC := C_ge ha hy phi_pos phi_half k
  have hC' := C_ge' ha hy phi_pos phi_half k
  have kD := contract ha ha1 hy k hk hD' hD
  have kC := contract ha ha1 hy k hk hC' hC
  have D1 := D_ge ha hy (k + 1)
  have C1 := C_ge ha hy phi_pos phi_half (k + 1)
  push_cast at D1 C1
  have D2 := D_le (x := y) ha ha1 hy1 hk (r := D a.val y k) (by linarith)
  have C2 := D_le (x := y) ha ha1 hy1 hk (r := C a.val y phi k) (by linarith)
  have dD : D a.val y (k + 1) = bk a.val y (k + 1) + ak a.val (k + 1) / D a.val y k := rfl
  have dC : C a.val y phi (k + 1) = bk a.val y (k + 1) + ak a.val (k + 1) / C a.val y phi k := rfl
  rw [← dD] at kD D2
  rw [← dC] at kC C2
  have Dp : 0 < D a.val y k := by linarith
  have Cp : 0 < C a.val y phi k := by linarith
  -- d
  have q1 := d_quot ane (show 1 ≤ D a.val y k by linarith) I.de
  have aD : |ak a.val (k + 1) / D a.val y k| = |ak a.val (k + 1)| / D a.val y k := by rw [abs_div, abs_of_pos Dp]
  have aC : |ak a.val (k + 1) / C a.val y phi k| = |ak a.val (k + 1)| / C a.val y phi k := by rw [abs_div, abs_of_pos Cp]
  obtain ⟨t1, t2, t3⟩ := q_round q1 be dD (by rw [aD]; exact kD.1) kD.2 (by linarith) D2
  have m1 := (mul_spec anf I.df).2.1
  have f1 : (an * d).isFin = true := by rw [isFin_iff_val, m1]; exact t1
  have m2 := (add_spec f1 bf).2
  rw [m1] at m2
  have f2 : (an * d + b').isFin = true := by rw [isFin_iff_val, m2]; exact t2
  obtain ⟨s0, u1, u2⟩ := d_recip t3 (by linarith) D2
  have gD : D' = an * d + b' := by
    rw [eD]; refine guardTiny_id f2 ?_
    rw [m2]
    exact ge_half t3 (by linarith)
  have m3 := (div_spec (a := (1.0 : F64)) (b := an * d + b') (by decide +kernel) f2 (by rw [m2]; exact s0.ne')).2.1
  rw [one_val, m2, ← gD, ← ed] at m3
  have fd : d'.isFin = true := by rw [isFin_iff_val, m3]; exact u1
  -- c
  have q2 := c_quot ane (show 1 ≤ C a.val y phi k by linarith) I.ce
  obtain ⟨v1, v2, v3⟩ := q_round q2 be dC (by rw [aC]; exact kC.1) kC.2 (by linarith) C2
  have c0 : c.val ≠ 0 := (pos_of_rel I.ce (by linarith)).ne'
  have m4 := (div_spec anf I.cf c0).2.1
  have f4 : (an / c).isFin = true := by rw [isFin_iff_val, m4]; exact v1
  have m5 := (add_spec bf f4).2
  rw [m4, add_comm b'.val] at m5
  have f5 : (b' + an / c).isFin = true := by rw [isFin_iff_val, m5]; exact v2
  have gC : c' = b' + an / c := by
    rw [ec]; refine guardTiny_id f5 ?_
    rw [m5]
    exact ge_half v3 (by linarith)
  rw [← gC] at m5 f5
  have ce : |c'.val - C a.val y phi (k + 1)| ≤ 2000 / 2^53 * C a.val y phi (k + 1) := by
    rw [m5]; refine v3.trans (mul_le_mul_of_nonneg_right (by norm_num) (by linarith))
  rw [← m3] at u2
  -- del
  have D1p : 0 < D a.val y (k + 1) := by linarith
  have C1p : 0 < C a.val y phi (k + 1) := by linarith
  have de : |d'.val - 1 / D a.val y (k + 1)| ≤ 2000 / 2^53 * (1 / D a.val y (k + 1)) := by
    have e : d'.val - 1 / D a.val y (k + 1) = (d'.val * D a.val y (k + 1) - 1) * (1 / D a.val y (k + 1)) := by field_simp
    rw [e, abs_mul, abs_of_pos (show 0 < 1 / D a.val y (k + 1) by positivity)]
    exact mul_le_mul_of_nonneg_right u2 (by positivity)
  have eCD : 1 / D a.val y (k + 1) * C a.val y phi (k + 1) = C a.val y phi (k + 1) / D a.val y (k + 1) := by ring
  obtain ⟨w1, w2⟩ := ratio_bd (by linarith : 1 ≤ C a.val y phi (k + 1)) (by linarith : 1 ≤ D a.val y (k + 1)) C2 D2
  have mm := m_round de ce (by positivity) C1p (by norm_num) (by norm_num) (by norm_num) (by norm_num)
    (by rw [eCD]; exact w1) (by rw [eCD]; exact w2)
  rw [eCD] at mm
  have m6 := (mul_spec fd f5).2.1
  rw [← edel] at m6
  rw [← m6] at mm
  have fdel : del.isFin = true := by rw [isFin_iff_val]; exact mm.1
  have Qp : 0 < C a.val y phi (k + 1) / D a.val y (k + 1) := by positivity
  have dele : |del.val - C a.val y phi (k + 1) / D a.val y (k + 1)| ≤ 4008 / 2^53 * (C a.val y phi (k + 1) / D a.val y (k + 1)) := by
    refine mm.2.trans (mul_le_mul_of_nonneg_right ?_ Qp.le)
    norm_num
  -- h
  obtain ⟨H1, H2⟩ := H_bounds ha ha1 hy hy1 k
  obtain ⟨G1, G2⟩ := H_bounds ha ha1 hy hy1 (k + 1)
  have dH : H a.val y phi k * (C a.val y phi (k + 1) / D a.val y (k + 1)) = H a.val y phi (k + 1) := rfl
  have mh := m_round I.he dele (by linarith) Qp (by positivity) (by norm_num) (by
      have : ((k:ℝ) + 1) * (4010 / 2^53) ≤ 10000 * (4010 / 2^53) := mul_le_mul_of_nonneg_right hK (by norm_num)
      refine this.trans (by norm_num)) (by norm_num)
    (by rw [dH]; refine le_trans (by norm_num) G1) (by rw [dH]; refine le_trans G2 (by norm_num))
  rw [dH] at mh
  have m7 := (mul_spec I.hf fdel).2.1
  rw [← eh] at m7
  rw [← m7] at mh
  refine ⟨⟨bb, f5, ce, fd, u2, by rw [isFin_iff_val]; exact mh.1, ?_⟩, fdel, dele⟩
  refine mh.2.trans (mul_le_mul_of_nonneg_right ?_ (by linarith))
  push_cast
  norm_num
  linarith

end Gcf
end Verif
