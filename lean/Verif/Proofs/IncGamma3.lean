import Verif.Proofs.IncGamma2
import Verif.Proofs.LnGamma

/-! # Where the incomplete gamma functions are numbers -/

namespace Verif
open F64 OIv
variable [Libm F64]

omit [Libm F64] in
theorem add_one_fin {a : F64} (hf : a.isFin = true) (h0 : 0 ≤ a.val) : (a + 1.0).isFin = true ∧ a.val ≤ (a + 1.0).val ∧ 1 ≤ (a + 1.0).val := by
  have h := add_spec hf one_fin
  rw [one_val] at h
  have h1 : a.val ≤ (a + 1.0).val := by rw [h.2]; exact le_RN_of_le (isFin_notNaN hf) (by linarith)
  have h2 : 1 ≤ (a + 1.0).val := by
    rw [h.2, ← one_val]; exact le_RN_of_le (isFin_notNaN one_fin) (by rw [one_val]; linarith)
  refine ⟨?_, h1, h2⟩
  rw [isFin_iff_val, abs_of_nonneg (by linarith), h.2]
  have := fin_le_MAXF hf
  rw [abs_of_nonneg h0] at this
  exact RN_no_overflow this zero_le_one (one_le_pow₀ (by norm_num))

omit [Libm F64] in
theorem gserLoop_num {x : F64} (hx : x.isFin = true) (hx0 : 0 ≤ x.val) (hxn : x.neg = false) : ∀ (n : Nat) (ap del sum : F64),
    ap.isFin = true → 0 ≤ ap.val → x.val ≤ (ap + 1.0).val → del.isFin = true → del.neg = false → PN sum → 0 < sum.val →
    PN (gserLoop x n ap del sum) ∧ 0 < (gserLoop x n ap del sum).val := by
  intro n
  induction n with
  | zero => intro _ _ _ _ _ _ _ _ h h'; exact ⟨h, h'⟩
  | succ n ih =>
    intro ap del sum a1 a2 a3 d1 d2 s1 s2
    obtain ⟨b1, b2, b3⟩ := add_one_fin a1 a2
    have r := div_spec hx b1 (by linarith)
    have r1 : (x / (ap + 1.0)).val ≤ 1 := by
      rw [r.2.1, ← one_val]
      exact RN_le_of_le (isFin_notNaN one_fin) (by rw [one_val, div_le_one (by linarith)]; exact a3)
    have r2 : 0 ≤ (x / (ap + 1.0)).val := by rw [r.2.1]; exact RN_nonneg (div_nonneg hx0 (by linarith))
    have rf : (x / (ap + 1.0)).isFin = true := abs_fin (b := 1) (by linarith) r1 (by norm_num)
    have rn : (x / (ap + 1.0)).neg = false := by
      rw [r.2.2, hxn, neg_of_val_pos (by linarith : 0 < (ap + 1.0).val)]; rfl
    have m := mul_spec d1 rf
    have dv := val_nonneg_of_neg d2
    have m1 : (del * (x / (ap + 1.0))).val ≤ del.val := by
      rw [m.2.1]; exact RN_le_of_le (isFin_notNaN d1) (by nlinarith)
    have mn : (del * (x / (ap + 1.0))).neg = false := by rw [m.2.2, d2, rn]; rfl
    have mf : (del * (x / (ap + 1.0))).isFin = true := by
      rw [isFin_iff_val, abs_of_nonneg (val_nonneg_of_neg mn)]
      exact lt_of_le_of_lt m1 (fin_lt d1)
    have s1' : PN (sum + del * (x / (ap + 1.0))) := add_pn s1 ⟨m.1, mn⟩
    have s2' : 0 < (sum + del * (x / (ap + 1.0))).val := lt_of_lt_of_le s2 (add_pn_ge s1 ⟨m.1, mn⟩)
    obtain ⟨c1, c2, c3⟩ := add_one_fin b1 (by linarith)
    unfold gserLoop
    simp only
    split
    · exact ⟨s1', s2'⟩
    · exact ih _ _ _ b1 (by linarith) (by linarith) mf mn s1' s2'

omit [Libm F64] in
theorem lit_1e300 : (1e300 : F64).isFin = true ∧ (1e300 : F64).val = RN (10^300) := by
  refine ⟨by decide +kernel, ?_⟩
  have : (1e300 : F64) = F64.ofNat (10^300) := by decide +kernel
  rw [this, (ofNat_spec _).2.1, Nat.cast_pow, Nat.cast_ofNat]

/-- the exponent `-x + a ln x - lnΓ(a)` is a number -/
theorem logResult_num (L : LibmSpec) {a x : F64} (ha : 0 < a.val) (ha2 : a.val ≤ (1e300 : F64).val) (hx : 0 < x.val) (hx2 : x.val ≤ (1e301 : F64).val) :
    (-x + a * Libm.ln x - lnGamma a).isNaN = false ∧ (a.val ≤ (5.551115123125783e-17 : F64).val → -x + a * Libm.ln x - lnGamma a = ninf) := by
  have ra : Encl (mk2 0.0 1e300) a := rel_mk2 (by rw [zero_val]; exact ha.le) ha2
  have rx : Encl (mk2 0.0 1e301) x := rel_mk2 (by rw [zero_val]; exact hx.le) hx2
  have fx := (rel_inside (l := 0.0) (h := 1e301) rx (by decide +kernel)).1
  have rl := rel_ln L fx hx
  have r := rel_add (rel_neg rx) (rel_mul ra rl)
  have hf := (rel_inside (l := -1e306) (h := 1e306) r (by decide +kernel)).1
  rcases le_or_gt a.val (5.551115123125783e-17 : F64).val with h | h
  · rw [lnGamma_tiny L ha h]
    have e : -x + a * Libm.ln x - inf = ninf := by
      rw [sub_eq]; exact add_inf_right (b := -inf) hf (by decide)
    rw [e]
    exact ⟨by decide, fun _ => rfl⟩
  · exact ⟨(sub_spec hf (lnGamma_fin L (tiny_succ h) ha2)).1, fun h' => absurd h (not_lt.2 h')⟩

omit [Libm F64] in
theorem lit700 : (700.0 : F64).isFin = true ∧ (700.0 : F64).val = 700 := by
  refine ⟨by decide +kernel, ?_⟩
  have := val_of_int (x := (700.0 : F64)) 700 (by decide +kernel); rw [this]; norm_num

/-- the final scaling of `gser` and `gcf`: a positive number times `exp(l)` -/
theorem scale_num (L : LibmSpec) {s l : F64} (hs : PN s) (hs0 : 0 < s.val) (hl : l.isNaN = false) :
    PN (if F64.lt 700.0 l then s * inf else if F64.lt l (-700.0) then 0.0 else s * Libm.exp l) := by
  split
  · exact mul_pn hs (by decide) (fun _ => by rw [inf_val]; exact HUGE_pos) (fun _ => hs0)
  · rename_i h1
    split
    · exact (by decide +kernel : PN (0.0 : F64))
    · rename_i h2
      rw [Bool.not_eq_true, lt_false_iff (isFin_notNaN lit700.1) hl, lit700.2] at h1
      rw [Bool.not_eq_true, lt_false_iff hl (by decide +kernel), val_neg, lit700.2] at h2
      obtain ⟨e1, e2⟩ := L.exp_mid l (abs_le.2 ⟨h2, h1⟩)
      exact mul_pn hs (L.exp_num l hl) (fun _ => e2) (fun h => by rw [isFin_notInf e1] at h; cases h)

/-- `gser` returns a number with positive sign for all arguments it is called with -/
theorem gser_num (L : LibmSpec) {a x : F64} (ha : 0 < a.val) (ha2 : a.val ≤ (1e300 : F64).val) (hx : 0 < x.val) (hx2 : x.val ≤ (a + 1.0).val) :
    PN (gser a x) := by
  have fa : a.isFin = true := by
    rw [isFin_iff_val, abs_of_pos ha]; exact lt_of_le_of_lt ha2 (fin_lt lit_1e300.1)
  obtain ⟨b1, b2, b3⟩ := add_one_fin fa ha.le
  have ra : Encl (mk2 0.0 1e300 + 1.0) (a + 1.0) := rel_add (rel_mk2 (by rw [zero_val]; exact ha.le) ha2) (rel_lit _ _ _)
  have hx3 : x.val ≤ (1e301 : F64).val := hx2.trans (rel_inside (l := 0.0) (h := 1e301) ra (by decide +kernel)).2.2
  have fx : x.isFin = true := by
    rw [isFin_iff_val, abs_of_pos hx]; exact lt_of_le_of_lt hx2 (fin_lt b1)
  obtain ⟨l1, l2⟩ := logResult_num L ha ha2 hx hx3
  have hl : gser a x = if F64.lt 700.0 (-x + a * Libm.ln x - lnGamma a) then gserLoop x 10000 a (1.0 / a) (1.0 / a) * inf
      else if F64.lt (-x + a * Libm.ln x - lnGamma a) (-700.0) then 0.0
      else gserLoop x 10000 a (1.0 / a) (1.0 / a) * Libm.exp (-x + a * Libm.ln x - lnGamma a) := by
    unfold gser; simp only [ar_lt, ar_inf]
  rw [hl]
  rcases le_or_gt a.val (5.551115123125783e-17 : F64).val with h | h
  · rw [l2 h]
    have e1 : F64.lt 700.0 ninf = false := by decide +kernel
    have e2 : F64.lt ninf (-700.0) = true := by decide +kernel
    rw [e1, e2, if_neg Bool.false_ne_true, if_pos rfl]
    exact (by decide +kernel : PN (0.0 : F64))
  · have ri : Encl (1.0 / mk2 5.551115123125784e-17 1e300) (1.0 / a) := rel_div (rel_lit _ _ _) (rel_mk2 (tiny_succ h) ha2)
    obtain ⟨i1, i2, _⟩ := rel_inside (l := 1e-301) (h := 1e20) ri (by decide +kernel)
    have i3 : 0 < (1.0 / a).val := by
      have : F64.lt 0.0 1e-301 = true := by decide +kernel
      have := (lt_iff.1 this).2.2
      rw [zero_val] at this; linarith
    obtain ⟨s1, s2⟩ := gserLoop_num fx hx.le (neg_of_val_pos hx) 10000 a (1.0 / a) (1.0 / a) fa ha.le hx2 i1 (neg_of_val_pos i3)
      (pn_of_pos (isFin_notNaN i1) i3) i3
    exact scale_num L s1 s2 l1

end Verif
