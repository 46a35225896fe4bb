import Verif.Proofs.Beta2

/-!
# Properties of the beta functions (src/beta.rs): C22–C25
-/

namespace Verif
open F64 OIv
variable [Libm F64]

omit [Libm F64] in
theorem pos_iff {z : F64} : F64.lt 0.0 z = true ↔ z.isNaN = false ∧ 0 < z.val := by
  rw [lt_iff, zero_val]
  exact ⟨fun h => h.2, fun h => ⟨nn_zero, h⟩⟩

/-! ## C22 -/

/-- C22: `beta(z,w)` panics iff not both arguments are positive numbers. -/
theorem beta_panic_iff (z w : F64) : Panics (beta z w) ↔ ¬ ((z.isNaN = false ∧ 0 < z.val) ∧ (w.isNaN = false ∧ 0 < w.val)) := by
  rw [← pos_iff, ← pos_iff, ← Bool.and_eq_true]
  unfold Panics beta
  simp only [ar_lt]
  rcases h : (F64.lt 0.0 z && F64.lt 0.0 w) with _ | _
  · simp
  · simp

/-- C22: `beta` is symmetric bit for bit, for all arguments. -/
theorem beta_symm (z w : F64) : beta z w = beta w z := by
  unfold beta
  rw [Bool.and_comm, add_comm' (a := lnGamma z), add_comm' (a := z)]

/-- C22: when it returns, the result is at least zero, or NaN. -/
theorem beta_nonneg (L : LibmSpec) (z w v : F64) (h : Returns (beta z w) v) : v.isNaN = true ∨ 0 ≤ v.val := by
  unfold Returns beta at h
  split at h
  · cases h
    exact (exp_ps L _).val
  · cases h

/-- C22: for arguments between `2^-53` and `1e299` the result is a number. -/
theorem beta_number (L : LibmSpec) (z w : F64) (hz : 2^(-53:ℤ) ≤ z.val ∧ z.val ≤ (1e299 : F64).val) (hw : 2^(-53:ℤ) ≤ w.val ∧ w.val ≤ (1e299 : F64).val) :
    ∃ v, Returns (beta z w) v ∧ v.isNaN = false ∧ 0 ≤ v.val := by
  have p53 : (2:ℝ)^(-54:ℤ) < 2^(-53:ℤ) := zpow_lt_zpow_right₀ (by norm_num) (by norm_num)
  have pp : (0:ℝ) < 2^(-53:ℤ) := by positivity
  have b99 : (1e299 : F64).val ≤ (1e300 : F64).val := val_le_of_le (by decide +kernel)
  have f99 : (1e299 : F64).isFin = true := by decide +kernel
  have fz : z.isFin = true := by
    rw [isFin_iff_val, abs_of_nonneg (by linarith)]; exact lt_of_le_of_lt hz.2 (fin_lt f99)
  have fw : w.isFin = true := by
    rw [isFin_iff_val, abs_of_nonneg (by linarith)]; exact lt_of_le_of_lt hw.2 (fin_lt f99)
  have S := add_spec fz fw
  have s1 : z.val ≤ (z + w).val := by rw [S.2]; exact le_RN_of_le (isFin_notNaN fz) (by linarith)
  have s2 : (z + w).val ≤ (1e300 : F64).val := by
    have S2 := add_spec f99 f99
    refine le_trans ?_ (val_le_of_le (by decide +kernel : F64.le ((1e299 : F64) + 1e299) 1e300 = true))
    rw [S.2, S2.2]; exact RN_mono (by linarith)
  have t : ∀ u : F64, z.val ≤ u.val ∨ w.val ≤ u.val → (5.551115123125784e-17 : F64).val ≤ u.val := fun u hu =>
    tiny_succ (by rw [tiny_val']; rcases hu with h | h <;> linarith)
  have g1 := lnGamma_fin L (t z (Or.inl (le_refl _))) (hz.2.trans b99)
  have g2 := lnGamma_fin L (t w (Or.inr (le_refl _))) (hw.2.trans b99)
  have g3 := lnGamma_fin L (t (z + w) (Or.inl s1)) s2
  have p1 : F64.lt 0.0 z = true := pos_iff.2 ⟨isFin_notNaN fz, by linarith⟩
  have p2 : F64.lt 0.0 w = true := pos_iff.2 ⟨isFin_notNaN fw, by linarith⟩
  have e : beta z w = .ok (Libm.exp (lnGamma z + lnGamma w - lnGamma (z + w))) := by
    unfold beta
    have hc : (F64.lt 0.0 z && F64.lt 0.0 w) = true := by rw [Bool.and_eq_true]; exact ⟨p1, p2⟩
    exact if_pos hc
  refine Exists.intro _ (And.intro e ?_)
  have hn : (lnGamma z + lnGamma w - lnGamma (z + w)).isNaN = false := by
    have A1 := add_spec g1 g2
    rcases fin_or_inf A1.1 with h | h
    · exact (sub_spec h g3).1
    · have : lnGamma z + lnGamma w - lnGamma (z + w) = lnGamma z + lnGamma w := by
        rw [sub_eq]
        exact add_inf_left h (val_of_neg (isFin_notNaN g3)) (fun hc => by
          have : (-lnGamma (z + w)).isFin = true := by rw [isFin_neg]; exact g3
          rw [isFin_notInf this] at hc; cases hc)
      rw [this]; exact A1.1
  exact ⟨(L.exp_num _ hn).1, val_nonneg_of_neg (L.exp_num _ hn).2⟩

example : (2:ℝ)^(-53:ℤ) ≤ (2.5 : F64).val ∧ (2.5 : F64).val ≤ (1e299 : F64).val := by
  refine ⟨?_, val_le_of_le (by decide +kernel)⟩
  have := le_val_of_sv (x := (2.5 : F64)) 5 2 (by norm_num) (by decide +kernel)
  push_cast at this
  refine le_trans ?_ this
  rw [zpow_neg]; norm_num

/-! ## C23 -/

/-- C23: `betai(a,b,x)` panics iff not (`a > 0`, `b > 0` and `0 ≤ x ≤ 1`). -/
theorem betai_panic_iff (a b x : F64) :
    Panics (betai a b x) ↔ ¬ ((a.isNaN = false ∧ 0 < a.val) ∧ (b.isNaN = false ∧ 0 < b.val) ∧ x.Mem 0 1) := by
  have hx : (F64.le 0.0 x && F64.le x 1.0) = true ↔ x.Mem 0 1 := by
    rw [Bool.and_eq_true, le_iff, le_iff, zero_val, one_val]
    constructor
    · rintro ⟨⟨_, h1, h2⟩, _, _, h3⟩; exact ⟨h1, h2, h3⟩
    · rintro ⟨h1, h2, h3⟩; exact ⟨⟨nn_zero, h1, h2⟩, h1, nn_one, h3⟩
  rw [← pos_iff, ← pos_iff, ← hx]
  unfold Panics
  constructor
  · rintro h ⟨h1, h2, h3⟩
    obtain ⟨v, hv⟩ := betai_total (a := a) (b := b) (by rw [h1, h2, Bool.and_self]) h3
    rw [hv] at h; cases h
  · intro h
    rw [betai_eq]
    rcases c1 : (F64.lt 0.0 a && F64.lt 0.0 b) with _ | _
    · rw [if_pos rfl]
    · rcases c2 : (F64.le 0.0 x && F64.le x 1.0) with _ | _
      · rw [if_neg (by decide), if_pos rfl]
      · rw [Bool.and_eq_true] at c1
        exact absurd ⟨c1.1, c1.2, c2⟩ h

/-- C23: end points: `betai(a,b,±0) = ±0` and `betai(a,b,1) = 1`. -/
theorem betai_end_points (a b x : F64) (ha : a.isNaN = false ∧ 0 < a.val) (hb : b.isNaN = false ∧ 0 < b.val) :
    (x.isZero = true → Returns (betai a b x) x) ∧ Returns (betai a b 1.0) 1.0 := by
  unfold Returns
  constructor
  · intro h
    rw [betai_eq, pos_iff.2 ha, pos_iff.2 hb, if_neg (by decide)]
    have hn := isFin_notNaN (isZero_fin h)
    have hv := val_eq_zero.2 h
    have e1 : F64.le 0.0 x = true := le_iff.2 ⟨nn_zero, hn, by rw [hv, zero_val]⟩
    have e2 : F64.le x 1.0 = true := le_iff.2 ⟨hn, nn_one, by rw [hv, one_val]; norm_num⟩
    rw [e1, e2, eq_zero_iff.2 h]
    rfl
  · rw [betai_eq, pos_iff.2 ha, pos_iff.2 hb, if_neg (by decide), if_neg (by decide +kernel), if_pos (by decide +kernel)]

example : ((1.5 : F64).isNaN = false ∧ 0 < (1.5 : F64).val) ∧ ((2.5 : F64).isNaN = false ∧ 0 < (2.5 : F64).val) ∧ (-0.0 : F64).isZero = true := by
  rw [← pos_iff, ← pos_iff]; decide +kernel

/-! ## C24 -/

/-- C24 is false of the code: for every `3000 < a ≤ 2^50` the quadrature branch returns zero or NaN for `betai(a,a,1/2)`, where the
true value is 1/2 (the exponent of the integrand lacks a pair of parentheses and always underflows). -/
theorem betai_large_wrong (A : LibmAcc) (a : F64) (h1 : 3000 < a.val) (h2 : a.val ≤ 2^50) :
    ∃ v, Returns (betai a a 0.5) v ∧ (v.isNaN = true ∨ v.val = 0) := by
  have fa : a.isFin = true := abs_fin (b := 2^50) (by linarith) h2 (by norm_num)
  have e0 : F64.lt 0.0 a = true := pos_iff.2 ⟨isFin_notNaN fa, by linarith⟩
  have v3 : (F64.ofNat 3000).val = 3000 := by have := val_of_int (x := F64.ofNat 3000) 3000 (by decide +kernel); rw [this]; norm_num
  have e1 : F64.lt (F64.ofNat 3000) a = true := lt_iff.2 ⟨by decide +kernel, isFin_notNaN fa, by rw [v3]; exact h1⟩
  refine ⟨betaiapprox a a 0.5, ?_, ?_⟩
  · unfold Returns
    rw [betai_eq, e0, e1, if_neg (by decide), if_neg (by decide +kernel), if_neg (by decide +kernel), Bool.and_self, if_pos rfl]
  · exact (beta_half_zero A h1 h2).imp id val_eq_zero.2

example : 3000 < (4000.0 : F64).val ∧ (4000.0 : F64).val ≤ 2^50 := by
  have a := val_of_int (x := (4000.0 : F64)) 4000 (by decide +kernel)
  rw [a]; norm_num

omit [Libm F64] in
/-- C24, what does hold, in exact arithmetic (the code run on real numbers with the exact `exp` and `ln`): the reflection
`I_x(a,b) = 1 - I_(1-x)(b,a)` for `a ≤ 3000` or `b ≤ 3000`, whenever the two calls take different branches.
Missing: large parameters (false, see `betai_large_wrong`), equal branches, and rounding. -/
theorem betai_reflection_partial (a b x v w : ℝ) (h3 : a ≤ 3000 ∨ b ≤ 3000) (hv : betai a b x = .ok v) (hw : betai b a (1 - x) = .ok w)
    (h1 : (a + 1) / (a + b * 2) ≤ x) (h2 : 1 - x < (b + 1) / (b + a * 2)) (hx0 : x ≠ 0) (hx1 : x ≠ 1) : v + w = 1 := by
  have e2 : (2.0:ℝ) = 2 := by norm_num
  have e1 : (1.0:ℝ) = 1 := by norm_num
  have e0 : (0.0:ℝ) = 0 := by norm_num
  have c1 : (Arith.lt (Arith.ofNat 3000 : ℝ) a && Arith.lt (Arith.ofNat 3000 : ℝ) b) = false := by
    show (decide (((3000:ℕ):ℝ) < a) && decide (((3000:ℕ):ℝ) < b)) = false
    push_cast
    rcases h3 with h | h
    · rw [decide_eq_false (not_lt.2 h), Bool.false_and]
    · rw [decide_eq_false (not_lt.2 h), Bool.and_false]
  have c1' : (Arith.lt (Arith.ofNat 3000 : ℝ) b && Arith.lt (Arith.ofNat 3000 : ℝ) a) = false := by rw [Bool.and_comm]; exact c1
  have c2 : (Arith.eq x 0.0 || Arith.eq x 1.0) = false := by
    show (decide (x = 0.0) || decide (x = 1.0)) = false
    rw [e0, e1, decide_eq_false hx0, decide_eq_false hx1]; rfl
  have c3 : (Arith.eq (1 - x) 0.0 || Arith.eq (1 - x) 1.0) = false := by
    show (decide (1 - x = 0.0) || decide (1 - x = 1.0)) = false
    rw [e0, e1, decide_eq_false (fun h => hx1 (by linarith)), decide_eq_false (fun h => hx0 (by linarith))]; rfl
  have c4 : Arith.lt x ((a + 1.0) / (a + b * 2.0)) = false := by
    rw [e1, e2]; exact decide_eq_false (not_lt.2 h1)
  have c5 : Arith.lt (1 - x) ((b + 1.0) / (b + a * 2.0)) = true := by
    rw [e1, e2]; exact decide_eq_true h2
  unfold betai at hv hw
  simp only [c1, c1', c2, c3, c4, c5, if_true, if_false, Bool.false_eq_true] at hv hw
  split at hv
  · cases hv
  split at hv
  · cases hv
  split at hw
  · cases hw
  split at hw
  · cases hw
  injection hv with hv
  injection hw with hw
  rw [← hv, ← hw]
  simp only [e1, sub_sub_cancel]
  rw [show lnGamma (b + a) - lnGamma b - lnGamma a + b * Libm.ln (1 - x) + a * Libm.ln x
    = lnGamma (a + b) - lnGamma a - lnGamma b + a * Libm.ln x + b * Libm.ln (1 - x) by rw [add_comm b a]; ring]
  ring

omit [Libm F64] in
example : ((1:ℝ) + 1) / (1 + 1 * 2) ≤ 3/4 ∧ (1:ℝ) - 3/4 < (1 + 1) / (1 + 1 * 2) ∧ (3/4 : ℝ) ≠ 0 ∧ (3/4 : ℝ) ≠ 1 ∧
    (∃ v, betai (1:ℝ) 1 (3/4) = .ok v) ∧ ∃ w, betai (1:ℝ) 1 (1 - 3/4) = .ok w := by
  refine ⟨by norm_num, by norm_num, by norm_num, by norm_num, ?_, ?_⟩
  all_goals
    unfold betai
    simp only [show ∀ u v : ℝ, Arith.lt u v = decide (u < v) from fun _ _ => rfl, show ∀ u v : ℝ, Arith.le u v = decide (u ≤ v) from fun _ _ => rfl]
    norm_num
    split
    · exact ⟨_, rfl⟩
    split <;> exact ⟨_, rfl⟩

/-! ## C25 -/

/-- C25: `invbetai` saturates for every `a`, `b`. -/
theorem invbetai_saturates (p a b : F64) (hp : p.isNaN = false) :
    (p.val ≤ 0 → Returns (invbetai p a b) 0.0) ∧ (1 ≤ p.val → Returns (invbetai p a b) 1.0) := by
  unfold Returns invbetai
  simp only [ar_le]
  constructor
  · intro h
    rw [le_iff.2 ⟨hp, nn_zero, by rw [zero_val]; exact h⟩]; rfl
  · intro h
    rw [le_false_of_lt (by rw [zero_val]; linarith), le_iff.2 ⟨nn_one, hp, by rw [one_val]; exact h⟩]; rfl

/-- C25: whatever `invbetai` returns lies in `[0,1]`, or is NaN. -/
theorem invbetai_range (p a b v : F64) (h : Returns (invbetai p a b) v) : v.isNaN = true ∨ v.Mem 0 1 := by
  have key : v.isNaN = true ∨ (0 ≤ v.val ∧ v.val ≤ 1) := by
    unfold Returns invbetai at h
    simp only [ar_le] at h
    rcases ite_ok h with h | h
    · right; rw [← h, zero_val]; norm_num
    · rcases ite_ok h with h | h
      · right; rw [← h, one_val]; norm_num
      · exact invbetaiLoop_range _ _ _ _ _ _ 10 0 _ _ (fun h => absurd h (by decide)) h
  rcases hn : v.isNaN with _ | _
  · right
    rw [hn] at key
    rcases key with h | h
    · cases h
    · exact ⟨hn, h⟩
  · left; rfl

end Verif
