import Verif.Proofs.BesselBound

/-!
# Properties of the Bessel functions: C41–C48, C51

`n` stands for the `u32` order (`n ≤ U32_MAX = 2^32 - 1` where it matters).  `NumEq a b`: equal as numbers, or both NaN.
-/

namespace Verif
open F64 OIv
set_option linter.unusedSectionVars false
variable [Libm F64] [Cfg]

/-- The outcomes `r` (at `x`) and `r'` (at `-x`) of a function of order `n`: both panic, or both return and `r' = (-1)^n r`. -/
def Parity (n : ℕ) (r r' : M F64) : Prop :=
  (Panics r ∧ Panics r') ∨ ∃ a b, Returns r a ∧ Returns r' b ∧ (n % 2 = 0 → NumEq b a) ∧ (n % 2 = 1 → NumEq b (-a))

omit [Libm F64] [Cfg] in
theorem parity_of_fix {n : ℕ} {x : F64} (hx : x.isNaN = false) (h0 : x.val ≠ 0) {m : M F64} (hm : m = .error .panic ∨ ∃ v, m = .ok v) :
    Parity n (m.bind fun a => .ok (if (F64.lt x 0.0 && decide (n % 2 = 1)) = true then -a else a))
      (m.bind fun a => .ok (if (F64.lt (-x) 0.0 && decide (n % 2 = 1)) = true then -a else a)) := by
  rcases hm with rfl | ⟨v, rfl⟩
  · exact Or.inl ⟨rfl, rfl⟩
  · refine Or.inr ⟨_, _, rfl, rfl, ?_, ?_⟩
    · intro h
      rw [sign_fix_odd n hx h0, if_neg (by omega)]; exact NumEq.refl _
    · intro h
      rw [sign_fix_odd n hx h0, if_pos h]; exact NumEq.refl _

theorem jnMag_cases {n : ℕ} (h0 : 0 < n) (hn : n ≤ U32_MAX) (ax : F64) : jnMag n ax = .error .panic ∨ ∃ v, jnMag n ax = .ok v := by
  unfold jnMag
  by_cases h : F64.lt (F64.ofNat n) ax = true
  · rw [if_pos h]; exact Or.inr ⟨_, rfl⟩
  · rw [if_neg h]
    rcases jnStart_cases h0 hn with h | ⟨v, h⟩
    · rw [h]; exact Or.inl rfl
    · rw [h]; exact Or.inr ⟨_, rfl⟩

theorem inMag_cases {n : ℕ} (h0 : 0 < n) (hn : n ≤ U32_MAX) (x : F64) : inMag n x = .error .panic ∨ ∃ v, inMag n x = .ok v := by
  unfold inMag
  rcases inStart_cases h0 hn with h | ⟨v, h⟩
  · rw [h]; exact Or.inl rfl
  · rw [h]; exact Or.inr ⟨_, rfl⟩

/-! ## C41 -/

/-- C41: `Jn(n, -x) = (-1)^n Jn(n, x)` for every order and every number `x` (finite or infinite). -/
theorem Jn_parity (n : ℕ) (hn : n ≤ U32_MAX) (x : F64) (hx : x.isNaN = false) : Parity n (Jn n x) (Jn n (-x)) := by
  rcases Nat.lt_or_ge n 2 with h2 | h2
  · interval_cases n
    · rw [Jn_zero, Jn_zero, j0_neg]
      exact Or.inr ⟨_, _, rfl, rfl, fun _ => NumEq.refl _, fun h => by omega⟩
    · rw [Jn_one, Jn_one]
      exact Or.inr ⟨_, _, rfl, rfl, fun h => by omega, fun _ => (j1_neg x).numEq⟩
  · by_cases ht : F64.le (x * x) (8.0 * Arith.minPos) = true
    · rw [Jn_tiny h2 ht, Jn_tiny h2 (by rw [mul_neg_neg]; exact ht)]
      exact Or.inr ⟨_, _, rfl, rfl, fun _ => NumEq.refl _, fun _ => numEq_zero_neg (by decide +kernel)⟩
    · rw [Jn_main h2 ht, Jn_main h2 (by rw [mul_neg_neg]; exact ht), abs_neg']
      exact parity_of_fix hx (ne_zero_of_sq hx ht) (jnMag_cases (by omega) hn _)

example : Parity 3 (Jn 3 (2.5 : F64)) (Jn 3 (-(2.5 : F64))) := Jn_parity 3 (by decide) _ (by decide +kernel)

/-! ## C42 -/

/-- C42 for every order but 1, and for order 1 when `|x| < 15`.  Missing: order 1 with `|x| ≥ 15`, where the claim is false
(`In_parity_fails`). -/
theorem In_parity_partial (n : ℕ) (hn : n ≤ U32_MAX) (x : F64) (hx : x.isNaN = false) (h1 : n ≠ 1 ∨ |x.val| < 15) :
    Parity n (In n x) (In n (-x)) := by
  rcases Nat.lt_or_ge n 2 with h2 | h2
  · interval_cases n
    · rw [In_zero, In_zero, i0_neg]
      exact Or.inr ⟨_, _, rfl, rfl, fun _ => NumEq.refl _, fun h => by omega⟩
    · rw [In_one, In_one]
      have h15 : |x.val| < 15 := by rcases h1 with h | h
                                    · exact absurd rfl h
                                    · exact h
      have e15 : (15.0 : F64).val = (15 : ℤ) := val_of_int 15 (by decide +kernel)
      have hl : F64.lt x.abs 15.0 = true := lt_iff.2 ⟨by simpa using hx, by decide +kernel, by
        rw [F64.val_abs, e15]; exact_mod_cast h15⟩
      exact Or.inr ⟨_, _, rfl, rfl, fun h => by omega, fun _ => (i1_neg hl).numEq⟩
  · by_cases ht : F64.le (x * x) (8.0 * Arith.minPos) = true
    · rw [In_tiny h2 ht, In_tiny h2 (by rw [mul_neg_neg]; exact ht)]
      exact Or.inr ⟨_, _, rfl, rfl, fun _ => NumEq.refl _, fun _ => numEq_zero_neg (by decide +kernel)⟩
    · rw [In_main h2 ht, In_main h2 (by rw [mul_neg_neg]; exact ht), inMag_neg]
      exact parity_of_fix hx (ne_zero_of_sq hx ht) (inMag_cases (by omega) hn _)

example : Parity 5 (In 5 (20.0 : F64)) (In 5 (-(20.0 : F64))) := In_parity_partial 5 (by decide) _ (by decide +kernel) (Or.inl (by decide))

omit [Cfg] in
theorem i1_at (x : F64) (h : F64.lt x.abs 15.0 = false) :
    i1 x = if F64.lt x 0.0 = true then -(Libm.exp x * poly (1.0 - 15.0 / x.abs) I1PP / (F64.sqrt x.abs * poly (1.0 - 15.0 / x.abs) I1QQ))
      else Libm.exp x * poly (1.0 - 15.0 / x.abs) I1PP / (F64.sqrt x.abs * poly (1.0 - 15.0 / x.abs) I1QQ) := by
  unfold i1
  simp only [ar_abs, ar_lt, ar_sqrt]
  rw [if_neg (by rw [h]; decide)]

/-- C42 is false of the code at order 1: `In(1, 20) > 10^5` but `|In(1, -20)| < 1` (the code uses `exp(x)` instead of `exp(|x|)`). -/
theorem In_parity_fails (A : LibmAcc) : ∃ a b, Returns (In 1 (20.0 : F64)) a ∧ Returns (In 1 (-(20.0 : F64))) b ∧ 10^5 < a.val ∧ |b.val| < 1 ∧
    ¬ NumEq b (-a) := by
  have v20 : (20.0 : F64).val = (20:ℤ) := val_of_int 20 (by decide +kernel)
  have v20' : (-(20.0 : F64)).val = -20 := by rw [val_neg, v20]; norm_num
  have he : Encl (mk2 9e6 1e10) (Libm.exp (20.0 : F64)) := by
    have h := A.exp_acc 20.0 (by rw [v20]; norm_num)
    rw [v20, abs_le] at h
    have e1 : Real.exp ((20:ℤ):ℝ) = Real.exp 1 ^ 20 := by rw [← Real.exp_nat_mul]; norm_num
    have l : (2.7:ℝ)^20 ≤ Real.exp 1 ^ 20 := pow_le_pow_left₀ (by norm_num) (by have := Real.exp_one_gt_d9; linarith) _
    have u : Real.exp 1 ^ 20 ≤ (2.8:ℝ)^20 := pow_le_pow_left₀ (Real.exp_pos _).le (by have := Real.exp_one_lt_d9; linarith) _
    rw [e1] at h
    have l' : (10^7:ℝ) ≤ 2.7^20 := by norm_num
    have u' : (2.8:ℝ)^20 ≤ 10^9 := by norm_num
    refine rel_mk2 ?_ ?_
    · rw [val_of_int (x := 9e6) (9*10^6) (by decide +kernel)]; push_cast; linarith
    · rw [val_of_int (x := 1e10) (10^10) (by decide +kernel)]; push_cast; linarith
  have he' : Encl (mk2 0.0 1.0) (Libm.exp (-(20.0 : F64))) := by
    refine rel_mk2 ?_ ?_
    · rw [Verif.zero_val]; exact (A.exp_mid _ (by rw [v20']; norm_num)).2.le
    · rw [Verif.one_val]; exact A.exp_le_one _ (by decide +kernel) (by rw [v20']; norm_num)
  have hs : Encl (mk2 4.0 5.0) (F64.sqrt (20.0 : F64)) := by
    obtain ⟨-, sv, -⟩ := sqrt_spec (a := (20.0 : F64)) (by decide +kernel) (by rw [v20]; norm_num)
    have e4 : (4.0 : F64).val = ((4:ℤ):ℝ) := val_of_int 4 (by decide +kernel)
    have e5 : (5.0 : F64).val = ((5:ℤ):ℝ) := val_of_int 5 (by decide +kernel)
    refine rel_mk2 ?_ ?_
    · rw [sv, e4, v20, ← RN_int 4 (by norm_num)]
      exact RN_mono (Real.le_sqrt_of_sq_le (by norm_num))
    · rw [sv, e5, v20, ← RN_int 5 (by norm_num)]
      exact RN_mono ((Real.sqrt_le_left (by norm_num)).2 (by norm_num))
  have h1 := rel_inside (rel_div (rel_mul he (rel_pt (poly (1.0 - 15.0 / (20.0:F64)) I1PP)))
    (rel_mul hs (rel_pt (poly (1.0 - 15.0 / (20.0:F64)) I1QQ)))) (l := 200000.0) (h := 1e12) (by decide +kernel)
  have h2 := rel_inside (rel_div (rel_mul he' (rel_pt (poly (1.0 - 15.0 / (20.0:F64)) I1PP)))
    (rel_mul hs (rel_pt (poly (1.0 - 15.0 / (20.0:F64)) I1QQ)))) (l := 0.0) (h := 0.5) (by decide +kernel)
  have l0 : F64.lt (20.0 : F64) 0.0 = false := by decide +kernel
  have l1 : F64.lt (-(20.0 : F64)) 0.0 = true := by decide +kernel
  have ea : F64.abs (20.0 : F64) = 20.0 := by decide +kernel
  have e1 := i1_at (20.0 : F64) (by decide +kernel)
  have e2 := i1_at (-(20.0 : F64)) (by decide +kernel)
  rw [l0, if_neg (by decide), ea] at e1
  rw [l1, if_pos rfl, abs_neg', ea] at e2
  rw [← e1] at h1
  have e2' : -(i1 (-(20.0 : F64))) = _ := (congrArg Neg.neg e2).trans (neg_neg' _)
  rw [← e2', val_neg, Verif.zero_val, half_val] at h2
  rw [val_of_int (x := 200000.0) 200000 (by decide +kernel)] at h1
  have b1 : |(i1 (-(20.0 : F64))).val| ≤ 1/2 := by rw [abs_le]; constructor <;> linarith [h2.2.1, h2.2.2]
  have a1 : (200000:ℝ) ≤ (i1 (20.0 : F64)).val := by exact_mod_cast h1.2.1
  refine ⟨_, _, In_one _, In_one _, by linarith, by linarith, ?_⟩
  rintro (⟨hn, -⟩ | ⟨-, -, hv⟩)
  · rw [← isNaN_neg, isFin_notNaN h2.1] at hn; cases hn
  · rw [val_neg] at hv
    rw [hv, abs_neg, abs_of_pos (by linarith)] at b1
    linarith

/-! ## C43 -/

omit [Libm F64] [Cfg] in
theorem upMinus_succ (t a b : F64) (k : ℕ) : (upMinus t a b (k+1)).2 = F64.ofNat (k+1) * t * (upMinus t a b k).2 - (upMinus t a b k).1 := rfl
omit [Libm F64] [Cfg] in
theorem upPlus_succ (t a b : F64) (k : ℕ) : (upPlus t a b (k+1)).2 = F64.ofNat (k+1) * t * (upPlus t a b k).2 + (upPlus t a b k).1 := rfl
omit [Libm F64] [Cfg] in
theorem upMinus_zero' (t a b : F64) : (upMinus t a b 0).1 = a := rfl
omit [Libm F64] [Cfg] in
theorem upPlus_zero' (t a b : F64) : (upPlus t a b 0).1 = a := rfl

omit [Libm F64] [Cfg] in
theorem rec_minus {t a b : F64} {f : ℕ → F64} (h0 : f 0 = a) (hs : ∀ n, f (n+1) = (upMinus t a b n).2) {n : ℕ} (hn : 1 ≤ n) :
    f (n+1) = F64.ofNat n * t * f n - f (n-1) := by
  obtain ⟨k, rfl⟩ : ∃ k, n = k + 1 := ⟨n - 1, by omega⟩
  rw [hs, hs, Nat.add_sub_cancel, upMinus_succ]
  rcases k with _ | k
  · rw [h0, upMinus_zero']
  · rw [hs, ← upMinus_fst _ _ _ k]

omit [Libm F64] [Cfg] in
theorem rec_plus {t a b : F64} {f : ℕ → F64} (h0 : f 0 = a) (hs : ∀ n, f (n+1) = (upPlus t a b n).2) {n : ℕ} (hn : 1 ≤ n) :
    f (n+1) = F64.ofNat n * t * f n + f (n-1) := by
  obtain ⟨k, rfl⟩ : ∃ k, n = k + 1 := ⟨n - 1, by omega⟩
  rw [hs, hs, Nat.add_sub_cancel, upPlus_succ]
  rcases k with _ | k
  · rw [h0, upPlus_zero']
  · rw [hs, ← upPlus_fst _ _ _ k]

theorem Yn_zero (x : F64) : Yn 0 x = y0 x := by unfold Yn; exact if_pos rfl
theorem Kn_zero (x : F64) : Kn 0 x = k0 x := by unfold Kn; exact if_pos rfl

/-- C43, second kind: the recurrence holds bit for bit. -/
theorem Yn_recurrence (n : ℕ) (hn : 1 ≤ n) (x : F64) : Yn (n+1) x = F64.ofNat n * (2.0 / x) * Yn n x - Yn (n-1) x :=
  rec_minus (f := fun n => Yn n x) (Yn_zero x) (fun n => Yn_eq n x) hn

/-- C43, modified second kind: the recurrence holds bit for bit. -/
theorem Kn_recurrence (n : ℕ) (hn : 1 ≤ n) (x : F64) : Kn (n+1) x = F64.ofNat n * (2.0 / x) * Kn n x + Kn (n-1) x :=
  rec_plus (f := fun n => Kn n x) (Kn_zero x) (fun n => Kn_eq n x) hn

theorem jnMag_up {n k : ℕ} {ax : F64} (hk : n - 1 = k) (h : F64.lt (F64.ofNat n) ax = true) :
    jnMag n ax = .ok (upMinus (2.0 / ax) (j0 ax) (j1 ax) k).2 := by
  subst hk
  unfold jnMag
  exact if_pos h

omit [Libm F64] [Cfg] in
theorem fix_pos {x v : F64} {m : M F64} {b : Bool} (h : F64.lt x 0.0 = false) (hm : m = .ok v) :
    (m.bind fun a => .ok (if (F64.lt x 0.0 && b) = true then -a else a)) = .ok v := by
  rw [hm, h]; rfl

/-- `Jn` beyond the turning point is the upward recurrence -/
theorem Jn_up {n : ℕ} {x : F64} (h : F64.lt (F64.ofNat (n+1)) x = true) : Jn (n+1) x = .ok (upMinus (2.0 / x) (j0 x) (j1 x) n).2 := by
  obtain ⟨ho, hx, hv⟩ := lt_iff.1 h
  have h1 : 1 ≤ (F64.ofNat (n+1)).val := by
    rw [(ofNat_spec _).2.1, ← RN_one]; exact RN_mono (by push_cast; linarith [(Nat.cast_nonneg n : (0:ℝ) ≤ n)])
  have hpos : 1 < x.val := by linarith
  have hax : x.abs = x := by
    have hs := neg_of_val_pos (by linarith : 0 < x.val)
    apply ext'
    · show false = x.neg; rw [hs]
    · rfl
  rcases n with _ | n
  · rw [Jn_one, upMinus_zero]
  · have ht : ¬ F64.le (x * x) (8.0 * Arith.minPos) = true := by
      intro hle
      have hm := mul_ge_one hx hx hpos.le hpos.le
      have := (le_iff.1 hle).2.2
      have h8 : (8.0 * Arith.minPos : F64).val < 1 := by
        have := (lt_iff.1 (by decide +kernel : F64.lt (8.0 * Arith.minPos) 1.0 = true)).2.2
        rwa [Verif.one_val] at this
      linarith [hm.2.2]
    have hsgn : F64.lt x 0.0 = false := by
      rw [lt_false_iff hx (by decide +kernel), Verif.zero_val]; linarith
    rw [Jn_main (by omega) ht, hax]
    exact fix_pos hsgn (jnMag_up (n := n + 2) (k := n + 1) rfl h)

omit [Libm F64] [Cfg] in
theorem lt_ofNat_mono {m n : ℕ} {x : F64} (hmn : m ≤ n) (h : F64.lt (F64.ofNat n) x = true) : F64.lt (F64.ofNat m) x = true := by
  obtain ⟨ho, hx, hv⟩ := lt_iff.1 h
  refine lt_iff.2 ⟨(ofNat_spec m).1, hx, lt_of_le_of_lt ?_ hv⟩
  rw [(ofNat_spec m).2.1, (ofNat_spec n).2.1]
  exact RN_mono (by exact_mod_cast hmn)

/-- C43, first kind beyond the turning point (`x > n + 1`): the recurrence holds bit for bit. -/
theorem Jn_recurrence (n : ℕ) (hn : 1 ≤ n) (x : F64) (hx : F64.lt (F64.ofNat (n+1)) x = true) :
    ∃ a b, Returns (Jn (n-1) x) a ∧ Returns (Jn n x) b ∧ Returns (Jn (n+1) x) (F64.ofNat n * (2.0 / x) * b - a) := by
  obtain ⟨k, rfl⟩ : ∃ k, n = k + 1 := ⟨n - 1, by omega⟩
  rcases k with _ | k
  · exact ⟨_, _, Jn_zero x, Jn_one x, Jn_up hx⟩
  · exact ⟨_, _, Jn_up (lt_ofNat_mono (by omega) hx), Jn_up (lt_ofNat_mono (by omega) hx), Jn_up hx⟩

example : F64.lt (F64.ofNat (5+1)) (7.5 : F64) = true := by decide +kernel

/-- C43, first kind for negative `x < -(n + 1)`: the recurrence holds, up to the sign of a zero result. -/
theorem Jn_recurrence_neg (n : ℕ) (hn : 1 ≤ n) (hmax : n + 1 ≤ U32_MAX) (x : F64) (hx : F64.lt (F64.ofNat (n+1)) (-x) = true) :
    ∃ a b c, Returns (Jn (n-1) x) a ∧ Returns (Jn n x) b ∧ Returns (Jn (n+1) x) c ∧ NumEq c (F64.ofNat n * (2.0 / x) * b - a) := by
  obtain ⟨a', b', ea, eb, ec⟩ := Jn_recurrence n hn (-x) hx
  have hxn : x.isNaN = false := by simpa using (lt_iff.1 hx).2.1
  have hnx : (-x).isNaN = false := (lt_iff.1 hx).2.1
  have key : ∀ (m : ℕ) (hm : m ≤ U32_MAX) (v : F64), Returns (Jn m (-x)) v → ∃ w, Returns (Jn m x) w ∧
      (m % 2 = 0 → NumEq w v) ∧ (m % 2 = 1 → NumEq w (-v)) := by
    intro m hm v hv
    rcases Jn_parity m hm (-x) hnx with ⟨p, -⟩ | ⟨a, b, h1, h2, h3, h4⟩
    · unfold Panics at p; unfold Returns at hv; rw [hv] at p; cases p
    · unfold Returns at h1 hv; rw [hv] at h1; injection h1 with h1; subst h1
      rw [neg_neg'] at h2
      exact ⟨b, h2, h3, h4⟩
  obtain ⟨a, ea', a0, a1⟩ := key (n-1) (by omega) a' ea
  obtain ⟨b, eb', b0, b1⟩ := key n (by omega) b' eb
  obtain ⟨c, ec', c0, c1⟩ := key (n+1) hmax _ ec
  refine ⟨a, b, c, ea', eb', ec', ?_⟩
  have hd : NumEq (2.0 / -x) (-(2.0 / x)) := (div_neg_right_same _ _).numEq
  have ht : NumEq (F64.ofNat n * (2.0 / -x)) (-(F64.ofNat n * (2.0 / x))) :=
    ((NumEq.refl _).mul hd).trans (numEq_mul_neg _ _)
  rcases Nat.mod_two_eq_zero_or_one n with h | h
  · -- n even: a = -a', b = b', c = -c'
    have A := a1 (by omega)
    have B := b0 h
    refine (c1 (by omega)).trans ?_
    have h1 : NumEq (F64.ofNat n * (2.0 / -x) * b') (-(F64.ofNat n * (2.0 / x) * b)) := F64.NumEq.mulNl ht B.symm
    have h2 : NumEq a' (-a) := by
      have := A.neg
      rw [neg_neg'] at this
      exact this.symm
    have := (F64.NumEq.subN h1 h2).neg
    rw [neg_neg'] at this
    exact this
  · -- n odd: a = a', b = -b', c = c'
    have A := a0 (by omega)
    have B := b1 h
    refine (c0 (by omega)).trans ?_
    have h2 : NumEq b' (-b) := by
      have := B.neg
      rw [neg_neg'] at this
      exact this.symm
    exact (F64.NumEq.mulNN ht h2).sub A.symm

example : F64.lt (F64.ofNat (5+1)) (-(-7.5 : F64)) = true := by decide +kernel

/-! ## C44 -/

/-- C44: `Yn(n, x)` is NaN for every order when `x` is negative or NaN. -/
theorem Yn_negative_nan (L : LibmSpec) (n : ℕ) (x : F64) (hx : x.isNaN = true ∨ (x.isNaN = false ∧ x.val < 0)) : (Yn n x).isNaN = true := by
  rcases n with _ | n
  · have : Yn 0 x = y0 x := by unfold Yn; exact if_pos rfl
    rw [this]; exact y0_bad L hx
  · rw [Yn_eq]; exact (upMinus_nan (y0_bad L hx) (y1_bad L hx) n).2

/-- C44: `Kn(n, x)` is NaN for every order when `x` is negative or NaN. -/
theorem Kn_negative_nan (L : LibmSpec) (n : ℕ) (x : F64) (hx : x.isNaN = true ∨ (x.isNaN = false ∧ x.val < 0)) : (Kn n x).isNaN = true := by
  rcases n with _ | n
  · have : Kn 0 x = k0 x := by unfold Kn; exact if_pos rfl
    rw [this]; exact k0_bad L hx
  · rw [Kn_eq]; exact (upPlus_nan (k0_bad L hx) (k1_bad L hx) n).2

example : (-0.5 : F64).isNaN = false ∧ (-0.5 : F64).val < 0 := by
  refine ⟨by decide +kernel, ?_⟩
  have := (lt_iff.1 (by decide +kernel : F64.lt (-0.5) 0.0 = true)).2.2
  rwa [Verif.zero_val] at this

/-! ## C45 -/

/-- C45 for `In` at every order, and for `Jn` at orders 0 and 1.  Missing: `Jn` at orders ≥ 2, where the claim is false
(`Jn_nan_fails`). -/
theorem bessel_nan_partial (L : LibmSpec) (x : F64) (hx : x.isNaN = true) :
    (∀ n v, Returns (In n x) v → v.isNaN = true) ∧ (∀ n v, n ≤ 1 → Returns (Jn n x) v → v.isNaN = true) := by
  constructor
  · intro n v hv
    unfold Returns at hv
    rcases Nat.lt_or_ge n 2 with h2 | h2
    · interval_cases n
      · rw [In_zero] at hv; injection hv with hv; subst hv; exact i0_nan L hx
      · rw [In_one] at hv; injection hv with hv; subst hv; exact i1_nan L hx
    · rw [In_main h2 (by rw [le_nan_left (nmul_l hx _)]; decide)] at hv
      unfold inMag at hv
      cases hs : inStart F64 n with
      | error e => rw [hs] at hv; cases hv
      | ok m =>
        rw [hs] at hv
        injection hv with hv
        rw [lt_nan_left hx] at hv
        rw [← hv]
        exact nmul_r _ (ndiv_l (i0_nan L hx) _)
  · intro n v hn hv
    unfold Returns at hv
    interval_cases n
    · rw [Jn_zero] at hv; injection hv with hv; subst hv; exact j0_nan hx
    · rw [Jn_one] at hv; injection hv with hv; subst hv; exact j1_nan hx

/-- C45 is false of the code: `Jn(2, NaN)` is a (subnormal) number. -/
theorem Jn_nan_fails : ∃ v, Returns (Jn 2 (F64.nan)) v ∧ v.isNaN = false := by
  refine ⟨F64.ofBits 0x0004000000000000, ?_, by decide +kernel⟩
  · unfold Returns
    rw [Jn_main (by decide) (by decide +kernel)]
    unfold jnMag
    rw [if_neg (by decide +kernel), jnStart_eq (by decide) (by decide), show Nat.sqrt (160 * 2) = 17 from (Nat.eq_sqrt.2 (by decide)).symm, wrapU_ok (by decide)]
    decide +kernel

/-! ## C46 -/

/-- C46 for orders 0 and 1: `|Jn(n, x)| ≤ 1` for every finite `x`.  Missing: orders ≥ 2, where the claim is false (`Jn_unbounded`). -/
theorem Jn_bounded_partial (L : LibmSpec) (n : ℕ) (hn : n ≤ 1) (x : F64) (hx : x.isFin = true) :
    ∃ v, Returns (Jn n x) v ∧ v.isFin = true ∧ |v.val| ≤ 1 := by
  interval_cases n
  · exact ⟨_, Jn_zero x, j0_bound L hx⟩
  · exact ⟨_, Jn_one x, j1_bound L hx⟩

example : (123.25 : F64).isFin = true := by decide +kernel

/-- C46 is false of the code: `Jn(20, 1e-20)` is `+∞` (the true value is about `10^-424`). -/
theorem Jn_unbounded : Returns (Jn 20 (1e-20 : F64)) F64.inf := by
  unfold Returns
  rw [Jn_main (by decide) (by decide +kernel)]
  unfold jnMag
  rw [if_neg (by decide +kernel), jnStart_eq (by decide) (by decide), show Nat.sqrt (160 * 20) = 56 from (Nat.eq_sqrt.2 (by decide)).symm,
    wrapU_ok (by decide)]
  decide +kernel

/-! ## C47 -/

/-- C47, exactly when `Jn` panics: only with overflow checks on, for `n ≥ 2`, `|x| ≤ n`, `x` not tiny, when `n + ⌊√(160 n)⌋` exceeds the
`u32` range. -/
theorem Jn_panic_iff (n : ℕ) (hn : n ≤ U32_MAX) (x : F64) :
    Panics (Jn n x) ↔ Cfg.checks = true ∧ 2^32 ≤ n + Nat.sqrt (160 * n) ∧
      F64.le (x * x) (8.0 * 2.2250738585072014e-308) = false ∧ F64.lt (F64.ofNat n) x.abs = false := by
  have hU : ∀ k, 2^32 ≤ k ↔ U32_MAX < k := fun k => by have : U32_MAX = 2^32 - 1 := rfl
                                                       omega
  have hm : (Arith.minPos : F64) = 2.2250738585072014e-308 := by decide +kernel
  unfold Panics
  rcases Nat.lt_or_ge n 2 with h2 | h2
  · have hs : ¬ 2^32 ≤ n + Nat.sqrt (160 * n) := by
      have := Nat.sqrt_lt'.2 (show 160 * n < 15 ^ 2 by omega)
      omega
    interval_cases n
    · rw [Jn_zero]; exact ⟨fun h => (nomatch h), fun h => absurd h.2.1 hs⟩
    · rw [Jn_one]; exact ⟨fun h => (nomatch h), fun h => absurd h.2.1 hs⟩
  · by_cases ht : F64.le (x * x) (8.0 * Arith.minPos) = true
    · rw [Jn_tiny h2 ht]
      rw [hm] at ht
      exact ⟨fun h => (nomatch h), fun h => by rw [ht] at h; exact (nomatch h.2.2.1)⟩
    · rw [Jn_main h2 ht]
      unfold jnMag
      rw [hm, Bool.not_eq_true] at ht
      by_cases hl : F64.lt (F64.ofNat n) x.abs = true
      · rw [if_pos hl]
        exact ⟨fun h => (nomatch h), fun h => by rw [hl] at h; exact (nomatch h.2.2.2)⟩
      · rw [if_neg hl]
        rw [Bool.not_eq_true] at hl
        have hp := jnStart_panic_iff (n := n) (by omega) hn
        rw [hU]
        rcases jnStart_cases (n := n) (by omega) hn with h | ⟨v, h⟩
        · have := hp.1 h
          rw [h]
          exact ⟨fun _ => ⟨this.1, this.2, ht, hl⟩, fun _ => rfl⟩
        · rw [h]
          refine ⟨fun h => (nomatch h), fun h' => ?_⟩
          rw [hp.2 ⟨h'.1, h'.2.1⟩] at h; exact (nomatch h)

/-- C47, exactly when `In` panics: only with overflow checks on, for `x` not tiny, when `2 (n + ⌊√(200 n)⌋)` exceeds the `u32` range. -/
theorem In_panic_iff (n : ℕ) (hn : n ≤ U32_MAX) (x : F64) :
    Panics (In n x) ↔ Cfg.checks = true ∧ 2^32 ≤ 2 * (n + Nat.sqrt (200 * n)) ∧
      F64.le (x * x) (8.0 * 2.2250738585072014e-308) = false := by
  have hU : ∀ k, 2^32 ≤ k ↔ U32_MAX < k := fun k => by have : U32_MAX = 2^32 - 1 := rfl
                                                       omega
  have hm : (Arith.minPos : F64) = 2.2250738585072014e-308 := by decide +kernel
  unfold Panics
  rcases Nat.lt_or_ge n 2 with h2 | h2
  · have hs : ¬ 2^32 ≤ 2 * (n + Nat.sqrt (200 * n)) := by
      have := Nat.sqrt_lt'.2 (show 200 * n < 15 ^ 2 by omega)
      omega
    interval_cases n
    · rw [In_zero]; exact ⟨fun h => (nomatch h), fun h => absurd h.2.1 hs⟩
    · rw [In_one]; exact ⟨fun h => (nomatch h), fun h => absurd h.2.1 hs⟩
  · by_cases ht : F64.le (x * x) (8.0 * Arith.minPos) = true
    · rw [In_tiny h2 ht]
      rw [hm] at ht
      exact ⟨fun h => (nomatch h), fun h => by rw [ht] at h; exact (nomatch h.2.2)⟩
    · rw [In_main h2 ht]
      unfold inMag
      rw [hm, Bool.not_eq_true] at ht
      have hp := inStart_panic_iff (n := n) (by omega) hn
      rw [hU]
      rcases inStart_cases (n := n) (by omega) hn with h | ⟨v, h⟩
      · have := hp.1 h
        rw [h]
        exact ⟨fun _ => ⟨this.1, this.2, ht⟩, fun _ => rfl⟩
      · rw [h]
        refine ⟨fun h => (nomatch h), fun h' => ?_⟩
        rw [hp.2 ⟨h'.1, h'.2.1⟩] at h; exact (nomatch h)

theorem Jn_cases (n : ℕ) (hn : n ≤ U32_MAX) (x : F64) : Panics (Jn n x) ∨ ∃ v, Returns (Jn n x) v := by
  rcases Nat.lt_or_ge n 2 with h2 | h2
  · interval_cases n
    · exact Or.inr ⟨_, Jn_zero x⟩
    · exact Or.inr ⟨_, Jn_one x⟩
  · by_cases ht : F64.le (x * x) (8.0 * Arith.minPos) = true
    · exact Or.inr ⟨_, Jn_tiny h2 ht⟩
    · rw [Jn_main h2 ht]
      rcases jnMag_cases (n := n) (by omega) hn x.abs with h | ⟨v, h⟩
      · rw [h]; exact Or.inl rfl
      · rw [h]; exact Or.inr ⟨_, rfl⟩

theorem In_cases (n : ℕ) (hn : n ≤ U32_MAX) (x : F64) : Panics (In n x) ∨ ∃ v, Returns (In n x) v := by
  rcases Nat.lt_or_ge n 2 with h2 | h2
  · interval_cases n
    · exact Or.inr ⟨_, In_zero x⟩
    · exact Or.inr ⟨_, In_one x⟩
  · by_cases ht : F64.le (x * x) (8.0 * Arith.minPos) = true
    · exact Or.inr ⟨_, In_tiny h2 ht⟩
    · rw [In_main h2 ht]
      rcases inMag_cases (n := n) (by omega) hn x with h | ⟨v, h⟩
      · rw [h]; exact Or.inl rfl
      · rw [h]; exact Or.inr ⟨_, rfl⟩

/-- C47 for all orders up to two billion: both functions return.  Missing: larger orders, where the claim is false with overflow checks on
(`bessel_order_panics`; `Jn_panic_iff`, `In_panic_iff` say exactly when). -/
theorem bessel_order_partial (n : ℕ) (hn : n ≤ 2000000000) (x : F64) :
    (∃ v, Returns (Jn n x) v) ∧ (∃ v, Returns (In n x) v) := by
  have hU : n ≤ U32_MAX := by have : U32_MAX = 2^32 - 1 := rfl
                              omega
  have hs : ∀ q, q ≤ 200 → Nat.sqrt (q * n) ≤ 700000 := by
    intro q hq
    exact (Nat.sqrt_lt'.2 (lt_of_le_of_lt (Nat.mul_le_mul hq hn) (by norm_num))).le
  constructor
  · rcases Jn_cases n hU x with h | h
    · have := ((Jn_panic_iff n hU x).1 h).2.1
      have := hs 160 (by norm_num)
      omega
    · exact h
  · rcases In_cases n hU x with h | h
    · have := ((In_panic_iff n hU x).1 h).2.1
      have := hs 200 (by norm_num)
      omega
    · exact h

/-- C47 is false of the code in a build with overflow checks: `Jn(4294967295, 1.0)` and `In(2147483648, 1.0)` panic. -/
theorem bessel_order_panics (hc : Cfg.checks = true) : Panics (Jn 4294967295 (1.0 : F64)) ∧ Panics (In 2147483648 (1.0 : F64)) := by
  constructor
  · rw [Jn_panic_iff _ (by decide)]
    exact ⟨hc, by have := Nat.le_sqrt'.2 (show 1 ^ 2 ≤ 160 * 4294967295 by norm_num); omega, by decide +kernel, by decide +kernel⟩
  · rw [In_panic_iff _ (by decide)]
    exact ⟨hc, by omega, by decide +kernel⟩

/-! ## C48 -/

/-- C48: `besseljy` and `besselik` panic for every `x ≤ 0`, every `nu < 0` and every NaN argument. -/
theorem bessel_reject (nu x : F64) (h : nu.isNaN = true ∨ x.isNaN = true ∨ x.val ≤ 0 ∨ nu.val < 0) :
    Panics (besseljy nu x) ∧ Panics (besselik nu x) := by
  by_cases hn : nu.isNaN = true ∨ x.isNaN = true
  · exact ⟨besseljy_nan hn, besselik_nan hn⟩
  · rw [not_or, Bool.not_eq_true, Bool.not_eq_true] at hn
    have z0 : (0.0 : F64).isNaN = false := by decide +kernel
    have : F64.le x 0.0 = true ∨ F64.lt nu 0.0 = true := by
      rcases h with h | h | h | h
      · rw [hn.1] at h; cases h
      · rw [hn.2] at h; cases h
      · exact Or.inl (le_iff.2 ⟨hn.2, z0, by rw [Verif.zero_val]; exact h⟩)
      · exact Or.inr (lt_iff.2 ⟨hn.1, z0, by rw [Verif.zero_val]; exact h⟩)
    exact ⟨besseljy_guard this, besselik_guard this⟩

example : (0.5 : F64).isNaN = true ∨ (0.0 : F64).isNaN = true ∨ (0.0 : F64).val ≤ 0 ∨ (0.5 : F64).val < 0 :=
  Or.inr (Or.inr (Or.inl (by rw [Verif.zero_val])))

/-! ## C51 -/

/-- C51: `Jnu_Ynu` returns the first two components of `besseljy`, and panics exactly when that panics. -/
theorem JnuYnu_agree (nu x : F64) :
    (Panics (JnuYnu nu x) ↔ Panics (besseljy nu x)) ∧
    (∀ j y j' y', Returns (besseljy nu x) (j, y, j', y') → Returns (JnuYnu nu x) (j, y)) ∧
    (∀ j y, Returns (JnuYnu nu x) (j, y) → ∃ j' y', Returns (besseljy nu x) (j, y, j', y')) := by
  unfold Panics Returns JnuYnu
  cases besseljy nu x with
  | error e => exact ⟨by cases e <;> exact ⟨fun h => by first | rfl | (nomatch h), fun h => by first | rfl | (nomatch h)⟩, fun _ _ _ _ h => (nomatch h), fun _ _ h => (nomatch h)⟩
  | ok v =>
    obtain ⟨a, b, c, d⟩ := v
    refine ⟨⟨fun h => (nomatch h), fun h => (nomatch h)⟩, ?_, ?_⟩
    · intro j y j' y' h; injection h with h; injection h with h1 h2; injection h2 with h2 h3; subst h1; subst h2; rfl
    · intro j y h
      have h' : (Except.ok (a, b) : M (F64 × F64)) = .ok (j, y) := h
      injection h' with h'; injection h' with h1 h2; subst h1; subst h2; exact ⟨_, _, rfl⟩

/-- C51: `Inu_Knu` returns the first two components of `besselik`, and panics exactly when that panics. -/
theorem InuKnu_agree (nu x : F64) :
    (Panics (InuKnu nu x) ↔ Panics (besselik nu x)) ∧
    (∀ i k i' k', Returns (besselik nu x) (i, k, i', k') → Returns (InuKnu nu x) (i, k)) ∧
    (∀ i k, Returns (InuKnu nu x) (i, k) → ∃ i' k', Returns (besselik nu x) (i, k, i', k')) := by
  unfold Panics Returns InuKnu
  cases besselik nu x with
  | error e => exact ⟨by cases e <;> exact ⟨fun h => by first | rfl | (nomatch h), fun h => by first | rfl | (nomatch h)⟩, fun _ _ _ _ h => (nomatch h), fun _ _ h => (nomatch h)⟩
  | ok v =>
    obtain ⟨a, b, c, d⟩ := v
    refine ⟨⟨fun h => (nomatch h), fun h => (nomatch h)⟩, ?_, ?_⟩
    · intro j y j' y' h; injection h with h; injection h with h1 h2; injection h2 with h2 h3; subst h1; subst h2; rfl
    · intro j y h
      have h' : (Except.ok (a, b) : M (F64 × F64)) = .ok (j, y) := h
      injection h' with h'; injection h' with h1 h2; subst h1; subst h2; exact ⟨_, _, rfl⟩

end Verif
