import Verif.Proofs.InvGammaNaN

/-! C81: `invgammp p a` returns a quantile for every `a > 0` and `0 < p < 1`. -/

namespace Verif
open F64

variable [Libm F64]

/-- from an iterate where `gammp` is NaN the iteration panics at its next step -/
theorem invgammpLoop_nan {p a a1 lna1 gln afac x g : F64} (n : Nat) (hx : F64.le x 0.0 = false) (hg : gammp a x = .ok g) (hn : g.isNaN = true) :
    invgammpLoop p a a1 lna1 gln afac (n+2) x = .error .panic := by
  have nn : nan.isNaN = true := by decide
  rw [invgammpLoop]
  simp only [ar_le, ar_lt, ar_abs, ar_max, ar_min]
  rw [hx, if_neg Bool.false_ne_true, hg]
  simp only [bind, Except.bind]
  rw [sub_nan_left hn, div_nan_left nn, div_nan_left nn, sub_nan_right nn, le_nan_left nn, if_neg Bool.false_ne_true,
    lt_nan_left (a := F64.abs nan) (by decide), if_neg Bool.false_ne_true, invgammpLoop]
  simp only [ar_le]
  rw [le_nan_left nn, if_neg Bool.false_ne_true, (gammpq_panic_nan a nan (Or.inr nn)).1]
  rfl

/-- C81 is false of the code: for every `100 ≤ a ≤ 2^52` and every `10⁻¹⁰ ≤ p ≤ 0.45` the call `invgammp p a` panics.  The first guess falls
in the region where `gammp` is NaN (`gammpq_nan`), the next iterate is NaN, and `gammp` asserts on it. -/
theorem invgammp_panics_large (A : LibmAcc) (p a : F64) (h1 : 100 ≤ a.val) (h2 : a.val ≤ 2^52) (p1 : 1 / 10^10 ≤ p.val) (p2 : p.val ≤ 0.45) :
    Panics (invgammp p a) := by
  have a0 : 0 < a.val := by linarith
  have p0 : 0 < p.val := lt_of_lt_of_le (by norm_num) p1
  have fa : a.isFin = true := isFin_of_abs (b := 2^52) (by rw [abs_of_pos a0]; exact h2) (by norm_num)
  have fp : p.isFin = true := isFin_of_abs (b := 1) (by rw [abs_of_pos p0]; linarith) (by norm_num)
  have v1 : (1.0 : F64).val = 1 := by exact_mod_cast val_of_int (x := (1.0 : F64)) 1 (by decide +kernel)
  have v5 : (0.45 : ℝ) < (0.5 : F64).val := by
    have e : (0.5 : F64).val = ((1:ℤ):ℝ) / ((2:ℕ):ℝ) := val_of_sv 1 2 (by norm_num) (by decide +kernel)
    rw [e]; norm_num
  have e1 : F64.lt 0.0 a = true := lt_iff.2 ⟨by decide +kernel, isFin_notNaN fa, by rw [zero_val]; exact a0⟩
  have e2 : F64.le 1.0 p = false := by
    rw [le_false_iff (by decide +kernel) (isFin_notNaN fp), v1]; linarith
  have e3 : F64.le p 0.0 = false := by
    rw [le_false_iff (isFin_notNaN fp) (by decide +kernel), zero_val]; exact p0
  have e4 : F64.lt 1.0 a = true := lt_iff.2 ⟨by decide +kernel, isFin_notNaN fa, by rw [v1]; linarith⟩
  have e5 : F64.lt p 0.5 = true := lt_iff.2 ⟨isFin_notNaN fp, by decide +kernel, by linarith⟩
  obtain ⟨ft, t1, t2⟩ := Igp.t_bounds A p1 p2
  obtain ⟨fz, z1, z2⟩ := Igp.z_bounds ft t1 t2
  obtain ⟨fg, g1, g2⟩ := Igp.guess_bounds h1 h2 fz z1 z2
  have key : ∀ gln lna1 : F64, a.val / 4 ≤ (invgammpGuess p a (a - 1.0) lna1 gln).1.val ∧
      (invgammpGuess p a (a - 1.0) lna1 gln).1.val ≤ a.val - 1 ∧ (invgammpGuess p a (a - 1.0) lna1 gln).1.isNaN = false := by
    intro gln lna1
    unfold invgammpGuess
    simp only [ar_lt, ar_max, e4, e5, if_true]
    change _ ≤ (F64.max _ _).val ∧ (F64.max _ _).val ≤ _ ∧ (F64.max _ _).isNaN = false
    obtain ⟨m1, m2⟩ := max_val (a := (1e-3 : F64)) (by decide +kernel) (isFin_notNaN fg)
    have small : (1e-3 : F64).val ≤ 1 := by
      have := (le_iff.1 (show F64.le 1e-3 1.0 = true by decide +kernel)).2.2
      rwa [v1] at this
    refine ⟨?_, ?_, m1⟩
    · exact g1.trans (m2 ▸ le_max_right _ _)
    · exact m2 ▸ max_le (by linarith) g2
  unfold Panics
  rw [invgammp_eq, e1, if_pos rfl, e2, if_neg Bool.false_ne_true, e3, if_neg Bool.false_ne_true]
  obtain ⟨k1, k2, k3⟩ := key (lnGamma a) (Libm.ln (a - 1.0))
  obtain ⟨g, q, r1, -, r2, -⟩ := gammpq_nan A.toLibmSpec a _ h1 h2 k1 k2
  exact invgammpLoop_nan 10 (by rw [le_false_iff k3 (by decide +kernel), zero_val]; linarith) r1 r2

/-- the hypotheses are met by `p = 0.25`, `a = 150` and the correctly rounded functions -/
example : ∃ _ : Libm F64, LibmAcc ∧ 100 ≤ (150.0 : F64).val ∧ (150.0 : F64).val ≤ 2^52 ∧ 1 / 10^10 ≤ (0.25 : F64).val ∧ (0.25 : F64).val ≤ 0.45 := by
  have e : (150.0 : F64).val = 150 := by exact_mod_cast val_of_int (x := (150.0 : F64)) 150 (by decide +kernel)
  have q : (0.25 : F64).val = ((1:ℤ):ℝ) / ((4:ℕ):ℝ) := val_of_sv 1 4 (by norm_num) (by decide +kernel)
  exact ⟨idealLibm, ideal_acc, by rw [e]; norm_num, by rw [e]; norm_num, by rw [q]; norm_num, by rw [q]; norm_num⟩

/-! ## exact arithmetic -/

theorem gammp_real_ok {a x : ℝ} (ha : 0 < a) (hx : 0 ≤ x) : ∃ g, gammp a x = .ok g := by
  have e1 : Arith.le (0.0 : ℝ) x = true := decide_eq_true (by norm_num; exact hx)
  have e2 : Arith.lt (0.0 : ℝ) a = true := decide_eq_true (by norm_num; exact ha)
  unfold gammp
  rw [e1, e2]
  simp only [Bool.and_self, if_true]
  split_ifs <;> exact ⟨_, rfl⟩

theorem invgammpLoop_real_ok {p a a1 lna1 gln afac : ℝ} (ha : 0 < a) (n : Nat) : ∀ x : ℝ, 0 < x →
    ∃ v, invgammpLoop p a a1 lna1 gln afac n x = .ok v ∧ 0 < v := by
  induction n with
  | zero => intro x hx; exact ⟨x, rfl, hx⟩
  | succ n ih =>
    intro x hx
    rw [invgammpLoop]
    have e1 : Arith.le x (0.0 : ℝ) = false := decide_eq_false (by norm_num; exact hx)
    obtain ⟨g, hg⟩ := gammp_real_ok ha hx.le
    rw [e1, if_neg Bool.false_ne_true, hg]
    simp only [bind, Except.bind]
    generalize (g - p) / _ / _ = t
    have pos : 0 < (if Arith.le (x - t) (0.0 : ℝ) = true then 0.5 * (x - t + t) else x - t) := by
      split_ifs with h
      · rw [sub_add_cancel]; positivity
      · have : ¬ (x - t ≤ 0.0) := fun k => h (decide_eq_true k)
        norm_num at this ⊢
        exact this
    generalize (if Arith.le (x - t) (0.0 : ℝ) = true then 0.5 * (x - t + t) else x - t) = y at pos ⊢
    by_cases hs : Arith.lt (Arith.abs t) (Arith.max (y * EPS) EPS) = true
    · rw [if_pos hs]; exact ⟨y, rfl, pos⟩
    · rw [if_neg hs]; exact ih y pos

/-- C81, what does hold: in exact arithmetic, for every `0 < a < 100` and `0 < p < 1`, the call returns, and the result is positive.
Missing from the full claim: it is false in binary64 (`invgammp_panics_large`), and how near the result is to the quantile is not bounded. -/
theorem invgammp_exact_returns_partial (p a : ℝ) (ha : 0 < a) (ha2 : a < 100) (hp0 : 0 < p) (hp1 : p < 1) :
    ∃ v, Returns (invgammp p a) v ∧ 0 < v := by
  unfold Returns invgammp
  have e1 : Arith.lt (0.0 : ℝ) a = true := decide_eq_true (by norm_num; exact ha)
  have e2 : Arith.le (1.0 : ℝ) p = false := decide_eq_false (by norm_num; exact hp1)
  have e3 : Arith.le p (0.0 : ℝ) = false := decide_eq_false (by norm_num; exact hp0)
  simp only [e1, e2, e3, if_true, Bool.false_eq_true, if_false]
  apply invgammpLoop_real_ok ha
  unfold invgammpGuess
  by_cases h1 : Arith.lt (1.0 : ℝ) a = true
  · rw [if_pos h1]
    exact lt_of_lt_of_le (by norm_num) (le_max_left (1e-3 : ℝ) _)
  rw [if_neg h1]
  by_cases h2 : Arith.lt p (1.0 - a * (0.253 + a * 0.12)) = true
  · simp only [h2, if_true]
    have h2' : p < 1.0 - a * (0.253 + a * 0.12) := of_decide_eq_true h2
    exact Real.rpow_pos_of_pos (div_pos hp0 (hp0.trans h2')) _
  · simp only [h2, if_false, Bool.false_eq_true]
    have h2' : ¬ (p < 1.0 - a * (0.253 + a * 0.12)) := fun k => h2 (decide_eq_true k)
    rw [not_lt] at h2'
    have ht : (1.0 - a * (0.253 + a * 0.12) : ℝ) < 1 := by
      have : 0 < a * (0.253 + a * 0.12) := by positivity
      norm_num at this ⊢; linarith
    show 0 < (1.0 : ℝ) - Real.log _
    generalize (1.0 - a * (0.253 + a * 0.12) : ℝ) = t at *
    have q0 : 0 ≤ (p - t) / (1.0 - t) := div_nonneg (by linarith) (by norm_num; linarith)
    have q1 : (p - t) / (1.0 - t) < 1 := by
      rw [div_lt_one (by norm_num; linarith)]; norm_num; linarith
    have := Real.log_nonpos (x := 1.0 - (p - t) / (1.0 - t)) (by norm_num at *; linarith) (by norm_num at *; linarith)
    norm_num at this ⊢
    linarith

example : (0:ℝ) < 3.5 ∧ (3.5:ℝ) < 100 ∧ (0:ℝ) < 0.3 ∧ (0.3:ℝ) < 1 := by norm_num

end Verif
