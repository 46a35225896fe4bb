import Verif.Proofs.BesselJnF
import Verif.Props.BesselF64

/-!
# C74: `Jn(n, ·)` for `n ≥ 2` and `|x| > n` (src/bessel.rs)

`besselJR n` (`Verif.SpecBessel`) is the Bessel function `J_n`.  For `|x| > n` the program runs the three-term recurrence
upwards from the orders 0 and 1.  The errors of these two values and the rounding errors are amplified at most by the
factor `ρ = (|x|+1)/(|x|-n+1)`.
-/

namespace Verif
open Bes BesX Real F64

section exact
variable [Cfg]

omit [Cfg] in
theorem upMinus_real (x a b : ℝ) (f : ℕ → ℝ) (h0 : f 0 = a) (h1 : f 1 = b)
    (hs : ∀ k, f (k + 2) = (k + 1 : ℕ) * (2 / x) * f (k + 1) - f k) : ∀ k, upMinus (2 / x) a b k = (f k, f (k + 1))
  | 0 => by show (a, b) = _; rw [h0, h1]
  | k + 1 => by
    show ((upMinus (2 / x) a b k).2, (((k + 1 : ℕ) : ℝ)) * (2 / x) * (upMinus (2 / x) a b k).2 - (upMinus (2 / x) a b k).1) = _
    rw [upMinus_real x a b f h0 h1 hs k, hs k]

omit [Cfg] in
/-- the recurrence has a solution with given starting values -/
theorem up_exists (x a b : ℝ) : ∃ f : ℕ → ℝ, f 0 = a ∧ f 1 = b ∧ ∀ k, f (k + 2) = (k + 1 : ℕ) * (2 / x) * f (k + 1) - f k := by
  let g : ℕ → ℝ × ℝ := fun k => Nat.rec (a, b) (fun k s => (s.2, (k + 1 : ℕ) * (2 / x) * s.2 - s.1)) k
  exact ⟨fun k => (g k).1, rfl, rfl, fun k => rfl⟩

/-- C74, exact arithmetic, `|x| > n`: the error is at most `1.42·ρ` times the error of the values of order 0 and 1 -/
theorem Jn_exact_upward (n : ℕ) (x : ℝ) (h2 : 2 ≤ n) (hx : n < |x|) : ∃ v, Jn n x = .ok v ∧
    (|x| < 8 → |v - besselJR n x| ≤ (|x| + 1) / (|x| - n + 1) * 1.5e-14) ∧
    (8 ≤ |x| → |v - besselJR n x| ≤ (|x| + 1) / (|x| - n + 1) * (1.9e-12 / √|x|)) := by
  obtain ⟨f, f0, f1, fs⟩ := up_exists |x| (j0 |x|) (j1 |x|)
  have hn2 : (2:ℝ) ≤ n := by exact_mod_cast h2
  have hx0 : 0 < |x| := by linarith
  have hJ : Jn n x = .ok (if x < 0 ∧ n % 2 = 1 then -f n else f n) := by
    unfold Jn
    rw [if_neg (by omega), if_neg (by omega), if_neg (by
      show ¬ (decide (x * x ≤ 8.0 * (1 / 2 ^ 1022 : ℝ)) = true)
      rw [decide_eq_true_eq, not_le, show (8.0 : ℝ) = 8 by norm_num, mul_one_div]
      refine lt_of_lt_of_le (b := 1) ?_ ?_
      · rw [div_lt_one (by positivity)]
        calc (8:ℝ) = 2 ^ 3 := by norm_num
          _ < 2 ^ 1022 := pow_lt_pow_right₀ (by norm_num) (by norm_num)
      · rw [← abs_mul_abs_self]; nlinarith)]
    have hlt : ((Arith.ofNat n : ℝ) <ᶠ Arith.abs x) = true := by
      show (decide ((n : ℝ) < |x|) = true)
      rw [decide_eq_true_eq]; exact hx
    simp only []
    rw [if_pos hlt]
    have e2 : (2.0 : ℝ) / Arith.abs x = 2 / |x| := by
      show (2.0 : ℝ) / |x| = _
      norm_num
    have e3 : (upMinus (2 / |x|) (j0 |x|) (j1 |x|) (n - 1)).2 = f n := by
      rw [upMinus_real |x| _ _ f f0 f1 fs, show n - 1 + 1 = n by omega]
    show Except.ok (if decide (x < (0.0 : ℝ)) && decide (n % 2 = 1) then -(upMinus ((2.0 : ℝ) / Arith.abs x) (j0 |x|) (j1 |x|) (n - 1)).2
      else (upMinus ((2.0 : ℝ) / Arith.abs x) (j0 |x|) (j1 |x|) (n - 1)).2) = _
    rw [e2, e3, show (0.0 : ℝ) = 0 by norm_num]
    congr 1
    by_cases hc : x < 0 ∧ n % 2 = 1
    · rw [if_pos (by simpa using hc), if_pos hc]
    · rw [if_neg (by simpa using hc), if_neg hc]
  have key : ∀ ε, |j0 |x| - besselJR 0 (|x|)| ≤ ε → |j1 |x| - besselJR 1 (|x|)| ≤ ε →
      |(if x < 0 ∧ n % 2 = 1 then -f n else f n) - besselJR n x| ≤ (|x| + 1) / (|x| - n + 1) * (1.42 * ε) := by
    intro ε h0 h1
    have h := up_error (x := |x|) (δ := 0) (N := 1.42 * ε) (e := fun i => f i - besselJR i |x|) (n := n) hx0 (by omega) hx.le
      (EQ_zero_le (by show |f 0 - _| ≤ ε; rw [f0]; exact h0) (by show |f 1 - _| ≤ ε; rw [f1]; exact h1)) le_rfl (by
        intro k _
        show |(f (k + 2) - besselJR (k + 2) |x|) - ((k + 1 : ℕ) * (2 / |x|) * (f (k + 1) - besselJR (k + 1) |x|) - (f k - besselJR k |x|))| ≤ 0
        rw [fs k, J_rec k hx0.ne']
        refine le_of_eq ?_
        rw [abs_eq_zero]; ring)
    rw [mul_zero, add_zero] at h
    rw [J_parity n x]
    by_cases hc : x < 0 ∧ n % 2 = 1
    · rw [if_pos hc, if_pos hc, neg_one_mul, ← neg_sub', abs_neg]; exact h
    · rw [if_neg hc, if_neg hc, one_mul]; exact h
  have hρ : 0 ≤ (|x| + 1) / (|x| - n + 1) := div_nonneg (by linarith) (by linarith)
  refine ⟨_, hJ, fun h => ?_, fun h => ?_⟩
  · refine (key 1.01e-14 ((j0_left (x := |x|) (by rwa [abs_abs])).trans (by norm_num)) ((j1_left (x := |x|) (by rwa [abs_abs])).trans ?_)).trans
      (mul_le_mul_of_nonneg_left (by norm_num) hρ)
    rw [abs_abs]; norm_num at *; linarith
  · have a := j0_right (x := |x|) (by rwa [abs_abs])
    have b := j1_right (x := |x|) (by rwa [abs_abs])
    rw [abs_abs] at a b
    refine (key _ a b).trans (mul_le_mul_of_nonneg_left ?_ hρ)
    rw [← mul_div_assoc]
    exact div_le_div_of_nonneg_right (by norm_num) (Real.sqrt_nonneg _)

/-- the hypotheses can be met: `|Jn(3, -10) - J_3(-10)| ≤ 8.4·10^-13` -/
example : ∃ v, Jn 3 (-10 : ℝ) = .ok v ∧ |v - besselJR 3 (-10)| ≤ 8.4e-13 := by
  have e : |(-10:ℝ)| = 10 := by norm_num
  obtain ⟨v, h, -, h2⟩ := Jn_exact_upward 3 (-10) (by decide) (by rw [e]; norm_num)
  rw [e] at h2
  refine ⟨v, h, (h2 (by norm_num)).trans ?_⟩
  have h3 : (3.16:ℝ) ≤ √10 := Real.le_sqrt_of_sq_le (by norm_num)
  have h4 : 1.9e-12 / √10 ≤ 1.9e-12 / 3.16 := div_le_div_of_nonneg_left (by norm_num) (by norm_num) h3
  norm_num at h4 ⊢
  linarith

end exact

variable [Cfg] [Libm F64]

/-- C74 in binary64, `|x| > n`, with `ρ = (|x|+1)/(|x|-n+1)` and `nρ ≤ 2^45` (automatic for `n ≤ 4·10⁶`, see
`rho_small`): the result is finite and within `1.42·ρ` times the error of the orders 0 and 1 plus `35·n·ρ²` half units in
the last place of 1 -/
theorem Jn_upward_accurate (L : LibmTrig) {x : F64} {n : ℕ} {ρ : ℝ} (h2 : 2 ≤ n) (hn : n ≤ U32_MAX) (hf : x.isFin = true) (hx : n < |x.val|)
    (hρ : ρ = (|x.val| + 1) / (|x.val| - n + 1)) (hs : n * ρ ≤ 2 ^ 45) : ∃ v, Jn n x = .ok v ∧ v.isFin = true ∧
    (|x.val| < 8 → |v.val - besselJR n x.val| ≤ ρ * (2.9e-14 + 35 * n * ρ / 2 ^ 53)) ∧
    (8 ≤ |x.val| → |v.val - besselJR n x.val| ≤ ρ * (1.42 * ((1.31e-12 + |x.val| / 2 ^ 53) / √|x.val|) + 35 * n * ρ / 2 ^ 53)) := by
  have hn2 : (2:ℝ) ≤ n := by exact_mod_cast h2
  have hn32 : n ≤ 2 ^ 32 := hn.trans (by decide)
  have haf : x.abs.isFin = true := by rw [isFin_abs]; exact hf
  have hax : x.abs.val = |x.val| := val_abs x
  have haa : |x.abs.val| = |x.val| := by rw [hax, abs_abs]
  have hv := ofNat_val (hn32.trans (by norm_num : 2 ^ 32 ≤ 2 ^ 53))
  have hlt' : F64.lt (F64.ofNat n) x.abs = true := by
    rw [lt_iff]
    refine ⟨isFin_notNaN hv.1, isFin_notNaN haf, ?_⟩
    rw [hv.2, hax]; exact hx
  have hcut : ¬ F64.le (x * x) (8.0 * Arith.minPos) = true := by
    intro hle
    have h3 := (le_iff.1 hle).2.2
    have h4 : (8.0 * Arith.minPos : F64).val < (1.0 : F64).val := (lt_iff.1 (by decide +kernel : F64.lt (8.0 * Arith.minPos) 1.0 = true)).2.2
    rw [(mul_spec hf hf).2.1] at h3
    have h5 : RN 1 ≤ RN (x.val * x.val) := by
      refine RN_mono ?_
      rw [← abs_mul_abs_self]; nlinarith
    rw [RN_one] at h5
    rw [Verif.one_val] at h4
    linarith
  have b0 := j0_bound L.toLibmSpec haf
  have b1 := j1_bound L.toLibmSpec haf
  have key : ∀ ε, |(j0 x.abs).val - besselJR 0 x.abs.val| ≤ ε → |(j1 x.abs).val - besselJR 1 x.abs.val| ≤ ε →
      (upMinus (2.0 / x.abs) (j0 x.abs) (j1 x.abs) (n - 1)).2.isFin = true ∧
      |(upMinus (2.0 / x.abs) (j0 x.abs) (j1 x.abs) (n - 1)).2.val - besselJR n (|x.val|)| ≤ ρ * (1.42 * ε + 35 * n * ρ / 2 ^ 53) := by
    intro ε e0 e1
    have := up_acc haf (by omega : 1 ≤ n) hn32 (by rw [hax]; exact hx.le) b0.2 b1.2 (by rw [hax]; exact hρ) hs e0 e1
    rw [hax] at this
    exact this
  have hlt : F64.lt x 0.0 = true ↔ x.val < 0 := by
    rw [lt_iff, Verif.zero_val]
    exact ⟨fun h => h.2.2, fun h => ⟨isFin_notNaN hf, by decide +kernel, h⟩⟩
  have hc : (F64.lt x 0.0 && decide (n % 2 = 1)) = true ↔ x.val < 0 ∧ n % 2 = 1 := by
    rw [Bool.and_eq_true, hlt, decide_eq_true_eq]
  have hρ0 : 0 ≤ ρ := by rw [hρ]; exact div_nonneg (by linarith) (by linarith)
  have hJ : Jn n x = .ok (if (F64.lt x 0.0 && decide (n % 2 = 1)) = true then -(upMinus (2.0 / x.abs) (j0 x.abs) (j1 x.abs) (n - 1)).2
      else (upMinus (2.0 / x.abs) (j0 x.abs) (j1 x.abs) (n - 1)).2) := by
    rw [Jn_main h2 hcut]
    unfold jnMag
    rw [if_pos hlt']
    rfl
  have fin : ∀ E, (upMinus (2.0 / x.abs) (j0 x.abs) (j1 x.abs) (n - 1)).2.isFin = true →
      |(upMinus (2.0 / x.abs) (j0 x.abs) (j1 x.abs) (n - 1)).2.val - besselJR n (|x.val|)| ≤ E →
      |(if (F64.lt x 0.0 && decide (n % 2 = 1)) = true then -(upMinus (2.0 / x.abs) (j0 x.abs) (j1 x.abs) (n - 1)).2
      else (upMinus (2.0 / x.abs) (j0 x.abs) (j1 x.abs) (n - 1)).2).val - besselJR n x.val| ≤ E := by
    intro E _ h
    rw [J_parity n x.val]
    by_cases h' : x.val < 0 ∧ n % 2 = 1
    · rw [if_pos (hc.2 h'), if_pos h', val_neg, neg_one_mul, ← neg_sub', abs_neg]; exact h
    · rw [if_neg (fun h'' => h' (hc.1 h'')), if_neg h', one_mul]; exact h
  have hfin : (upMinus (2.0 / x.abs) (j0 x.abs) (j1 x.abs) (n - 1)).2.isFin = true := by
    rcases lt_or_ge |x.val| 8 with h | h
    · exact (key _ (j0_acc_left (by rw [haa]; exact h)).2 (j1_acc_left (by rw [haa]; exact h)).2).1
    · exact (key _ (j0_acc_right L (by rw [haa]; exact h) haf).2 (j1_acc_right L (by rw [haa]; exact h) haf).2).1
  refine ⟨_, hJ, ?_, fun h => ?_, fun h => ?_⟩
  · split_ifs
    · rw [isFin_neg]; exact hfin
    · exact hfin
  · refine fin _ hfin ((key _ (j0_acc_left (by rw [haa]; exact h)).2 (j1_acc_left (by rw [haa]; exact h)).2).2.trans ?_)
    exact mul_le_mul_of_nonneg_left (by norm_num) hρ0
  · have a := (j0_acc_right L (by rw [haa]; exact h) haf).2
    have b := (j1_acc_right L (by rw [haa]; exact h) haf).2
    rw [haa] at a b
    exact fin _ hfin (key _ a b).2

/-- the condition on `ρ` holds for every `n ≤ 4·10⁶` -/
theorem rho_small {y : ℝ} {n : ℕ} (hy : n < y) (hn : n ≤ 4000000) : n * ((y + 1) / (y - n + 1)) ≤ 2 ^ 45 := by
  have hn' : (n:ℝ) ≤ 4000000 := by exact_mod_cast hn
  have h0 : (0:ℝ) ≤ n := Nat.cast_nonneg _
  have : (y + 1) / (y - n + 1) ≤ n + 1 := by
    rw [div_le_iff₀ (by linarith)]
    nlinarith
  refine (mul_le_mul_of_nonneg_left this h0).trans ?_
  norm_num
  nlinarith

example : (letI := idealLibm; ∃ v, Jn 5 (-100.0 : F64) = .ok v ∧ |v.val - besselJR 5 (-100.0 : F64).val| ≤ 2.2e-13) := by
  let _ := idealLibm
  have e : (-100.0 : F64).val = -100 := by rw [val_neg, val_of_int (x := (100.0 : F64)) 100 (by decide +kernel)]; norm_num
  have ea : |(-100.0 : F64).val| = 100 := by rw [e]; norm_num
  obtain ⟨v, h, -, -, h2⟩ := Jn_upward_accurate ideal_trig (x := (-100.0 : F64)) (n := 5) (by decide) (by decide) (by decide +kernel) (by rw [ea]; norm_num) rfl
    (rho_small (by rw [ea]; norm_num) (by decide))
  have h3 := h2 (by rw [ea]; norm_num)
  have hs : √(100:ℝ) = 10 := by rw [show (100:ℝ) = 10 ^ 2 by norm_num, Real.sqrt_sq (by norm_num)]
  rw [ea, hs] at h3
  exact ⟨v, h, h3.trans (by norm_num)⟩

end Verif
