import Verif.Proofs.BesselJd3
import Verif.Props.BesselJnAcc

/-!
# C74: `Jn(n, ·)` for `n ≥ 2` and `|x| ≤ n` (src/bessel.rs) in exact arithmetic

For `|x| ≤ n` the program runs the recurrence downwards from the order `m = 2⌊(n + ⌊√(160n)⌋)/2⌋` and normalises by
`b_0 + 2(b_2 + … + b_{m-2})`.
-/

namespace Verif
open Bes Real
variable [Cfg]

omit [Cfg] in
theorem J_tiny {n : ℕ} (hn : 2 ≤ n) {x : ℝ} (hx : 0 < x) (h1 : x ≤ 1) : besselJR n x ≤ x * x / 2 := by
  have hle : besselJR n x ≤ besselJR 2 x := J_anti' hx (by norm_num; linarith) hn
  have a0 := (le_abs_self _).trans (J_abs_le_one 0 x)
  have r0 := J_rec 0 hx.ne'
  have r1 := J_rec 1 hx.ne'
  have m1 := J_mono hx (j := 0) (by norm_num; linarith)
  have m2 := J_mono hx (j := 1) (by norm_num; linarith)
  have m3 := J_mono hx (j := 2) (by norm_num; linarith)
  norm_num at r0 r1 m1 m2 m3
  have h5 : besselJR 1 x * 2 ≤ 2 * x := by
    have e : 2 / x * besselJR 1 x = besselJR 2 x + besselJR 0 x := by linarith
    rw [div_mul_eq_mul_div, div_eq_iff hx.ne'] at e
    have h4 : besselJR 2 x + besselJR 0 x ≤ 2 := by linarith
    have := mul_le_mul_of_nonneg_right h4 hx.le
    linarith
  have h6 : besselJR 2 x * 4 ≤ 2 * (besselJR 1 x * x) := by
    have e : 2 * (2 / x) * besselJR 2 x = besselJR 3 x + besselJR 1 x := by linarith
    have e2 : 2 * (2 / x) * besselJR 2 x = besselJR 2 x * 4 / x := by ring
    rw [e2, div_eq_iff hx.ne'] at e
    have h4 : besselJR 3 x + besselJR 1 x ≤ 2 * besselJR 1 x := by linarith
    have := mul_le_mul_of_nonneg_right h4 hx.le
    linarith
  nlinarith

/-- C74, exact arithmetic, `|x| ≤ n`, `2 ≤ n ≤ 2·10⁹`: relative error at most `2.1·10^-13`; the program's cut-off to zero
costs at most `2^-1020` -/
theorem Jn_exact_downward (n : ℕ) (x : ℝ) (h2 : 2 ≤ n) (hn : n ≤ 2000000000) (hx : |x| ≤ n) : ∃ v, Jn n x = .ok v ∧
    |v - besselJR n x| ≤ 2.1e-13 * |besselJR n x| + 1 / 2 ^ 1020 ∧
    (8 / 2 ^ 1022 < x * x → |v - besselJR n x| ≤ 2.1e-13 * |besselJR n x|) := by
  have hp : |besselJR n x| = abs (besselJR n |x|) := by
    rw [J_parity n x, abs_mul]
    split_ifs <;> simp
  have key : 8 / 2 ^ 1022 < x * x → ∃ v, Jn n x = .ok v ∧ |v - besselJR n x| ≤ 2.1e-13 * |besselJR n x| := by
    intro h0
    have hx0 : x ≠ 0 := by
      rintro rfl
      rw [mul_zero] at h0
      exact absurd h0 (not_lt.2 (by positivity))
    have hax := abs_pos.2 hx0
    have pn := J_pos hax hx
    set M := (n + Nat.sqrt (160 * n)) / 2 with hM
    have hs : 1 ≤ Nat.sqrt (160 * n) := Nat.le_sqrt.2 (by omega)
    obtain ⟨b, hb⟩ := downward_exists 1 x (2 * M)
    refine ⟨_, Jn_rescaling n (2 * M) x h2 hn hx h0 rfl b hb, ?_⟩
    have hb' : Downward 1 |x| (2 * M) b := ⟨hb.top, hb.start, by intro j hj; rw [abs_abs]; exact hb.step j hj⟩
    have hm := miller_J (η := 2e-13) hax hb' hx (by omega) (jstart_ok hax hx h2 hn hM) (by norm_num)
    rw [show 2 * M / 2 = M by omega]
    change abs (b n / (b 0 + 2 * ∑ k ∈ Finset.Ico 1 M, b (2 * k)) - besselJR n |x|) ≤ _ at hm
    have hfin : abs (b n / (b 0 + 2 * ∑ k ∈ Finset.Ico 1 M, b (2 * k)) - besselJR n |x|) ≤ 2.1e-13 * besselJR n |x| :=
      hm.trans (mul_le_mul_of_nonneg_right (by norm_num) pn.le)
    rw [hp, abs_of_pos pn, J_parity n x]
    split_ifs
    · rw [neg_one_mul, neg_one_mul, ← neg_sub', abs_neg]; exact hfin
    · rw [one_mul, one_mul]; exact hfin
  by_cases h0 : 8 / 2 ^ 1022 < x * x
  · obtain ⟨v, hv, hv2⟩ := key h0
    exact ⟨v, hv, hv2.trans (le_add_of_nonneg_right (by positivity)), fun _ => hv2⟩
  · refine ⟨0, ?_, ?_, fun h => absurd h h0⟩
    · unfold Jn
      rw [if_neg (by omega), if_neg (by omega), if_pos (by
        show decide (x * x ≤ 8.0 * (1 / 2 ^ 1022 : ℝ)) = true
        rw [decide_eq_true_eq]
        refine (not_lt.1 h0).trans_eq ?_
        rw [show (8.0 : ℝ) = 8 by norm_num, mul_one_div])]
      norm_num
    · have h0' := not_lt.1 h0
      have hw : |besselJR n x| ≤ 1 / 2 ^ 1020 := by
        rw [hp]
        rcases eq_or_ne x 0 with rfl | hx0
        · rw [besselJR_eq, abs_zero, zero_div, zero_pow (by omega), zero_mul, abs_zero]; positivity
        · have hs : |x| * |x| = x * x := abs_mul_abs_self x
          have hax := abs_pos.2 hx0
          have h1 : |x| ≤ 1 := by
            have : |x| * |x| ≤ 1 := by
              rw [hs]; refine h0'.trans ?_
              rw [div_le_one (by positivity)]
              calc (8:ℝ) = 2 ^ 3 := by norm_num
                _ ≤ 2 ^ 1022 := pow_le_pow_right₀ (by norm_num) (by norm_num)
            nlinarith
          have ht := J_tiny h2 hax h1
          rw [hs] at ht
          rw [abs_of_pos (J_pos hax hx)]
          refine ht.trans ?_
          have e : (8:ℝ) / 2 ^ 1022 = 2 * (1 / 2 ^ 1020) := by rw [show (1022:ℕ) = 1020 + 2 from rfl, pow_add]; field_simp; norm_num
          rw [e] at h0'
          linarith
      rw [zero_sub, abs_neg]
      have : 0 ≤ 2.1e-13 * |besselJR n x| := mul_nonneg (by norm_num) (abs_nonneg _)
      linarith

/-- the hypotheses can be met, with a starting order of 24: `Jn(3, -1)` has relative error at most `2.1·10^-13` -/
example : ∃ v, Jn 3 (-1 : ℝ) = .ok v ∧ |v - besselJR 3 (-1)| ≤ 2.1e-13 * |besselJR 3 (-1)| := by
  obtain ⟨v, h, -, h2⟩ := Jn_exact_downward 3 (-1) (by decide) (by decide) (by norm_num)
  refine ⟨v, h, h2 ?_⟩
  rw [neg_mul_neg, one_mul]; exact small_lt_one

section f64
open F64
variable [Libm F64]

omit [Libm F64] in
theorem jnStart_val {n r : ℕ} (h0 : 0 < n) (hn : n ≤ U32_MAX) (hr : r * r ≤ 160 * n ∧ 160 * n < (r + 1) * (r + 1)) (hw : n + r ≤ U32_MAX) :
    jnStart F64 n = .ok (2 * ((n + r) / 2)) := by
  rw [jnStart_eq h0 hn, show Nat.sqrt (160 * n) = r from (Nat.eq_sqrt.2 hr).symm, wrapU_ok hw]
  rfl

set_option maxRecDepth 100000 in
/-- C74 fails in binary64 where `J_n(x)` underflows: `Jn(100, 0.01)` is infinite, because the rescaling returns infinity on
underflow -/
theorem Jn_small_infinite : Returns (Jn 100 (0.01 : F64)) F64.inf := by
  unfold Returns
  rw [Jn_main (by decide) (by decide +kernel)]
  unfold jnMag
  rw [if_neg (by decide +kernel), jnStart_val (r := 126) (by decide) (by decide) (by decide) (by decide)]
  show Except.ok _ = _
  decide +kernel

set_option maxRecDepth 100000 in
/-- C74 fails in binary64: `Jn(5, 1e-100)` is above `2^400`, although `|J_5| ≤ 1` everywhere -/
theorem Jn_small_garbage : (∃ v, Returns (Jn 5 (1e-100 : F64)) v ∧ v.isFin = true ∧ 2 ^ 400 < v.val) ∧ |besselJR 5 (1e-100 : F64).val| ≤ 1 := by
  refine ⟨?_, J_abs_le_one _ _⟩
  unfold Returns
  rw [Jn_main (by decide) (by decide +kernel)]
  unfold jnMag
  rw [if_neg (by decide +kernel), jnStart_val (r := 28) (by decide) (by decide) (by decide) (by decide)]
  refine ⟨_, rfl, by decide +kernel, ?_⟩
  let c : F64 := ⟨false, 1423 * 2 ^ 52, by decide⟩
  have hc : c.val = 2 ^ 400 := by
    rw [val_of_int (x := c) (2 ^ 400) (by decide +kernel)]; push_cast; rfl
  rw [← hc]
  exact (lt_iff.1 (by decide +kernel)).2.2

end f64

end Verif
