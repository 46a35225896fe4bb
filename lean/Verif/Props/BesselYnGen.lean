import Verif.Proofs.BesselYnF3
import Verif.Proofs.BesselJd
import Verif.Props.BesselJnAcc
import Verif.Props.BesselYnAcc

/-!
# C80: accuracy of `Yn(n, ·)` for every order `n ≥ 2` (src/bessel.rs)

`besselYR n` (`Verif.SpecBesselY`) is the Bessel function of the second kind, given by its series (DLMF 10.8.1),
`besselJR n` the one of the first kind (`Verif.SpecBessel`).
The code starts from `Yn(0, x)` and `Yn(1, x)` and runs the three-term recurrence upwards.
-/

namespace Verif
open Bes Real

/-- in exact arithmetic the loop is the three-term recurrence -/
theorem Yn_loop (n : ℕ) (x : ℝ) (h2 : 2 ≤ n) (f : ℕ → ℝ) (f0 : f 0 = y0 x) (f1 : f 1 = y1 x)
    (fs : ∀ k, f (k + 2) = (k + 1 : ℕ) * (2 / x) * f (k + 1) - f k) : Yn n x = f n := by
  unfold Yn
  rw [if_neg (by omega), if_neg (by omega), show (2.0:ℝ) = 2 by norm_num, upMinus_real x _ _ f f0 f1 fs, show n - 1 + 1 = n by omega]

/-- C80, exact arithmetic, every order and every `x > 0`.  (The errors of the values of order 0 and 1 spread over the two
solutions `J_n` and `Y_n` of the recurrence; for `n > x` the first is negligible.) -/
theorem Yn_exact (n : ℕ) (h2 : 2 ≤ n) {x : ℝ} (hx : 0 < x) :
    (x < 8 → |Yn n x - besselYR n x| ≤ 2.4e-14 * (1 + x) * (1 + |log x|) * (|besselYR n x| + (1 + |log x|) * |besselJR n x|)) ∧
    (8 ≤ x → |Yn n x - besselYR n x| ≤ 2.5e-12 * (|besselYR n x| + |besselJR n x|)) := by
  obtain ⟨f, f0, f1, fs⟩ := up_exists x (y0 x) (y1 x)
  rw [Yn_loop n x h2 f f0 f1 fs]
  have hs := sol_eq hx (e := fun k => f k - besselYR k x) (fun k => by
    show f (k + 2) - besselYR (k + 2) x = _
    rw [fs k, Y_rec k hx]; ring) n
  simp only [f0, f1] at hs
  have l0 := abs_nonneg (log x)
  have Y0 := Y0_exact hx
  have Y1 := Y1_exact hx
  have ey0 : Yn 0 x = y0 x := rfl
  have ey1 : Yn 1 x = y1 x := rfl
  rw [ey0] at Y0
  rw [ey1] at Y1
  have tri : ∀ a b A B : ℝ, |a| ≤ A → |b| ≤ B → |a * besselJR n x + b * besselYR n x| ≤ B * |besselYR n x| + A * |besselJR n x| := by
    intro a b A B ha hb
    have t := abs_add_le (a * besselJR n x) (b * besselYR n x)
    rw [abs_mul, abs_mul] at t
    have := mul_le_mul_of_nonneg_right ha (abs_nonneg (besselJR n x))
    have := mul_le_mul_of_nonneg_right hb (abs_nonneg (besselYR n x))
    linarith
  constructor
  · intro h8
    have xl : 0 ≤ x * |log x| := by positivity
    obtain ⟨ca, cb⟩ := ca_left (e0 := y0 x - besselYR 0 x) (e1 := y1 x - besselYR 1 x) hx h8 (α := 6.4e-15) (β := 6.5e-15) (by norm_num) (by norm_num)
      (by have := Y0.1 h8; linarith) (by
        have h := Y1.1 h8
        have h' : |y1 x - besselYR 1 x| ≤ 6.5e-15 * (1 + |log x|) := by
          refine h.trans ?_
          have := mul_le_mul_of_nonneg_right h8.le (by positivity : 0 ≤ 5.3e-16 + 8.1e-16 * |log x|)
          linarith
        have := mul_le_mul_of_nonneg_left h' hx.le
        linarith)
    rw [hs]
    refine (tri _ _ _ _ ca cb).trans ?_
    have A := abs_nonneg (besselYR n x)
    have B := abs_nonneg (besselJR n x)
    have P : 0 < 1 + |log x| := by positivity
    calc 1.571 * (6.4e-15 + 6.5e-15) * (1 + x) * (1 + |log x|) * |besselYR n x| + (2.63 * 6.4e-15 + 1.01 * 6.5e-15) * (1 + x) * (1 + |log x|) ^ 2 * |besselJR n x|
        ≤ 2.4e-14 * (1 + x) * (1 + |log x|) * |besselYR n x| + 2.4e-14 * (1 + x) * (1 + |log x|) ^ 2 * |besselJR n x| := by
          gcongr <;> norm_num
      _ = _ := by ring
  · intro h8
    obtain ⟨ca, cb⟩ := ca_right (e0 := y0 x - besselYR 0 x) (e1 := y1 x - besselYR 1 x) h8 (Y0.2 h8) (Y1.2 h8)
    rw [hs]
    refine (tri _ _ _ _ ca cb).trans ?_
    have A := abs_nonneg (besselYR n x)
    have B := abs_nonneg (besselJR n x)
    linarith

example : |Yn 50 (1:ℝ) - besselYR 50 1| ≤ 4.8e-14 * (|besselYR 50 1| + 1) := by
  have h := (Yn_exact 50 (by norm_num) (x := 1) (by norm_num)).1 (by norm_num)
  have j := J_abs_le_one 50 (1:ℝ)
  rw [Real.log_one, abs_zero] at h
  linarith

/-! ## binary64

The hypothesis `|Y_j(x)| ≤ 2^1000` for `j ≤ n` keeps the recurrence away from overflow. -/

section Binary64
open F64
variable [Libm F64] [Cfg]

omit [Cfg] in
theorem Yn_upSeq (n : ℕ) (h2 : 2 ≤ n) (x : F64) : Yn n x = BesX.upSeq (2.0 / x) (y0 x) (y1 x) n := by
  unfold Yn
  rw [if_neg (by omega), if_neg (by omega)]
  obtain ⟨k, rfl⟩ : ∃ k, n = k + 1 := ⟨n - 1, by omega⟩
  rfl

/-- C80 in binary64, `10^-280 ≤ x ≤ 1`: the relative error is at most `8·10^-13 + 160 n(n+5)·2^-53` -/
theorem Yn_accurate_small (L : LibmTrig) {x : F64} (hf : x.isFin = true) (h0 : 10 ^ (-280 : ℤ) ≤ x.val) (h1 : x.val ≤ 1) (n : ℕ) (h2 : 2 ≤ n)
    (hn : n ≤ 10 ^ 6) (hY : ∀ j, j ≤ n → |besselYR j x.val| ≤ 2 ^ 1000) :
    (Yn n x).isFin = true ∧ |(Yn n x).val - besselYR n x.val| ≤ (8e-13 + 160 * n * (n + 5) / 2 ^ 53) * |besselYR n x.val| := by
  have hx : 0 < x.val := lt_of_lt_of_le (by positivity) h0
  have h300 : (10:ℝ) ^ (-300 : ℤ) ≤ x.val := le_trans (zpow_le_zpow_right₀ (by norm_num) (by norm_num)) h0
  have r := BesX.rstep (ax := x) (a := y0 x) (b := y1 x) (n := n) hf (hn.trans (by norm_num)) (small_bound.trans h0) (h1.trans (one_le_pow₀ (by norm_num)))
  have h := yn_small hx h1 (small_log h0 h1) (by omega) hn r hY ((Y0_accurate L hf hx).2.1 (by linarith)) ((Y1_accurate L hf h300).2.1 (by linarith))
  rw [← Yn_upSeq n h2] at h
  refine ⟨?_, h⟩
  refine fin_of_err h (hY n le_rfl) ?_
  have n0 : (0:ℝ) ≤ n := Nat.cast_nonneg n
  have n6 : (n:ℝ) ≤ 10 ^ 6 := by exact_mod_cast hn
  have c : 8e-13 + 160 * (n:ℝ) * (n + 5) / 2 ^ 53 ≤ 2 := by
    calc 8e-13 + 160 * (n:ℝ) * (n + 5) / 2 ^ 53 ≤ 8e-13 + 160 * 10 ^ 6 * (10 ^ 6 + 5) / 2 ^ 53 := by gcongr
      _ ≤ _ := by norm_num
  have e : (2:ℝ) ^ 1001 = 2 * 2 ^ 1000 := by rw [pow_succ, mul_comm]
  rw [e]
  exact mul_le_mul c (hY n le_rfl) (abs_nonneg _) (by norm_num)

/-- C80 in binary64, `1 < x < 8` -/
theorem Yn_accurate_mid (L : LibmTrig) {x : F64} (hf : x.isFin = true) (h1 : 1 < x.val) (h8 : x.val < 8) (n : ℕ) (h2 : 2 ≤ n)
    (hn : n ≤ 10 ^ 6) (hY : ∀ j, j ≤ n → |besselYR j x.val| ≤ 2 ^ 1000) :
    (Yn n x).isFin = true ∧
    (n ≤ x.val → |(Yn n x).val - besselYR n x.val| ≤ 6.7e-12 * (|besselYR n x.val| + |besselJR n x.val|)) ∧
    (x.val < n → |(Yn n x).val - besselYR n x.val| ≤
      (6.7e-12 + 42 * n * (n + 486) / 2 ^ 53) * |besselYR n x.val| + (6.7e-12 + 148000 * n * (n + 486) / 2 ^ 53) * |besselJR n x.val|) := by
  have hx : 0 < x.val := by linarith only [h1]
  have h300 : (10:ℝ) ^ (-300 : ℤ) ≤ x.val := le_trans (zpow_le_one_of_nonpos₀ (by norm_num) (by norm_num)) h1.le
  have h280 : (10:ℝ) ^ (-280 : ℤ) ≤ x.val := le_trans (zpow_le_one_of_nonpos₀ (by norm_num) (by norm_num)) h1.le
  have hu : x.val ≤ 2 ^ 100 := h8.le.trans (by norm_num)
  have r := BesX.rstep (ax := x) (a := y0 x) (b := y1 x) (n := n) hf (hn.trans (by norm_num)) (small_bound.trans h280) hu
  obtain ⟨ca, cb⟩ := ca_mid h1.le h8 ((Y0_accurate L hf hx).2.1 h8) ((Y1_accurate L hf h300).2.1 h8)
  set X := x.val with hX
  have hJ : besselJR 0 X ^ 2 + besselJR 1 X ^ 2 ≤ 1.07 ^ 2 := (BesX.J_energy X).trans (by norm_num)
  have hYa := Y_amp1 h1.le
  have hG : (1:ℝ) / 2 ^ 20 ≤ 1.07 := by norm_num
  have hg : X * 1.07 ^ 2 ≤ 9.16 := by norm_num; linarith only [h8]
  have hX2 : (X + 1) ^ 2 ≤ 81 := by nlinarith only [h8, hx]
  have hB : (X + 1) * 1.07 ≤ 2 ^ 1000 := le_trans (b := 2 ^ 10) (by norm_num; linarith only [h8]) (pow_le_pow_right₀ (by norm_num) (by norm_num))
  have hE : 1.8e-12 + 59 * 9.16 * (X + 1) ^ 2 / 2 ^ 53 ≤ 6.7e-12 := by norm_num; linarith only [hX2]
  have n0 : (0:ℝ) ≤ n := Nat.cast_nonneg n
  have n6 : (n:ℝ) ≤ 10 ^ 6 := by exact_mod_cast hn
  have up : n ≤ X → |(Yn n x).val - besselYR n X| ≤ 6.7e-12 * (|besselYR n X| + |besselJR n X|) := by
    intro hnx
    obtain ⟨k, rfl⟩ : ∃ k, n = k + 1 := ⟨n - 1, by omega⟩
    obtain ⟨a, b⟩ := yn_up hx r hJ hYa hG hg hB ca cb (hE.trans (by norm_num)) (k := k) le_rfl (by push_cast at hnx; linarith only [hnx])
    have h := yn_up_err hx (a.trans hE) (b.trans hE)
    rw [Yn_upSeq _ h2]
    exact h
  have dn : X < n → |(Yn n x).val - besselYR n X| ≤
      (6.7e-12 + 42 * n * (n + 486) / 2 ^ 53) * |besselYR n X| + (6.7e-12 + 148000 * n * (n + 486) / 2 ^ 53) * |besselJR n X| := by
    intro hnx
    have d : 6.3 * X * ((X + 1) * 1.07) ≤ 486 := by nlinarith only [h8, hx]
    have d0 : 0 ≤ 6.3 * X * ((X + 1) * 1.07) := by positivity
    have h := yn_high h1 hu r hJ hYa hG hg hB ca cb (hE.trans (by norm_num)) hnx hY (by
      calc 21 * (n:ℝ) * (6.3 * X * ((X + 1) * 1.07) + n) / 2 ^ 53 ≤ 21 * 10 ^ 6 * (486 + 10 ^ 6) / 2 ^ 53 := by gcongr
        _ ≤ _ := by norm_num)
    rw [← Yn_upSeq n h2] at h
    refine h.trans ?_
    have β : 21 * (n:ℝ) * (6.3 * X * ((X + 1) * 1.07) + n) / 2 ^ 53 ≤ 21 * n * (486 + n) / 2 ^ 53 := by gcongr
    have β0 : 0 ≤ 21 * (n:ℝ) * (6.3 * X * ((X + 1) * 1.07) + n) / 2 ^ 53 := by positivity
    set b := 21 * (n:ℝ) * (6.3 * X * ((X + 1) * 1.07) + n) / 2 ^ 53
    have t0 : 0 ≤ (n:ℝ) * (n + 486) / 2 ^ 53 := by positivity
    have jl := le_abs_self (besselJR n X)
    have c1 : 1.8e-12 + 59 * 9.16 * (X + 1) ^ 2 / 2 ^ 53 + 2 * b ≤ 6.7e-12 + 42 * n * (n + 486) / 2 ^ 53 := by
      have e : 42 * (n:ℝ) * (n + 486) / 2 ^ 53 = 2 * (21 * n * (486 + n) / 2 ^ 53) := by ring
      rw [e]; linarith only [hE, β]
    have c2 : 1.8e-12 + 59 * 9.16 * (X + 1) ^ 2 / 2 ^ 53 + 2 * b * (4.72 * 9.16 * (X + 1) ^ 2) ≤ 6.7e-12 + 148000 * n * (n + 486) / 2 ^ 53 := by
      have e : 2 * b * (4.72 * 9.16 * (X + 1) ^ 2) ≤ 2 * (21 * n * (486 + n) / 2 ^ 53) * (4.72 * 9.16 * 81) := by gcongr
      have e' : 2 * (21 * (n:ℝ) * (486 + n) / 2 ^ 53) * (4.72 * 9.16 * 81) = 42 * 4.72 * 9.16 * 81 * (n * (n + 486) / 2 ^ 53) := by ring
      have e2 : 148000 * (n:ℝ) * (n + 486) / 2 ^ 53 = 148000 * (n * (n + 486) / 2 ^ 53) := by ring
      rw [e'] at e
      rw [e2]
      linarith only [hE, e, t0]
    have c20 : 0 ≤ 1.8e-12 + 59 * 9.16 * (X + 1) ^ 2 / 2 ^ 53 + 2 * b * (4.72 * 9.16 * (X + 1) ^ 2) := by positivity
    exact add_le_add (mul_le_mul_of_nonneg_right c1 (abs_nonneg _)) (mul_le_mul c2 jl (J_pos_of_lt hx hnx).le (c20.trans c2))
  refine ⟨?_, up, dn⟩
  have Yn' := hY n le_rfl
  rcases le_or_gt (n:ℝ) X with h | h
  · refine fin_of_err (up h) Yn' ?_
    rw [mul_add]
    exact J_le_2 (by norm_num) (by norm_num) (by norm_num) (by norm_num) Yn'
  · refine fin_of_err (dn h) Yn' ?_
    have t1 : (n:ℝ) * (n + 486) / 2 ^ 53 ≤ 1.2e-4 := by
      calc (n:ℝ) * (n + 486) / 2 ^ 53 ≤ 10 ^ 6 * (10 ^ 6 + 486) / 2 ^ 53 := by gcongr
        _ ≤ _ := by norm_num
    refine J_le_2 ?_ ?_ (by positivity) (by positivity) Yn'
    · rw [show 42 * (n:ℝ) * (n + 486) / 2 ^ 53 = 42 * (n * (n + 486) / 2 ^ 53) by ring]; linarith only [t1]
    · rw [show 148000 * (n:ℝ) * (n + 486) / 2 ^ 53 = 148000 * (n * (n + 486) / 2 ^ 53) by ring]
      exact le_trans (b := 2 ^ 10) (by linarith only [t1]) (pow_le_pow_right₀ (by norm_num) (by norm_num))

/-- C80 in binary64, `8 ≤ x ≤ 7·10^6` -/
theorem Yn_accurate_right (L : LibmTrig) {x : F64} (hf : x.isFin = true) (h8 : 8 ≤ x.val) (hu : x.val ≤ 7000000) (n : ℕ) (h2 : 2 ≤ n)
    (hn : n ≤ 10 ^ 7) (hY : ∀ j, j ≤ n → |besselYR j x.val| ≤ 2 ^ 1000) :
    (n ≤ x.val → (Yn n x).isFin = true ∧
      |(Yn n x).val - besselYR n x.val| ≤ (2.51e-12 + 44 * (x.val + 1) ^ 2 / 2 ^ 53) * (|besselYR n x.val| + |besselJR n x.val|)) ∧
    (x.val < n → n * (n + 5.4 * (x.val + 1) * √x.val) ≤ 10 ^ 14 → (Yn n x).isFin = true ∧
      |(Yn n x).val - besselYR n x.val| ≤
        (2.51e-12 + 44 * (x.val + 1) ^ 2 / 2 ^ 53 + 42 * (n * (n + 5.4 * (x.val + 1) * √x.val)) / 2 ^ 53) * |besselYR n x.val| +
        (2.51e-12 + 44 * (x.val + 1) ^ 2 / 2 ^ 53 + 145 * (x.val + 1) ^ 2 * (n * (n + 5.4 * (x.val + 1) * √x.val)) / 2 ^ 53) * |besselJR n x.val|) := by
  have hx : 0 < x.val := by linarith only [h8]
  have h1 : 1 < x.val := by linarith only [h8]
  have h300 : (10:ℝ) ^ (-300 : ℤ) ≤ x.val := le_trans (zpow_le_one_of_nonpos₀ (by norm_num) (by norm_num)) h1.le
  have h280 : (10:ℝ) ^ (-280 : ℤ) ≤ x.val := le_trans (zpow_le_one_of_nonpos₀ (by norm_num) (by norm_num)) h1.le
  have hu' : x.val ≤ 2 ^ 100 := hu.trans (by norm_num)
  have r := BesX.rstep (ax := x) (a := y0 x) (b := y1 x) (n := n) hf (hn.trans (by norm_num)) (small_bound.trans h280) hu'
  obtain ⟨ca, cb⟩ := ca_right h8 ((Y0_accurate L hf hx).2.2 h8) ((Y1_accurate L hf h300).2.2 h8)
  set X := x.val with hX
  have s0 : 0 < √X := Real.sqrt_pos.2 hx
  have ss : √X * √X = X := Real.mul_self_sqrt hx.le
  set G := √(0.73 / X) with hGd
  have GG : G ^ 2 = 0.73 / X := Real.sq_sqrt (by positivity)
  have G0 : 0 ≤ G := Real.sqrt_nonneg _
  have hJ : besselJR 0 X ^ 2 + besselJR 1 X ^ 2 ≤ G ^ 2 := by rw [GG, le_div_iff₀ hx]; linarith only [J_amp2 h8]
  have hYa : besselYR 0 X ^ 2 + besselYR 1 X ^ 2 ≤ G ^ 2 := by rw [GG, le_div_iff₀ hx]; linarith only [Y_amp2 h8]
  have hG : (1:ℝ) / 2 ^ 20 ≤ G := by
    apply Real.le_sqrt_of_sq_le
    rw [le_div_iff₀ hx]
    norm_num
    linarith only [hu]
  have hg : X * G ^ 2 ≤ 0.73 := by rw [GG]; field_simp; exact le_rfl
  have G1 : G ≤ 1 := by
    by_contra hc
    have := mul_lt_mul_of_pos_left (show 1 < G ^ 2 by nlinarith only [hc]) hx
    linarith only [this, hg, h8]
  have XG : X * G ≤ 0.8545 * √X := by
    refine abs_le_of_sq_le_sq' (a := X * G) ?_ (by positivity) |>.2
    rw [mul_pow, GG, mul_pow, sq √X, ss]
    field_simp
    norm_num
  have hB : (X + 1) * G ≤ 2 ^ 1000 := by
    refine le_trans (b := 2 ^ 100) ?_ (pow_le_pow_right₀ (by norm_num) (by norm_num))
    have : (X + 1) * G ≤ (X + 1) * 1 := mul_le_mul_of_nonneg_left G1 (by linarith only [hx])
    norm_num
    linarith only [this, hu]
  have hE : 1.91 * (1.31e-12 + X / 2 ^ 53) + 59 * 0.73 * (X + 1) ^ 2 / 2 ^ 53 ≤ 2.51e-12 + 44 * (X + 1) ^ 2 / 2 ^ 53 := by
    have t : 9 * X ≤ (X + 1) ^ 2 := by nlinarith only [h8]
    generalize (X + 1) ^ 2 = q at t
    norm_num
    linarith only [t, hx]
  have hE4 : 2.51e-12 + 44 * (X + 1) ^ 2 / 2 ^ 53 ≤ 1 / 4 := by
    have : (X + 1) ^ 2 ≤ 7000001 ^ 2 := pow_le_pow_left₀ (by linarith only [hx]) (by linarith only [hu]) 2
    norm_num at this ⊢
    linarith only [this]
  have n0 : (0:ℝ) ≤ n := Nat.cast_nonneg n
  have E0 : 0 ≤ 2.51e-12 + 44 * (X + 1) ^ 2 / 2 ^ 53 := by positivity
  have Yn' := hY n le_rfl
  constructor
  · intro hnx
    have up : |(Yn n x).val - besselYR n X| ≤ (2.51e-12 + 44 * (X + 1) ^ 2 / 2 ^ 53) * (|besselYR n X| + |besselJR n X|) := by
      obtain ⟨k, rfl⟩ : ∃ k, n = k + 1 := ⟨n - 1, by omega⟩
      obtain ⟨a, b⟩ := yn_up hx r hJ hYa hG hg hB ca cb ((hE.trans hE4).trans (by norm_num)) (k := k) le_rfl (by push_cast at hnx; linarith only [hnx])
      have h := yn_up_err hx (a.trans hE) (b.trans hE)
      rw [Yn_upSeq _ h2]
      exact h
    refine ⟨fin_of_err up Yn' ?_, up⟩
    rw [mul_add]
    exact J_le_2 (hE4.trans (by norm_num)) (hE4.trans (by norm_num)) E0 E0 Yn'
  · intro hnx hT
    set T := (n:ℝ) * (n + 5.4 * (X + 1) * √X) with hTd
    have T0 : 0 ≤ T := by positivity
    have d : 6.3 * X * ((X + 1) * G) ≤ 5.4 * (X + 1) * √X := by
      have := mul_le_mul_of_nonneg_left XG (by linarith only [hx] : 0 ≤ X + 1)
      have p : 0 ≤ (X + 1) * √X := by positivity
      linarith only [this, p]
    have β : 21 * (n:ℝ) * (6.3 * X * ((X + 1) * G) + n) / 2 ^ 53 ≤ 21 * T / 2 ^ 53 := by
      have : (n:ℝ) * (6.3 * X * ((X + 1) * G) + n) ≤ T := by
        rw [hTd]; exact mul_le_mul_of_nonneg_left (by linarith only [d]) n0
      rw [mul_assoc]
      gcongr
    have Tu : 21 * T / 2 ^ 53 ≤ 1 / 4 := by norm_num at hT ⊢; linarith only [hT]
    have h := yn_high h1 hu' r hJ hYa hG hg hB ca cb (hE.trans hE4) hnx hY (β.trans Tu)
    rw [← Yn_upSeq n h2] at h
    have β0 : 0 ≤ 21 * (n:ℝ) * (6.3 * X * ((X + 1) * G) + n) / 2 ^ 53 := by positivity
    set b := 21 * (n:ℝ) * (6.3 * X * ((X + 1) * G) + n) / 2 ^ 53
    have jl := le_abs_self (besselJR n X)
    have X0 := sq_nonneg (X + 1)
    have c1 : 1.91 * (1.31e-12 + X / 2 ^ 53) + 59 * 0.73 * (X + 1) ^ 2 / 2 ^ 53 + 2 * b ≤ 2.51e-12 + 44 * (X + 1) ^ 2 / 2 ^ 53 + 42 * T / 2 ^ 53 := by
      have e : 42 * T / 2 ^ 53 = 2 * (21 * T / 2 ^ 53) := by ring
      rw [e]; linarith only [hE, β]
    have c2 : 1.91 * (1.31e-12 + X / 2 ^ 53) + 59 * 0.73 * (X + 1) ^ 2 / 2 ^ 53 + 2 * b * (4.72 * 0.73 * (X + 1) ^ 2) ≤
        2.51e-12 + 44 * (X + 1) ^ 2 / 2 ^ 53 + 145 * (X + 1) ^ 2 * T / 2 ^ 53 := by
      have e : 2 * b * (4.72 * 0.73 * (X + 1) ^ 2) ≤ 2 * (21 * T / 2 ^ 53) * (4.72 * 0.73 * (X + 1) ^ 2) := by gcongr
      have e' : 2 * (21 * T / 2 ^ 53) * (4.72 * 0.73 * (X + 1) ^ 2) = 42 * 4.72 * 0.73 * ((X + 1) ^ 2 * T / 2 ^ 53) := by ring
      have e2 : 145 * (X + 1) ^ 2 * T / 2 ^ 53 = 145 * ((X + 1) ^ 2 * T / 2 ^ 53) := by ring
      have t0 : 0 ≤ (X + 1) ^ 2 * T / 2 ^ 53 := by positivity
      rw [e'] at e
      rw [e2]
      linarith only [hE, e, t0]
    have c20 : 0 ≤ 1.91 * (1.31e-12 + X / 2 ^ 53) + 59 * 0.73 * (X + 1) ^ 2 / 2 ^ 53 + 2 * b * (4.72 * 0.73 * (X + 1) ^ 2) := by positivity
    have dn := h.trans (add_le_add (mul_le_mul_of_nonneg_right c1 (abs_nonneg _)) (mul_le_mul c2 jl (J_pos_of_lt hx hnx).le (c20.trans c2)))
    refine ⟨fin_of_err dn Yn' ?_, dn⟩
    refine J_le_2 ?_ ?_ (by positivity) (by positivity) Yn'
    · rw [show 42 * T / 2 ^ 53 = 2 * (21 * T / 2 ^ 53) by ring]; linarith only [hE4, Tu]
    · have t : (X + 1) ^ 2 * (21 * T / 2 ^ 53) ≤ 7000001 ^ 2 * (1 / 4) :=
        mul_le_mul (pow_le_pow_left₀ (by linarith only [hx]) (by linarith only [hu]) 2) Tu (by positivity) (by norm_num)
      rw [show 145 * (X + 1) ^ 2 * T / 2 ^ 53 = 145 / 21 * ((X + 1) ^ 2 * (21 * T / 2 ^ 53)) by ring]
      norm_num at t ⊢
      norm_num at hE4
      linarith only [hE4, t]
end Binary64

open F64 in
example [Cfg] : (letI := idealLibm; |(Yn 20 (0.5 : F64)).val - besselYR 20 (0.5 : F64).val| ≤ 1e-11 * |besselYR 20 (0.5 : F64).val|) := by
  let _ := idealLibm
  have e : (0.5 : F64).val = 0.5 := by rw [val_of_sv (x := (0.5 : F64)) 1 2 (by norm_num) (by decide +kernel)]; norm_num
  have hY : ∀ j, j ≤ 20 → |besselYR j (0.5 : F64).val| ≤ 2 ^ 1000 := by
    intro j hj
    rw [e]
    have l : |log (0.5:ℝ)| ≤ 1 := by
      rw [show (0.5:ℝ) = 2⁻¹ by norm_num, Real.log_inv, abs_neg, abs_of_pos (Real.log_pos (by norm_num))]
      linarith [Real.log_two_lt_d9]
    have y0 := Y0_le (x := 0.5) (by norm_num) (by norm_num)
    have y1 := Y1_le (x := 0.5) (by norm_num) (by norm_num)
    have g := Y_grow (x := 0.5) (C := 16) (M := 2 ^ 7) (n := 20) (by norm_num) (by linarith) (by linarith) (by norm_num) j hj
    refine g.trans ?_
    calc (16:ℝ) * (2 ^ 7) ^ 20 = 2 ^ 144 := by norm_num
      _ ≤ 2 ^ 1000 := pow_le_pow_right₀ (by norm_num) (by norm_num)
  have h := (Yn_accurate_small ideal_trig (x := (0.5 : F64)) (by decide +kernel) (by
    rw [e]; exact (zpow_le_zpow_right₀ (a := (10:ℝ)) (by norm_num) (by norm_num : (-280:ℤ) ≤ -1)).trans (by norm_num))
    (by rw [e]; norm_num) 20 (by norm_num) (by norm_num) hY).2
  refine h.trans (mul_le_mul_of_nonneg_right ?_ (abs_nonneg _))
  norm_num

open F64 in
example [Cfg] : (letI := idealLibm; |(Yn 7 (10.0 : F64)).val - besselYR 7 (10.0 : F64).val| ≤
    4e-12 * (|besselYR 7 (10.0 : F64).val| + |besselJR 7 (10.0 : F64).val|)) := by
  let _ := idealLibm
  have e : (10.0 : F64).val = 10 := by rw [val_of_int (x := (10.0 : F64)) 10 (by decide +kernel)]; norm_num
  have hY : ∀ j, j ≤ 7 → |besselYR j (10.0 : F64).val| ≤ 2 ^ 1000 := by
    intro j hj
    rw [e]
    have a := Y_amp (x := 10) (by norm_num)
    have s : 1 ≤ √(10:ℝ) := Real.one_le_sqrt.2 (by norm_num)
    have y0 := abs_nonneg (besselYR 0 10)
    have y1 := abs_nonneg (besselYR 1 10)
    have b := mul_le_mul_of_nonneg_right s (add_nonneg y0 y1)
    have g := Y_grow (x := 10) (C := 2) (M := 2 ^ 2) (n := 7) (by norm_num) (by linarith) (by linarith) (by norm_num) j hj
    refine g.trans ?_
    calc (2:ℝ) * (2 ^ 2) ^ 7 = 2 ^ 15 := by norm_num
      _ ≤ 2 ^ 1000 := pow_le_pow_right₀ (by norm_num) (by norm_num)
  have h := ((Yn_accurate_right ideal_trig (x := (10.0 : F64)) (by decide +kernel) (by rw [e]; norm_num) (by rw [e]; norm_num) 7 (by norm_num) (by norm_num) hY).1
    (by rw [e]; norm_num)).2
  refine h.trans (mul_le_mul_of_nonneg_right ?_ (by positivity))
  rw [e]
  norm_num

end Verif
