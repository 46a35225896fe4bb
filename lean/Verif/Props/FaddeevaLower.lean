import Verif.Props.FaddeevaFar
import Verif.LibmTrig

/-! C83 in the lower half-plane away from the origin. -/

namespace Verif
open F64 Fad
variable [Libm F64] [Cfg]

/-- the reflection formula -/
theorem w_reflect (z : ℂ) : faddeevaW z = 2 * Complex.exp (-z^2) - faddeevaW (-z) := by
  unfold faddeevaW
  have : (∫ s in (0:ℝ)..1, -z * Complex.exp ((s * -z)^2)) = -∫ s in (0:ℝ)..1, z * Complex.exp ((s * z)^2) := by
    rw [← intervalIntegral.integral_neg]
    congr 1
    funext s
    rw [show ((s:ℂ) * -z)^2 = (s * z)^2 by ring]; ring
  rw [this, neg_sq]
  ring

theorem exp600 {r : ℝ} (h : r ≤ 600) : Real.exp r ≤ 10^300 := by
  have e : Real.exp 1 ≤ 2.72 := Real.exp_one_lt_d9.le.trans (by norm_num)
  calc Real.exp r ≤ Real.exp (600 * 1) := Real.exp_le_exp.2 (by linarith)
    _ = (Real.exp 1)^600 := by rw [← Real.exp_nat_mul]; norm_num
    _ ≤ 2.72^600 := pow_le_pow_left₀ (Real.exp_pos _).le e _
    _ = (2.72^6)^100 := by rw [← pow_mul]
    _ ≤ (10^3)^100 := pow_le_pow_left₀ (by norm_num) (by norm_num) _
    _ = 10^300 := by rw [← pow_mul]

/-- `exp` of an inexact argument -/
theorem exp_ab (L : LibmTrig) {a : F64} {A N : ℝ} (ha : Ab a A (1.65 / 10^15 * N)) (n1 : 49 ≤ N) (n2 : N ≤ 10^13) (hA : A ≤ 600) :
    Ab (Libm.exp a) (Real.exp A) (2 / 10^15 * N * Real.exp A + 1 / 10^28) := by
  have e := abs_le.1 ha.err
  have a7 : a.val ≤ 700 := by norm_num at e n2 ⊢; linarith [e.2]
  have f : (Libm.exp a).isFin = true := by
    rcases le_total a.val 0 with g | g
    · have p1 := L.exp_num a (isFin_notNaN ha.fin)
      have p2 := L.exp_le_one a (isFin_notNaN ha.fin) g
      have p3 := val_nonneg_of_neg p1.2
      exact isFin_of_abs (b := 1) (by rw [abs_of_nonneg p3]; exact p2) (by norm_num)
    · exact (L.exp_mid a (by rw [abs_of_nonneg g]; exact a7)).1
  refine ⟨f, ?_⟩
  have u := L.exp_ulp a ha.fin (by linarith)
  have d1 : |a.val - A| ≤ 1 := ha.err.trans (by norm_num at n2 ⊢; linarith)
  have d2 := Real.abs_exp_sub_one_le d1
  have d3 := Real.abs_exp_sub_one_sub_id_le d1
  have E := Real.exp_pos A
  have ee : Real.exp a.val = Real.exp A * Real.exp (a.val - A) := by rw [← Real.exp_add]; congr 1; ring
  set t := a.val - A with ht
  have t1 : |t| ≤ 0.017 := ha.err.trans (by norm_num at n2 ⊢; linarith)
  have t2 : t^2 ≤ 0.017 * |t| := by rw [← sq_abs, sq]; exact mul_le_mul_of_nonneg_right t1 (abs_nonneg _)
  have x1 : |Real.exp t - 1| ≤ 1.017 * (1.65 / 10^15 * N) := by
    have := abs_sub_le (Real.exp t - 1) t 0
    rw [sub_zero, sub_zero] at this
    have h := ha.err
    norm_num at h t2 ⊢
    linarith
  have x2 : Real.exp t ≤ 2 := by
    have := (abs_le.1 x1).2
    norm_num at this n2 ⊢
    linarith
  have b1 : |Real.exp a.val - Real.exp A| ≤ 1.017 * (1.65 / 10^15 * N) * Real.exp A := by
    rw [ee, show Real.exp A * Real.exp t - Real.exp A = (Real.exp t - 1) * Real.exp A by ring, abs_mul, abs_of_pos E]
    exact mul_le_mul_of_nonneg_right x1 E.le
  have b2 : Real.exp a.val / 2^52 ≤ 4.5 / 10^16 * Real.exp A := by
    rw [ee]
    have := mul_le_mul_of_nonneg_left x2 E.le
    norm_num
    linarith
  have tiny : (1:ℝ) / 2^1074 ≤ 1 / 10^28 := by
    refine one_div_le_one_div_of_le (by norm_num) ?_
    calc (10:ℝ)^28 ≤ (2^4)^28 := pow_le_pow_left₀ (by norm_num) (by norm_num) _
      _ = 2^112 := by rw [← pow_mul]
      _ ≤ _ := pow_le_pow_right₀ (by norm_num) (by norm_num)
  have nE : 49 * Real.exp A ≤ N * Real.exp A := mul_le_mul_of_nonneg_right n1 E.le
  have := abs_sub_le (Libm.exp a).val (Real.exp a.val) (Real.exp A)
  generalize (1:ℝ) / 2^1074 = T at *
  have r : 1.017 * (1.65 / 10^15 * N) * Real.exp A = 1.67805 / 10^15 * (N * Real.exp A) := by ring
  rw [r] at b1
  rw [mul_assoc]
  norm_num at *
  linarith

theorem cos_ab (L : LibmTrig) {b : F64} {B N : ℝ} (hb : Ab b B (1 / 10^15 * N)) (n1 : 49 ≤ N) : Ab (Libm.cos b) (Real.cos B) (1.1 / 10^15 * N) := by
  refine ⟨isFin_of_abs (L.cos_num _ hb.fin).2 (by norm_num), ?_⟩
  have u := L.cos_ulp _ hb.fin
  have := abs_sub_le (Libm.cos b).val (Real.cos b.val) (Real.cos B)
  have h2 := Real.abs_cos_sub_cos_le b.val B
  have h3 := hb.err
  norm_num at u h3 ⊢
  linarith

theorem sin_ab (L : LibmTrig) {b : F64} {B N : ℝ} (hb : Ab b B (1 / 10^15 * N)) (n1 : 49 ≤ N) : Ab (Libm.sin b) (Real.sin B) (1.1 / 10^15 * N) := by
  refine ⟨isFin_of_abs (L.sin_num _ hb.fin).2 (by norm_num), ?_⟩
  have u := L.sin_ulp _ hb.fin
  have := abs_sub_le (Libm.sin b).val (Real.sin b.val) (Real.sin B)
  have h2 := Real.abs_sin_sub_sin_le b.val B
  have h3 := hb.err
  norm_num at u h3 ⊢
  linarith

/-- one component of `2 exp(-z²)` -/
theorem twice_ab {e c : F64} {E C N : ℝ} (he : Ab e E (2 / 10^15 * N * E + 1 / 10^28)) (hc : Ab c C (1.1 / 10^15 * N)) (hC : |C| ≤ 1) (E0 : 0 < E) (E1 : E ≤ 10^300) (n1 : 49 ≤ N) (n2 : N ≤ 10^13) :
    Ab (2.0 * (e * c)) (2 * (E * C)) (6.5 / 10^15 * (N * E) + 3 / 10^28) := by
  have nE : 49 * E ≤ N * E := mul_le_mul_of_nonneg_right n1 E0.le
  have nE' : N * E ≤ 10^13 * E := mul_le_mul_of_nonneg_right n2 E0.le
  have N0 : 0 ≤ N := by linarith
  have cap : ∀ {k : ℝ}, 0 ≤ k → k ≤ 10 → Cap (k * E + 1 / 10^28) := by
    intro k k0 k1
    refine cap_of ?_ ?_
    · have := mul_nonneg k0 E0.le
      norm_num; linarith
    · have h1 : k * E ≤ 10 * 10^300 := mul_le_mul k1 E1 E0.le (by norm_num)
      have h2 : (10:ℝ)^303 = 1000 * 10^300 := by rw [show 303 = 3 + 300 by norm_num, pow_add]; norm_num
      have h3 : (1:ℝ) ≤ 10^300 := one_le_pow₀ (by norm_num)
      rw [h2]
      clear h2
      generalize (10:ℝ)^300 = W at *
      norm_num; linarith
  have aE : |E| ≤ E := by rw [abs_of_pos E0]
  have d : (2 / 10^15 * N * E + 1 / 10^28) * (1.1 / 10^15 * N) ≤ 3 / 10^17 * (N * E) + 1 / 10^29 := by
    have : (2 / 10^15 * N * E + 1 / 10^28) * (1.1 / 10^15 * N) = 2.2 / 10^30 * N * (N * E) + 1.1 / 10^43 * N := by ring
    rw [this]
    have h1 : 2.2 / 10^30 * N * (N * E) ≤ 3 / 10^17 * (N * E) := mul_le_mul_of_nonneg_right (by norm_num at n2 ⊢; linarith) (by positivity)
    have h2 : 1.1 / 10^43 * N ≤ 1 / 10^29 := by norm_num at n2 ⊢; linarith
    linarith
  have m1 : Ab (e * c) (E * C) (3.15 / 10^15 * (N * E) + 1.2 / 10^28) := by
    refine (ab_mul he hc aE hC (M := 1.1 * E + 2 * (1 / 10^28)) ?_ ?_).mono ?_
    · rw [mul_one, mul_one]; norm_num at d ⊢; linarith
    · have := cap (k := 1.1) (by norm_num) (by norm_num)
      refine ⟨this.lo.trans (by linarith [show (0:ℝ) < 1 / 10^28 by norm_num]), ?_⟩
      have := (cap (k := 2.2) (by norm_num) (by norm_num)).hi
      have h2 := (cap (k := 0) (by norm_num) (by norm_num)).hi
      have h3 : (1:ℝ) ≤ 2^1010 := one_le_pow₀ (by norm_num)
      generalize (2:ℝ)^1010 = W at *
      norm_num at *; linarith
    · norm_num at d ⊢; linarith
  have v2 : (2.0 : F64).val = 2 := by exact_mod_cast val_of_int (x := (2.0 : F64)) 2 (by decide +kernel)
  have t2 : Ab (2.0 : F64) 2 0 := ab_int (by decide +kernel) v2
  have bc : |E * C| ≤ E := by
    rw [abs_mul, abs_of_pos E0]
    exact (mul_le_mul_of_nonneg_left hC E0.le).trans (by linarith)
  refine (ab_mul t2 m1 (by norm_num : |(2:ℝ)| ≤ 2) bc (M := 2.2 * E + 3 * (1 / 10^28)) ?_ ?_).mono ?_
  · norm_num; linarith
  · have := cap (k := 2.2) (by norm_num) (by norm_num)
    refine ⟨this.lo.trans (by linarith [show (0:ℝ) < 1 / 10^28 by norm_num]), ?_⟩
    have := (cap (k := 6.6) (by norm_num) (by norm_num)).hi
    have h3 : (1:ℝ) ≤ 2^1010 := one_le_pow₀ (by norm_num)
    generalize (2:ℝ)^1010 = W at *
    norm_num at *; linarith
  · norm_num; linarith

/-- difference with the value at `-z` -/
theorem minus_ab {a b : F64} {A B E N m : ℝ} (ha : Ab a A (6.5 / 10^15 * (N * E) + 3 / 10^28)) (hb : Ab b B (9.5 / 10^15 * m)) (hA : |A| ≤ 2 * E) (hB : |B| ≤ m)
    (E0 : 0 < E) (E1 : E ≤ 10^300) (n1 : 49 ≤ N) (n2 : N ≤ 10^13) (m1 : 1 / 10^7 ≤ m) (m2 : m ≤ 1) : |(a - b).val - (A - B)| ≤ 1 / 10^14 * (m + N * E) := by
  have nE : 49 * E ≤ N * E := mul_le_mul_of_nonneg_right n1 E0.le
  have nE' : N * E ≤ 10^13 * E := mul_le_mul_of_nonneg_right n2 E0.le
  have t := abs_sub A B
  refine (ab_sub ha hb (M := 2.1 * E + 1.1 * m) ?_ (cap_of ?_ ?_)).err.trans ?_
  · norm_num; linarith
  · norm_num; linarith
  · have h2 : (10:ℝ)^303 = 1000 * 10^300 := by rw [show 303 = 3 + 300 by norm_num, pow_add]; norm_num
    have h3 : (1:ℝ) ≤ 10^300 := one_le_pow₀ (by norm_num)
    rw [h2]
    clear h2
    generalize (10:ℝ)^300 = W at *
    norm_num; linarith
  · norm_num; linarith

/-- C83 in the lower half-plane: for all finite `x`, `y < 0` with `49.01 ≤ x² + y² ≤ 10^13` and `y² - x² ≤ 600` (otherwise `e^(-z²)` comes close to overflow), away from the two axes, `faddeeva(x, y)` returns, and the
error of both components is at most `10^-14 (1/|z| + |z|² |e^(-z²)|)` where `z = x + iy`.  (`w(z) = 2e^(-z²) - w(-z)`; the factor `|z|²` is the
condition number of `e^(-z²)`.) -/
theorem faddeeva_lower_accurate (L : LibmTrig) (x y : F64) (fx : x.isFin = true) (fy : y.isFin = true) (y0 : y.val < 0) (h : 49.01 ≤ x.val^2 + y.val^2) (h' : x.val^2 + y.val^2 ≤ 10^13)
    (hA : y.val^2 - x.val^2 ≤ 600)
    (hx : |x.val| ≤ 9 * 10^7 * |y.val|) (hy : |y.val| ≤ 9 * 10^7 * |x.val|) :
    ∃ v, Returns (faddeeva x y) v ∧ |v.1.val - (faddeevaW (cpx x y)).re| ≤ 1 / 10^14 * (‖cpx x y‖⁻¹ + ‖cpx x y‖^2 * ‖Complex.exp (-(cpx x y)^2)‖) ∧
      |v.2.val - (faddeevaW (cpx x y)).im| ≤ 1 / 10^14 * (‖cpx x y‖⁻¹ + ‖cpx x y‖^2 * ‖Complex.exp (-(cpx x y)^2)‖) := by
  have cneg : cpx (-x) (-y) = -cpx x y := by apply Complex.ext <;> simp [cpx, val_neg]
  set n := ‖cpx x y‖ with hnd
  have hn : n^2 = x.val^2 + y.val^2 := by
    rw [hnd, ← Complex.normSq_eq_norm_sq]
    simp [cpx, Complex.normSq_apply]; ring
  have hnd' : n = ‖cpx (-x) (-y)‖ := by rw [cneg, norm_neg]
  have n7 : 7 ≤ n := by
    refine le_of_sq_le_sq ?_ (norm_nonneg _)
    rw [hn]; norm_num at h ⊢; linarith
  have n0 : 0 < n := by linarith
  have n25 : n ≤ 4 * 10^6 := by
    refine le_of_sq_le_sq ?_ (by norm_num)
    rw [hn]; norm_num at h' ⊢; linarith
  have zz := zz_ab fx fy hn (by linarith) (n25.trans (by norm_num))
  have zn := isFin_notNaN zz.fin
  obtain ⟨z1, z2⟩ := abs_le.1 zz.err
  have zlo : (1 - 7.5 / 10^16) * n^2 ≤ (zzOf x y).val := by linarith
  have zhi : (zzOf x y).val ≤ (1 + 7.5 / 10^16) * n^2 := by linarith
  clear z1 z2
  rw [← hn] at h h'
  have v053 := val_le_of_sv (x := (0.053 : F64)) 1 1 (by norm_num) (by decide +kernel)
  have v49 : (49.0 : F64).val = 49 := by exact_mod_cast val_of_int (x := (49.0 : F64)) 49 (by decide +kernel)
  have v48 : (4.8e15 : F64).val = 4800000000000000 := by exact_mod_cast val_of_int (x := (4.8e15 : F64)) 4800000000000000 (by decide +kernel)
  push_cast at v053
  have zz49 : 49 < (zzOf x y).val := by norm_num at zlo h ⊢; linarith
  have s1 : F64.lt (zzOf x y) 0.053 = false := by
    rw [lt_false_iff zn (by decide +kernel)]; norm_num at v053; linarith
  have s2 : F64.le 49.0 (zzOf x y) = true := le_iff.2 ⟨by decide +kernel, zn, by rw [v49]; linarith⟩
  rw [fad_large (off_axis fx fy hx) (off_axis fy fx hy) s1 s2]
  refine ⟨_, rfl, ?_⟩
  have ly : F64.lt y 0.0 = true := lt_iff.2 ⟨isFin_notNaN fy, by decide +kernel, by
    rw [show (0.0 : F64).val = 0 by exact_mod_cast val_of_int (x := (0.0 : F64)) 0 (by decide +kernel)]; exact y0⟩
  have s3 : F64.lt 4.8e15 (zzOf x y) = false := by
    rw [lt_false_iff (by decide +kernel) zn, v48]; norm_num at zhi h' ⊢; linarith
  unfold faddeevaLarge
  simp only [ar_lt, ly, if_true, s3, Bool.false_eq_true, if_false]
  -- the value at `-z`
  have zeq : zzOf (-x) (-y) = zzOf x y := by unfold zzOf; rw [abs_neg', mul_neg_neg]
  have res := asy_ab (x := -x) (y := -y) hnd' (by rw [val_neg, val_neg, hn]; ring) (by rw [isFin_neg]; exact fx) (by rw [isFin_neg]; exact fy) (by rw [val_neg]; linarith)
    h n7 (n25.trans (by norm_num))
  rw [abs_neg', zeq, cneg] at res
  -- the exponential
  have bx : |x.val| ≤ n := abs_le_of_sq_le_sq (by rw [hn]; nlinarith [sq_nonneg y.val]) n0.le
  have bY : |y.val| ≤ n := abs_le_of_sq_le_sq (by rw [hn]; nlinarith [sq_nonneg x.val]) n0.le
  have va : y.abs.val = -y.val := by rw [val_abs, abs_of_neg y0]
  have aY : Ab y.abs (-y.val) (0 * n) := by have := ab0 (a := y.abs) (by rw [isFin_abs]; exact fy) n; rwa [va] at this
  have aX : Ab (-x) (-x.val) (0 * n) := by have := ab0 (a := -x) (by rw [isFin_neg]; exact fx) n; rwa [val_neg] at this
  have bs : |-x.val + -y.val| ≤ 1.5 * n := abs_le_of_sq_le_sq (by nlinarith [sq_nonneg (x.val - y.val)]) (by linarith)
  have bd : |-y.val - -x.val| ≤ 1.5 * n := abs_le_of_sq_le_sq (by nlinarith [sq_nonneg (x.val + y.val)]) (by linarith)
  have cn : Cap (1.5 * n) := capC (by norm_num; linarith) (by norm_num at n25 ⊢; linarith)
  have s : Ab (-x + y.abs) (-x.val + -y.val) (2.3 / 10^16 * (1.5 * n)) :=
    (ab_add aX aY (M := 1.5 * n) (by norm_num at bs ⊢; linarith) cn).mono (by norm_num; linarith)
  have d : Ab (y.abs - -x) (-y.val - -x.val) (2.3 / 10^16 * (1.5 * n)) :=
    (ab_sub aY aX (M := 1.5 * n) (by norm_num at bd ⊢; linarith) cn).mono (by norm_num; linarith)
  have N1 : 49 ≤ n^2 := by nlinarith
  have N2 : n^2 ≤ 10^13 := h'
  have a := rm d s bd bs (by norm_num) (by norm_num) (by norm_num) (by norm_num) (capC (by
    rw [show 1.1 * (1.5 * n * (1.5 * n)) = 2.475 * n^2 by ring]; norm_num; linarith) (by rw [show 1.1 * (1.5 * n * (1.5 * n)) = 2.475 * n^2 by ring]; norm_num at N2 ⊢; linarith))
  have a' : Ab ((y.abs - -x) * (-x + y.abs)) (y.val^2 - x.val^2) (1.65 / 10^15 * n^2) := by
    rw [show y.val^2 - x.val^2 = (-y.val - -x.val) * (-x.val + -y.val) by ring]
    exact a.mono (by rw [show 1.5 * n * (1.5 * n) = 2.25 * n^2 by ring]; norm_num; linarith)
  have v2 : (2.0 : F64).val = 2 := by exact_mod_cast val_of_int (x := (2.0 : F64)) 2 (by decide +kernel)
  have t2 : Ab (2.0 : F64) 2 (0 * 2) := by rw [zero_mul]; exact ab_int (by decide +kernel) v2
  have b1 := rm t2 aX (by norm_num : |(2:ℝ)| ≤ 2) (by rwa [abs_neg]) (by norm_num) (by norm_num) (by norm_num) (by norm_num) (capC (by norm_num; linarith) (by norm_num at n25 ⊢; linarith))
  have b2 := rm b1 (ab0 fy n) (by rw [abs_mul, abs_neg]; norm_num; linarith) bY (by norm_num) (by norm_num) (by norm_num) (by norm_num) (capC (by
    rw [show 1.1 * (2 * n * n) = 2.2 * n^2 by ring]; norm_num; linarith) (by rw [show 1.1 * (2 * n * n) = 2.2 * n^2 by ring]; norm_num at N2 ⊢; linarith))
  have b : Ab (2.0 * -x * y) (-2 * x.val * y.val) (1 / 10^15 * n^2) := by
    rw [show -2 * x.val * y.val = 2 * -x.val * y.val by ring]
    exact b2.mono (by rw [show 2 * n * n = 2 * n^2 by ring]; norm_num; linarith)
  have ex := exp_ab L a' N1 N2 hA
  have E0 := Real.exp_pos (y.val^2 - x.val^2)
  have E1 : Real.exp (y.val^2 - x.val^2) ≤ 10^300 := exp600 hA
  have co := cos_ab L b N1
  have si := sin_ab L b N1
  have ce : Cx.exp (⟨(y.abs - -x) * (-x + y.abs), 2.0 * -x * y⟩ : Cx F64) =
      ⟨Libm.exp ((y.abs - -x) * (-x + y.abs)) * Libm.cos (2.0 * -x * y), Libm.exp ((y.abs - -x) * (-x + y.abs)) * Libm.sin (2.0 * -x * y)⟩ := by
    unfold Cx.exp
    have i1 : Arith.isInf ((y.abs - -x) * (-x + y.abs)) = false := isFin_notInf a'.fin
    have i2 : Arith.isNaN ((y.abs - -x) * (-x + y.abs)) = false := isFin_notNaN a'.fin
    simp only [i1, i2, Bool.false_and, Bool.false_eq_true, if_false]
  rw [ce]
  have ez : -(cpx x y)^2 = (⟨y.val^2 - x.val^2, -2 * x.val * y.val⟩ : ℂ) := by
    apply Complex.ext
    · simp [cpx, sq]
    · simp [cpx, sq]; ring
  have er : (Complex.exp (-(cpx x y)^2)).re = Real.exp (y.val^2 - x.val^2) * Real.cos (-2 * x.val * y.val) := by rw [ez, Complex.exp_re]
  have ei : (Complex.exp (-(cpx x y)^2)).im = Real.exp (y.val^2 - x.val^2) * Real.sin (-2 * x.val * y.val) := by rw [ez, Complex.exp_im]
  have en : ‖Complex.exp (-(cpx x y)^2)‖ = Real.exp (y.val^2 - x.val^2) := by rw [Complex.norm_exp, ez]
  have wn : ‖faddeevaW (-cpx x y)‖ ≤ n⁻¹ := by
    have z0 : -cpx x y ≠ 0 := by intro h; rw [hnd, ← norm_neg, h, norm_zero] at n0; exact lt_irrefl _ n0
    have e := w1 z0 (by show 0 ≤ -(cpx x y).im; show 0 ≤ -y.val; linarith)
    have t := norm_sub_norm_le (faddeevaW (-cpx x y)) ((kap : ℂ) * (1/2) * (Complex.I * (-cpx x y)⁻¹))
    rw [norm_sub_rev] at t
    have nn : ‖(kap : ℂ) * (1/2) * (Complex.I * (-cpx x y)⁻¹)‖ = kap / 2 * n⁻¹ := by
      rw [norm_mul, norm_mul, norm_mul, Complex.norm_I, norm_inv, norm_neg, Complex.norm_real, Real.norm_eq_abs, abs_of_pos kap_pos]
      have : ‖(1/2 : ℂ)‖ = 1/2 := by rw [norm_div, norm_one, Complex.norm_ofNat]
      rw [this]; ring
    rw [nn] at t
    rw [norm_neg, ← hnd] at e
    have m2 : n⁻¹ ≤ 1/7 := by rw [← one_div]; exact one_div_le_one_div_of_le (by norm_num) n7
    have m : 0 < n⁻¹ := inv_pos.2 n0
    have u2 : (n⁻¹)^2 ≤ (1/7)^2 := pow_le_pow_left₀ m.le m2 2
    have u3 : 1.7 * (n⁻¹)^3 ≤ 0.035 * n⁻¹ := by
      calc 1.7 * (n⁻¹)^3 = (1.7 * (n⁻¹)^2) * n⁻¹ := by ring
        _ ≤ 0.035 * n⁻¹ := mul_le_mul_of_nonneg_right (by norm_num at u2 ⊢; linarith) m.le
    have ku : kap / 2 * n⁻¹ ≤ 0.6 * n⁻¹ := mul_le_mul_of_nonneg_right (by have := kap_le; norm_num at this ⊢; linarith) m.le
    have e2 := e.trans u3
    linarith
  have m1 : 1 / 10^7 ≤ n⁻¹ := by rw [← one_div]; exact one_div_le_one_div_of_le n0 (by norm_num at n25 ⊢; linarith)
  have m2 : n⁻¹ ≤ 1 := inv_le_one_of_one_le₀ (by linarith)
  rw [w_reflect, en]
  constructor
  · have t := minus_ab (twice_ab ex co (Real.abs_cos_le_one _) E0 E1 N1 N2) res.1 (by
      rw [abs_mul, abs_mul, abs_of_pos E0, abs_of_pos (two_pos : (0:ℝ) < 2)]
      have := mul_le_mul_of_nonneg_left (Real.abs_cos_le_one (-2 * x.val * y.val)) E0.le
      linarith) ((Complex.abs_re_le_norm _).trans wn) E0 E1 N1 N2 m1 m2
    rw [Complex.sub_re, show (2 * Complex.exp (-(cpx x y)^2)).re = 2 * (Real.exp (y.val^2 - x.val^2) * Real.cos (-2 * x.val * y.val)) by
      rw [show (2:ℂ) = ((2:ℝ):ℂ) by norm_num, Complex.re_ofReal_mul, er]]
    exact t
  · have t := minus_ab (twice_ab ex si (Real.abs_sin_le_one _) E0 E1 N1 N2) res.2 (by
      rw [abs_mul, abs_mul, abs_of_pos E0, abs_of_pos (two_pos : (0:ℝ) < 2)]
      have := mul_le_mul_of_nonneg_left (Real.abs_sin_le_one (-2 * x.val * y.val)) E0.le
      linarith) ((Complex.abs_im_le_norm _).trans wn) E0 E1 N1 N2 m1 m2
    rw [Complex.sub_im, show (2 * Complex.exp (-(cpx x y)^2)).im = 2 * (Real.exp (y.val^2 - x.val^2) * Real.sin (-2 * x.val * y.val)) by
      rw [show (2:ℂ) = ((2:ℝ):ℂ) by norm_num, Complex.im_ofReal_mul, ei]]
    exact t

/-- the hypotheses hold at (6, -8), with the correctly rounded library functions -/
example : @LibmTrig idealLibm ∧ (6.0 : F64).isFin = true ∧ (-8.0 : F64).isFin = true ∧ (-8.0 : F64).val < 0 ∧ 49.01 ≤ (6.0 : F64).val^2 + (-8.0 : F64).val^2 ∧
    (6.0 : F64).val^2 + (-8.0 : F64).val^2 ≤ 10^13 ∧ (-8.0 : F64).val^2 - (6.0 : F64).val^2 ≤ 600 ∧ |(6.0 : F64).val| ≤ 9 * 10^7 * |(-8.0 : F64).val| ∧ |(-8.0 : F64).val| ≤ 9 * 10^7 * |(6.0 : F64).val| := by
  have a : (6.0 : F64).val = 6 := by exact_mod_cast val_of_int (x := (6.0 : F64)) 6 (by decide +kernel)
  have b : (-8.0 : F64).val = -8 := by exact_mod_cast val_of_int (x := (-8.0 : F64)) (-8) (by decide +kernel)
  rw [a, b, abs_neg, abs_of_pos (by norm_num : (0:ℝ) < 6), abs_of_pos (by norm_num : (0:ℝ) < 8)]
  exact ⟨ideal_trig, by decide +kernel, by decide +kernel, by norm_num, by norm_num, by norm_num, by norm_num, by norm_num, by norm_num⟩

end Verif
