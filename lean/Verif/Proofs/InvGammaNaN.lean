import Verif.Props.IncGamma
import Verif.Proofs.Ab
import Verif.Proofs.GcfF8

/-! The first guess of `invgammp` for `a ≥ 100` and `10⁻¹⁰ ≤ p ≤ 0.45` lies where `gammp` is NaN. -/

namespace Verif
namespace Igp
open F64

/-- a rounded positive number -/
theorem rnp {a : F64} {y : ℝ} (h : a.val = RN y) (h1 : 1 / 10^100 ≤ y) (h2 : y ≤ 10^50) :
    a.isFin = true ∧ y * (1 - 1.2 / 10^16) ≤ a.val ∧ a.val ≤ y * (1 + 1.2 / 10^16) := by
  obtain ⟨f, e⟩ := Gcf.rn_rel h1 h2
  rw [← h] at f e
  have y0 : 0 < y := lt_of_lt_of_le (by norm_num) h1
  obtain ⟨k1, k2⟩ := abs_le.1 e
  refine ⟨isFin_iff_val.2 f, ?_, ?_⟩
  · norm_num at k1 ⊢; linarith
  · norm_num at k2 ⊢; linarith

theorem log_045 : Real.log 0.45 ≤ -0.79 := by
  rw [Real.log_le_iff_le_exp (by norm_num)]
  have q := Real.quadratic_le_exp_of_nonneg (show (0:ℝ) ≤ 0.21 by norm_num)
  have e : Real.exp (-0.79) = Real.exp 0.21 * (Real.exp 1)⁻¹ := by rw [← Real.exp_neg, ← Real.exp_add]; norm_num
  have i : (0.367 : ℝ) ≤ (Real.exp 1)⁻¹ := by
    rw [le_inv_comm₀ (by norm_num) (Real.exp_pos _)]
    have := Real.exp_one_lt_d9
    norm_num at this ⊢
    linarith
  rw [e]
  have := mul_le_mul q i (by norm_num) (Real.exp_pos _).le
  norm_num at this ⊢
  linarith

variable [Libm F64]

/-- `t = sqrt(-2 ln p)` -/
theorem t_bounds (A : LibmAcc) {p : F64} (h1 : 1 / 10^10 ≤ p.val) (h2 : p.val ≤ 0.45) :
    (F64.sqrt (-2.0 * Libm.ln p)).isFin = true ∧ 1.256 ≤ (F64.sqrt (-2.0 * Libm.ln p)).val ∧ (F64.sqrt (-2.0 * Libm.ln p)).val ≤ 6.95 := by
  have p0 : 0 < p.val := lt_of_lt_of_le (by norm_num) h1
  have fp : p.isFin = true := isFin_of_abs (b := 1) (by rw [abs_of_pos p0]; linarith) (by norm_num)
  have l1 : Real.log p.val ≤ -0.79 := (Real.log_le_log p0 h2).trans log_045
  have l2 : -24 ≤ Real.log p.val := by
    have := Real.log_le_log (by norm_num) h1
    rw [one_div, Real.log_inv, Real.log_pow] at this
    have l10 : Real.log 10 ≤ 2.4 := by
      rw [Real.log_le_iff_le_exp (by norm_num)]
      have := Real.exp_one_gt_d9
      have h7 : Real.exp 2.4 = (Real.exp 1)^2 * Real.exp 0.4 := by rw [← Real.exp_nat_mul, ← Real.exp_add]; norm_num
      have h8 := Real.add_one_le_exp (0.4:ℝ)
      rw [h7]
      have h9 : (7.38:ℝ) ≤ (Real.exp 1)^2 := by nlinarith
      nlinarith
    push_cast at this
    linarith
  have e := A.ln_acc p fp p0
  rw [abs_of_neg (show Real.log p.val < 0 by linarith)] at e
  obtain ⟨k1, k2⟩ := abs_le.1 e
  have b1 : (Libm.ln p).val ≤ -0.7899 := by norm_num at *; linarith
  have b2 : -24.001 ≤ (Libm.ln p).val := by norm_num at *; linarith
  have fl : (Libm.ln p).isFin = true := isFin_of_abs (b := 100) (by rw [abs_le]; constructor <;> norm_num at * <;> linarith) (by norm_num)
  have v2 : (-2.0 : F64).val = -2 := by
    have := val_of_int (x := (-2.0 : F64)) (-2) (by decide +kernel)
    rw [this]; norm_num
  obtain ⟨-, mv, -⟩ := mul_spec (a := (-2.0 : F64)) (by decide +kernel) fl
  rw [v2] at mv
  obtain ⟨m1, m2, m3⟩ := rnp mv (le_trans (show (1:ℝ) / 10^100 ≤ 1 by norm_num) (by norm_num at *; linarith)) (le_trans (show _ ≤ (100:ℝ) by norm_num at *; linarith) (by norm_num))
  have c1 : 1.579 ≤ (-2.0 * Libm.ln p : F64).val := by norm_num at *; linarith
  have c2 : (-2.0 * Libm.ln p : F64).val ≤ 48.1 := by norm_num at *; linarith
  obtain ⟨-, sv, -⟩ := F64.sqrt_spec m1 (by linarith)
  have s1 : 1.2565 ≤ √(-2.0 * Libm.ln p : F64).val := Real.le_sqrt_of_sq_le (by norm_num at *; linarith)
  have s2 : √(-2.0 * Libm.ln p : F64).val ≤ 6.94 := Real.sqrt_le_iff.mpr ⟨by norm_num, by norm_num at *; linarith⟩
  obtain ⟨n1, n2, n3⟩ := rnp sv (le_trans (show (1:ℝ) / 10^100 ≤ 1 by norm_num) (by linarith)) (le_trans (show _ ≤ (100:ℝ) by linarith) (by norm_num))
  refine ⟨n1, ?_, ?_⟩
  · norm_num at *; linarith
  · norm_num at *; linarith

set_option maxRecDepth 20000 in
omit [Libm F64] in
/-- the normal quantile -/
theorem z_bounds {t : F64} (ft : t.isFin = true) (h1 : 1.256 ≤ t.val) (h2 : t.val ≤ 6.95) :
    (-((2.30753 + t * 0.27061) / (1.0 + t * (0.99229 + t * 0.04481)) - t)).isFin = true ∧
    0.11 ≤ (-((2.30753 + t * 0.27061) / (1.0 + t * (0.99229 + t * 0.04481)) - t) : F64).val ∧
    (-((2.30753 + t * 0.27061) / (1.0 + t * (0.99229 + t * 0.04481)) - t) : F64).val ≤ 7 := by
  have T := ab_self ft
  have c10 : Cap (10:ℝ) := cap_of (by norm_num) (le_trans (by norm_num : (10:ℝ) ≤ 10^1) (pow_le_pow_right₀ (by norm_num) (by norm_num)))
  have a0 : |t.val| ≤ 7 := by rw [abs_of_pos (by linarith)]; linarith
  have t0 : 0 < t.val := by linarith
  have k1 := ab_lit 230753 5 (M := 10) (by norm_num) c10
  have k2 := ab_lit 27061 5 (M := 10) (by norm_num) c10
  have k3 := ab_lit 99229 5 (M := 10) (by norm_num) c10
  have k4 := ab_lit 4481 5 (M := 10) (by norm_num) c10
  have k0 := ab_lit 10 1 (M := 10) (by norm_num) c10
  have n1 := ab_mul T k2 a0 (Q := 0.3) (by norm_num) (M := 10) (by norm_num) c10
  have n2 := ab_add k1 n1 (M := 10) (by rw [abs_of_pos (by positivity)]; norm_num at *; linarith) c10
  have d1 := ab_mul T k4 a0 (Q := 0.05) (by norm_num) (M := 10) (by norm_num) c10
  have d2 := ab_add k3 d1 (M := 10) (by rw [abs_of_pos (by positivity)]; norm_num at *; linarith) c10
  have d2a : |((99229:ℕ):ℝ) / 10^5 + t.val * (((4481:ℕ):ℝ) / 10^5)| ≤ 1.31 := by rw [abs_of_pos (by positivity)]; norm_num at *; linarith
  have d3 := ab_mul T d2 a0 d2a (M := 10) (by norm_num) c10
  have q : t.val * (((99229:ℕ):ℝ) / 10^5 + t.val * (((4481:ℕ):ℝ) / 10^5)) ≤ 7 * 1.31 := by
    rw [abs_of_pos (by positivity)] at d2a
    exact mul_le_mul (by linarith) d2a (by positivity) (by norm_num)
  have c11 : Cap (11:ℝ) := cap_of (by norm_num) (le_trans (by norm_num : (11:ℝ) ≤ 10^2) (pow_le_pow_right₀ (by norm_num) (by norm_num)))
  have d4 := ab_add k0 d3 (M := 11) (by rw [abs_of_pos (by positivity)]; norm_num at *; linarith) c11
  have N := n2.mono (d := 1 / 10^12) (by norm_num)
  have D := d4.mono (d := 1 / 10^12) (by norm_num)
  have NE : ((230753:ℕ):ℝ) / 10^5 + t.val * (((27061:ℕ):ℝ) / 10^5) = 2.30753 + 0.27061 * t.val := by push_cast; ring
  have DE : ((10:ℕ):ℝ) / 10^1 + t.val * (((99229:ℕ):ℝ) / 10^5 + t.val * (((4481:ℕ):ℝ) / 10^5)) = 1 + 0.99229 * t.val + 0.04481 * (t.val * t.val) := by push_cast; ring
  rw [NE] at N
  rw [DE] at D
  set B := 1 + 0.99229 * t.val + 0.04481 * (t.val * t.val) with hB
  set C := 2.30753 + 0.27061 * t.val with hC
  have tt : 0 < t.val * t.val := by positivity
  have B1 : 2.2 ≤ B := by rw [hB]; norm_num at *; nlinarith
  have C0 : 0 < C := by rw [hC]; positivity
  have C5 : C ≤ 5 := by rw [hC]; norm_num at *; linarith
  clear_value B C
  have eB : 1 / 10^12 / B ≤ 1 / 10^12 := div_le_self (by norm_num) (by linarith)
  have bnd : 2 * (1 / 10^12 + |C| * (1 / 10^12 / B)) / B ≤ 2 / 10^11 := by
    rw [abs_of_pos C0]
    have h : C * (1 / 10^12 / B) ≤ 5 * (1 / 10^12) := mul_le_mul C5 eB (by positivity) (by norm_num)
    rw [div_le_iff₀ (by linarith)]
    norm_num at *
    linarith
  have CB : C / B ≤ 5 := by rw [div_le_iff₀ (by linarith)]; linarith
  have Q := (ab_div N D (by linarith) (by norm_num at *; linarith) (M := 10) (by rw [abs_of_pos C0] at *; norm_num at *; linarith) c10).mono (d := 3 / 10^11) (by norm_num at *; linarith)
  have cb0 : 0 < C / B := div_pos C0 (by linarith)
  have R := (ab_sub Q T (M := 12) (by
    have : |C / B - t.val| ≤ 7 := by rw [abs_le]; constructor <;> linarith
    norm_num at *; linarith) (cap_of (by norm_num) (le_trans (by norm_num : (12:ℝ) ≤ 10^2) (pow_le_pow_right₀ (by norm_num) (by norm_num))))).mono (d := 1 / 10^10) (by norm_num)
  have S := ab_neg R
  obtain ⟨r1, r2⟩ := abs_le.1 S.err
  have key : C / B ≤ t.val - 0.111 := by
    rw [div_le_iff₀ (by linarith), hB, hC]
    have u : 0 ≤ t.val - 1.256 := by linarith
    nlinarith [mul_nonneg u t0.le, mul_nonneg (mul_nonneg u t0.le) t0.le]
  refine ⟨S.fin, ?_, ?_⟩
  · linarith only [r1, key]
  · linarith only [r2, cb0, h2]

omit [Libm F64] in
theorem guess_real {a s z V : ℝ} (ss : s * s = a) (s10 : 10 ≤ s) (su : s ≤ 2^26) (h1 : 100 ≤ a) (z1 : 0.11 ≤ z) (z2 : z ≤ 7)
    (hV : V = 1 / (9 * a) + z / (3 * s)) :
    a * (1 - 3 * V * (1 - V)) + a * (1 / 10^14) ≤ a - 1 := by
  have s0 : 0 < s := by linarith
  have a0 : 0 < a := by linarith
  have aV : a * V = 1 / 9 + z * s / 3 := by
    rw [hV, ← ss]; field_simp
  have b1 : V ≤ 1 / 900 + z / 30 := by
    have h1 : 1 / (9 * a) ≤ 1 / 900 := one_div_le_one_div_of_le (by norm_num) (by linarith)
    have h2 : z / (3 * s) ≤ z / 30 := div_le_div_of_nonneg_left (by linarith) (by norm_num) (by linarith)
    linarith
  have sm : a * (1 / 10^14) ≤ s * (1 / 10^6) := by
    rw [← ss]
    have := mul_le_mul_of_nonneg_left su s0.le
    norm_num at this ⊢; linarith
  have zs : 0.11 * s ≤ z * s := mul_le_mul_of_nonneg_right z1 s0.le
  have main : 1 + s * (1 / 10^6) ≤ 3 * (a * V) * (1 - V) := by
    rw [aV]
    have f1 : 1 - 1 / 900 - z / 30 ≤ 1 - V := by linarith
    have f2 : (1 / 3 + z * s) * (1 - 1 / 900 - z / 30) ≤ 3 * (1 / 9 + z * s / 3) * (1 - V) := by
      have := mul_le_mul_of_nonneg_left f1 (show 0 ≤ 1 / 3 + z * s by linarith)
      linarith
    refine le_trans ?_ f2
    have g : 0 ≤ (z - 0.11) * (7 - z) := mul_nonneg (by linarith) (by linarith)
    nlinarith [mul_nonneg g s0.le, mul_nonneg (by linarith : 0 ≤ z - 0.11) (by linarith : 0 ≤ s - 10)]
  have e : a * (1 - 3 * V * (1 - V)) = a - 3 * (a * V) * (1 - V) := by ring
  rw [e]
  linarith

omit [Libm F64] in
/-- the factor `1 - 1/(9a) - z/(3√a)` -/
theorem w_bounds {a z : F64} (h1 : 100 ≤ a.val) (h2 : a.val ≤ 2^52) (fz : z.isFin = true) (z1 : 0.11 ≤ z.val) (z2 : z.val ≤ 7) :
    let w : F64 := 1.0 - 1.0 / (9.0 * a) - z / (3.0 * F64.sqrt a)
    w.isFin = true ∧ 0.76 ≤ w.val ∧ w.val ≤ 1 ∧ w.val ≤ 1 - (1 / (9 * a.val) + z.val / (3 * √a.val)) + 2 / 10^15 := by
  intro w
  have a0 : 0 < a.val := by linarith
  have fa : a.isFin = true := isFin_of_abs (b := 2^52) (by rw [abs_of_pos a0]; exact h2) (by norm_num)
  have v1 : (1.0 : F64).val = 1 := by exact_mod_cast val_of_int (x := (1.0 : F64)) 1 (by decide +kernel)
  have v9 : (9.0 : F64).val = 9 := by exact_mod_cast val_of_int (x := (9.0 : F64)) 9 (by decide +kernel)
  have v3 : (3.0 : F64).val = 3 := by exact_mod_cast val_of_int (x := (3.0 : F64)) 3 (by decide +kernel)
  set s := √a.val with hs
  have s10 : 10 ≤ s := Real.le_sqrt_of_sq_le (by norm_num; linarith)
  have ss : s * s = a.val := Real.mul_self_sqrt a0.le
  have su : s ≤ 2^26 := Real.sqrt_le_iff.mpr ⟨by norm_num, by linarith⟩
  have tiny : ∀ y : ℝ, 1 / 10^20 ≤ y → 1 / 10^100 ≤ y := fun y h => le_trans (by norm_num) h
  have big : ∀ y : ℝ, y ≤ 10^20 → y ≤ 10^50 := fun y h => h.trans (by norm_num)
  -- 9a
  obtain ⟨f9, l9, u9⟩ := rnp (a := (9.0 : F64) * a) (y := 9 * a.val) (by rw [(mul_spec (by decide +kernel) fa).2.1, v9]) (tiny _ (by norm_num; linarith)) (big _ (by linarith))
  have p9 : 8.9 * a.val ≤ ((9.0 : F64) * a).val := by linarith
  have p9' : ((9.0 : F64) * a).val ≤ 9.1 * a.val := by linarith
  -- 1/(9a)
  have d9 : 0 < ((9.0 : F64) * a).val := by linarith
  have i9 : 1 / ((9.0 : F64) * a).val ≤ 1 / 890 := one_div_le_one_div_of_le (by norm_num) (by linarith)
  have i9' : 1 / (9.1 * 2^52) ≤ 1 / ((9.0 : F64) * a).val := one_div_le_one_div_of_le d9 (by linarith)
  obtain ⟨fi, li, ui⟩ := rnp (a := (1.0 : F64) / (9.0 * a)) (y := 1 / ((9.0 : F64) * a).val) (by rw [(div_spec (by decide +kernel) f9 d9.ne').2.1, v1]) (tiny _ (le_trans (by norm_num) i9')) (big _ (i9.trans (by norm_num)))
  set I := ((1.0 : F64) / (9.0 * a)).val with hI
  have I0 : 0 < I := lt_of_lt_of_le (by norm_num) (le_trans (mul_le_mul_of_nonneg_right i9' (by norm_num)) li)
  have I1 : I ≤ 0.0012 := by linarith
  have Ilow : 1 / (9 * a.val) * (1 - 1 / 10^15) ≤ I := by
    refine le_trans ?_ li
    have : 1 / (9 * a.val * (1 + 1.2 / 10^16)) ≤ 1 / ((9.0 : F64) * a).val := one_div_le_one_div_of_le d9 u9
    refine le_trans ?_ (mul_le_mul_of_nonneg_right this (by norm_num))
    rw [one_div_mul_eq_div, one_div_mul_eq_div, div_le_div_iff₀ (by positivity) (by positivity)]
    have e : (1 - 1 / 10^15) * (9 * a.val * (1 + 1.2 / 10^16)) = 9 * a.val * ((1 - 1 / 10^15) * (1 + 1.2 / 10^16)) := by ring
    rw [e, mul_comm (1 - 1.2 / 10^16)]
    exact mul_le_mul_of_nonneg_left (by norm_num) (by positivity)
  -- sqrt
  obtain ⟨fs, ls, us⟩ := rnp (a := F64.sqrt a) (y := s) (F64.sqrt_spec fa a0).2.1 (tiny _ (by norm_num; linarith)) (big _ (by linarith))
  obtain ⟨f3, l3, u3⟩ := rnp (a := (3.0 : F64) * F64.sqrt a) (y := 3 * (F64.sqrt a).val) (by rw [(mul_spec (by decide +kernel) fs).2.1, v3]) (tiny _ (by linarith)) (big _ (by linarith))
  have q3 : ((3.0 : F64) * F64.sqrt a).val ≤ 3 * s * (1 + 2.5 / 10^16) := by linarith
  have q3' : 2.99 * s ≤ ((3.0 : F64) * F64.sqrt a).val := by linarith
  have d3 : 0 < ((3.0 : F64) * F64.sqrt a).val := by linarith
  have y1 : z.val / ((3.0 : F64) * F64.sqrt a).val ≤ 7 / 29.9 := div_le_div₀ (by norm_num) z2 (by norm_num) (by linarith)
  have y2 : 0.11 / (4 * 2^26) ≤ z.val / ((3.0 : F64) * F64.sqrt a).val := div_le_div₀ (by linarith) z1 d3 (by linarith)
  obtain ⟨fq, lq, uq⟩ := rnp (a := z / ((3.0 : F64) * F64.sqrt a)) (y := z.val / ((3.0 : F64) * F64.sqrt a).val) (div_spec fz f3 d3.ne').2.1 (tiny _ (le_trans (by norm_num) y2)) (big _ (y1.trans (by norm_num)))
  set q := (z / ((3.0 : F64) * F64.sqrt a)).val with hq
  have q1 : q ≤ 0.2342 := by linarith
  have q0 : 0 < q := lt_of_lt_of_le (by norm_num) (le_trans (mul_le_mul_of_nonneg_right y2 (by norm_num)) lq)
  have qlow : z.val / (3 * s) * (1 - 1 / 10^15) ≤ q := by
    refine le_trans ?_ lq
    have z0 : 0 < z.val := by linarith
    have : z.val / (3 * s * (1 + 2.5 / 10^16)) ≤ z.val / ((3.0 : F64) * F64.sqrt a).val := div_le_div_of_nonneg_left z0.le d3 q3
    refine le_trans ?_ (mul_le_mul_of_nonneg_right this (by norm_num))
    rw [div_mul_eq_mul_div, div_mul_eq_mul_div, div_le_div_iff₀ (by positivity) (by positivity)]
    have e : z.val * (1 - 1 / 10^15) * (3 * s * (1 + 2.5 / 10^16)) = z.val * (3 * s) * ((1 - 1 / 10^15) * (1 + 2.5 / 10^16)) := by ring
    have e2 : z.val * (1 - 1.2 / 10^16) * (3 * s) = z.val * (3 * s) * (1 - 1.2 / 10^16) := by ring
    rw [e, e2]
    exact mul_le_mul_of_nonneg_left (by norm_num) (by positivity)
  -- w
  obtain ⟨fw1, lw1, uw1⟩ := rnp (a := (1.0 : F64) - 1.0 / (9.0 * a)) (y := 1 - I) (by rw [(sub_spec (by decide +kernel) fi).2, v1]) (tiny _ (by linarith)) (big _ (by linarith))
  obtain ⟨fw, lw, uw⟩ := rnp (a := w) (y := ((1.0 : F64) - 1.0 / (9.0 * a)).val - q) (sub_spec fw1 fq).2 (tiny _ (by linarith)) (big _ (by linarith))
  set V := 1 / (9 * a.val) + z.val / (3 * s) with hV
  have V0 : 0 < V := by have : 0 < z.val := by linarith
                        positivity
  have V1 : V ≤ 0.235 := by
    have h1 : 1 / (9 * a.val) ≤ 1 / 900 := one_div_le_one_div_of_le (by norm_num) (by linarith)
    have h2 : z.val / (3 * s) ≤ 7 / 30 := div_le_div₀ (by norm_num) z2 (by norm_num) (by linarith)
    linarith
  have wl : 0.76 ≤ w.val := by linarith
  have wu : w.val ≤ 1 - V + 2 / 10^15 := by
    have : V * (1 - 1 / 10^15) ≤ I + q := by rw [hV, add_mul]; exact add_le_add Ilow qlow
    linarith
  have w1 : w.val ≤ 1 := by
    have : 1 / (4 * 2^26) * 0.1 ≤ V := by
      have h2 : 0.11 / (3 * 2^26) ≤ z.val / (3 * s) := div_le_div₀ (by linarith) z1 (by positivity) (by linarith)
      have h1 : 0 < 1 / (9 * a.val) := by positivity
      linarith
    linarith
  exact ⟨fw, wl, w1, wu⟩

omit [Libm F64] in
/-- the guess `a (1 - 1/(9a) - z/(3√a))³` -/
theorem guess_bounds {a z : F64} (h1 : 100 ≤ a.val) (h2 : a.val ≤ 2^52) (fz : z.isFin = true) (z1 : 0.11 ≤ z.val) (z2 : z.val ≤ 7) :
    let w : F64 := 1.0 - 1.0 / (9.0 * a) - z / (3.0 * F64.sqrt a)
    (a * (w * w * w)).isFin = true ∧ a.val / 4 ≤ (a * (w * w * w)).val ∧ (a * (w * w * w)).val ≤ a.val - 1 := by
  intro w
  obtain ⟨fw, wl, w1, wu⟩ := w_bounds h1 h2 fz z1 z2
  change w.isFin = true at fw
  change 0.76 ≤ w.val at wl
  change w.val ≤ 1 at w1
  change w.val ≤ _ at wu
  clear_value w
  have a0 : 0 < a.val := by linarith
  have fa : a.isFin = true := isFin_of_abs (b := 2^52) (by rw [abs_of_pos a0]; exact h2) (by norm_num)
  set s := √a.val with hs
  have s10 : 10 ≤ s := Real.le_sqrt_of_sq_le (by norm_num; linarith)
  have ss : s * s = a.val := Real.mul_self_sqrt a0.le
  have su : s ≤ 2^26 := Real.sqrt_le_iff.mpr ⟨by norm_num, by norm_num at h2 ⊢; linarith⟩
  have tiny : ∀ y : ℝ, 1 / 10^20 ≤ y → 1 / 10^100 ≤ y := fun y h => le_trans (by norm_num) h
  have big : ∀ y : ℝ, y ≤ 10^20 → y ≤ 10^50 := fun y h => h.trans (by norm_num)
  set V := 1 / (9 * a.val) + z.val / (3 * s) with hV
  have V0 : 0 < V := by
    have : 0 < z.val := by linarith
    positivity
  have V1 : V ≤ 0.235 := by
    have h1 : 1 / (9 * a.val) ≤ 1 / 900 := one_div_le_one_div_of_le (by norm_num) (by linarith)
    have h2 : z.val / (3 * s) ≤ 7 / 30 := div_le_div₀ (by norm_num) z2 (by norm_num) (by linarith)
    linarith
  clear_value s
  have w0 : 0 < w.val := by linarith
  -- w³
  have sq1 : 0.76 * 0.76 ≤ w.val * w.val := mul_le_mul wl wl (by norm_num) w0.le
  have sq2 : w.val * w.val ≤ 1 * 1 := mul_le_mul w1 w1 w0.le (by norm_num)
  obtain ⟨f2, l2, u2⟩ := rnp (a := w * w) (y := w.val * w.val) (mul_spec fw fw).2.1 (tiny _ (le_trans (by norm_num) sq1)) (big _ (sq2.trans (by norm_num)))
  have m2l : 0.57 ≤ (w * w).val := by linarith
  have m2u : (w * w).val ≤ 1.1 := by linarith
  have c1 : 0.57 * 0.76 ≤ (w * w).val * w.val := mul_le_mul m2l wl (by norm_num) (by linarith)
  have c2 : (w * w).val * w.val ≤ 1.1 * 1 := mul_le_mul m2u w1 w0.le (by norm_num)
  obtain ⟨f33, l33, u33⟩ := rnp (a := w * w * w) (y := (w * w).val * w.val) (mul_spec f2 fw).2.1 (tiny _ (le_trans (by norm_num) c1)) (big _ (c2.trans (by norm_num)))
  have cu : (w * w).val * w.val ≤ w.val^3 * (1 + 1.2 / 10^16) := by
    have := mul_le_mul_of_nonneg_right u2 w0.le
    calc _ ≤ w.val * w.val * (1 + 1.2 / 10^16) * w.val := this
      _ = _ := by ring
  have w3le : w.val^3 ≤ 1 - 3 * V * (1 - V) + 7 / 10^15 := by
    have b : w.val^3 ≤ (1 - V + 2 / 10^15)^3 := pow_le_pow_left₀ w0.le wu 3
    refine b.trans ?_
    have : (1 - V + 2 / 10^15)^3 = 1 - 3 * V * (1 - V) - V^3 + 3 * (1 - V)^2 * (2 / 10^15) + 3 * (1 - V) * (2 / 10^15)^2 + (2 / 10^15)^3 := by ring
    rw [this]
    have h1 : (1 - V)^2 ≤ 1 := pow_le_one₀ (by linarith) (by linarith)
    have h2 : 0 < V^3 := by positivity
    linarith
  have w3one : w.val^3 ≤ 1 := pow_le_one₀ w0.le w1
  have k3 : (w * w * w).val ≤ w.val^3 + 1 / 10^15 := by linarith
  have k3l : 0.43 ≤ (w * w * w).val := by linarith
  have k3u : (w * w * w).val ≤ 1.1 := by linarith
  have g1 : 100 * 0.43 ≤ a.val * (w * w * w).val := mul_le_mul h1 k3l (by norm_num) a0.le
  have g2 : a.val * (w * w * w).val ≤ 2^52 * 1.1 := mul_le_mul h2 k3u (by linarith) (by norm_num)
  obtain ⟨fg, lg, ug⟩ := rnp (a := a * (w * w * w)) (y := a.val * (w * w * w).val) (mul_spec fa f33).2.1 (tiny _ (le_trans (by norm_num) g1)) (big _ (g2.trans (by norm_num)))
  refine ⟨fg, ?_, ?_⟩
  · have := mul_le_mul_of_nonneg_left k3l a0.le
    linarith
  · have up : a.val * (w * w * w).val ≤ a.val * (1 - 3 * V * (1 - V) + 8 / 10^15) := mul_le_mul_of_nonneg_left (by linarith) a0.le
    have ug2 : (a * (w * w * w)).val ≤ a.val * (1 - 3 * V * (1 - V)) + a.val * (1 / 10^14) := by
      have : a.val * (w * w * w).val ≤ a.val * 1.1 := mul_le_mul_of_nonneg_left k3u a0.le
      generalize a.val * (w * w * w).val = X at *
      linarith
    refine ug2.trans ?_
    exact guess_real ss s10 su h1 z1 z2 hV

end Igp
end Verif
