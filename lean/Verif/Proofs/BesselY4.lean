import Verif.Proofs.BesselY3
import Verif.Proofs.BesselRight5

/-! `y0` and `y1` for `x ≥ 8` in exact arithmetic: the same tables as `j0`, `j1`, with the phase moved by a quarter turn. -/

namespace Verif
namespace Bes
open ZPoly Real

/-- `√(πx/2)` times the approximation of `Y₀` -/
noncomputable def T0 (x : ℝ) : ℝ := sin (x - π / 4) * rt A0 B0 x + 8 / x * cos (x - π / 4) * rt C0 D0 x
/-- `√(πx/2)` times the approximation of `Y₁` -/
noncomputable def T1 (x : ℝ) : ℝ := -cos (x - π / 4) * rt A1 B1 x + 8 / x * sin (x - π / 4) * rt C1 D1 x

/-- residuals -/
noncomputable def RY0 (x : ℝ) : ℝ :=
  sin (x - π / 4) * (8 / x * (ev Na0 (64 / x ^ 2) / (16 * ev Da0 (64 / x ^ 2)))) + (-cos (x - π / 4)) * (ev Nb0 (64 / x ^ 2) / (16 * ev Db0 (64 / x ^ 2)))
noncomputable def RY1 (x : ℝ) : ℝ :=
  sin (x - π / 4) * (ev Na1 (64 / x ^ 2) / (16 * ev Da1 (64 / x ^ 2))) + (-cos (x - π / 4)) * (8 / x * (ev Nb1 (64 / x ^ 2) / (16 * ev Db1 (64 / x ^ 2))))

theorem T0_deriv {x : ℝ} (hx : 0 < x) : HasDerivAt T0 (T0 x / (2 * x) - T1 x + RY0 x) x := by
  have hy : (0:ℝ) ≤ 64 / x ^ 2 := by positivity
  have b0 := (B0_pos hy).ne'
  have d0 := (D0_pos hy).ne'
  have b1 := (B1_pos hy).ne'
  have d1 := (D1_pos hy).ne'
  have h := ((sin_shift x).mul (rt_deriv A0 B0 hx b0)).add ((((z_deriv hx).mul (cos_shift x))).mul (rt_deriv C0 D0 hx d0))
  refine h.congr_deriv ?_
  simp only [T0, T1, RY0, rt, Na0, Da0, Nb0, Db0, ev_add, ev_smul, ev_sh, ev_mul, ev_mul4, Pi.mul_apply]
  have hyz : 64 / x ^ 2 = (8 / x) ^ 2 := by rw [div_pow]; norm_num
  have hi : ∀ q : ℝ, q / (2 * x) = 8 / x * q / 16 := by intro q; field_simp; ring
  rw [hi]
  set y := 64 / x ^ 2 with hyd
  set z := 8 / x with hzd
  generalize ev A0 y = a0 at *
  generalize ev B0 y = e0 at *
  generalize ev C0 y = c0 at *
  generalize ev D0 y = f0 at *
  generalize ev A1 y = a1 at *
  generalize ev B1 y = e1 at *
  generalize ev C1 y = c1 at *
  generalize ev D1 y = f1 at *
  generalize ev (dd A0 B0) y = g0
  generalize ev (dd C0 D0) y = g1
  generalize cos (x - π / 4) = c
  generalize sin (x - π / 4) = s
  rw [hyz]
  clear_value z
  push_cast
  field_simp
  ring

theorem T1_deriv {x : ℝ} (hx : 0 < x) : HasDerivAt T1 (T0 x - T1 x / (2 * x) + RY1 x) x := by
  have hy : (0:ℝ) ≤ 64 / x ^ 2 := by positivity
  have b0 := (B0_pos hy).ne'
  have d0 := (D0_pos hy).ne'
  have b1 := (B1_pos hy).ne'
  have d1 := (D1_pos hy).ne'
  have h := ((cos_shift x).neg.mul (rt_deriv A1 B1 hx b1)).add ((((z_deriv hx).mul (sin_shift x))).mul (rt_deriv C1 D1 hx d1))
  refine h.congr_deriv ?_
  simp only [T0, T1, RY1, rt, Na1, Da1, Nb1, Db1, ev_add, ev_smul, ev_sh, ev_mul, ev_mul4, Pi.mul_apply, Pi.neg_apply]
  have hyz : 64 / x ^ 2 = (8 / x) ^ 2 := by rw [div_pow]; norm_num
  have hi : ∀ q : ℝ, q / (2 * x) = 8 / x * q / 16 := by intro q; field_simp; ring
  rw [hi]
  set y := 64 / x ^ 2 with hyd
  set z := 8 / x with hzd
  generalize ev A0 y = a0 at *
  generalize ev B0 y = e0 at *
  generalize ev C0 y = c0 at *
  generalize ev D0 y = f0 at *
  generalize ev A1 y = a1 at *
  generalize ev B1 y = e1 at *
  generalize ev C1 y = c1 at *
  generalize ev D1 y = f1 at *
  generalize ev (dd A1 B1) y = g0
  generalize ev (dd C1 D1) y = g1
  generalize cos (x - π / 4) = c
  generalize sin (x - π / 4) = s
  rw [hyz]
  clear_value z
  push_cast
  field_simp
  ring

theorem RY_bound {x : ℝ} (hx : 8 ≤ x) : |RY0 x| ≤ 6e-12 / x ^ 2 ∧ |RY1 x| ≤ 6e-12 / x ^ 2 := by
  have hx0 : 0 < x := by linarith
  have hy : (0:ℝ) ≤ 64 / x ^ 2 := by positivity
  have hy1 : 64 / x ^ 2 ≤ 1 := by rw [div_le_one (by positivity)]; nlinarith
  have hz : |8 / x| ≤ 1 := by rw [abs_of_pos (by positivity), div_le_one hx0]; exact hx
  have b0 := B0_pos hy
  have d0 := D0_pos hy
  have b1 := B1_pos hy
  have d1 := D1_pos hy
  have pa0 : 0 < ev Da0 (64 / x ^ 2) := by rw [Da0, ev_mul4]; positivity
  have pb0 : 0 < ev Db0 (64 / x ^ 2) := by rw [Db0, ev_mul4]; positivity
  have pa1 : 0 < ev Da1 (64 / x ^ 2) := by rw [Da1, ev_mul4]; positivity
  have pb1 : 0 < ev Db1 (64 / x ^ 2) := by rw [Db1, ev_mul4]; positivity
  have qa0 := quot_bound (resOK_sound 330 _ (by norm_num) _ _ cert_a0 hy hy1 pa0.le) pa0
  have qb0 := quot_bound (resOK_sound 330 _ (by norm_num) _ _ cert_b0 hy hy1 pb0.le) pb0
  have qa1 := quot_bound (resOK_sound 330 _ (by norm_num) _ _ cert_a1 hy hy1 pa1.le) pa1
  have qb1 := quot_bound (resOK_sound 330 _ (by norm_num) _ _ cert_b1 hy hy1 pb1.le) pb1
  have hc : sin (x - π / 4) ^ 2 + (-cos (x - π / 4)) ^ 2 = 1 := by rw [neg_sq]; exact sin_sq_add_cos_sq _
  have m : ∀ q : ℝ, |q| ≤ 6.25e-14 * (64 / x ^ 2) → |8 / x * q| ≤ 6.25e-14 * (64 / x ^ 2) := by
    intro q hq
    rw [abs_mul]
    calc |8 / x| * |q| ≤ 1 * |q| := by gcongr
      _ ≤ _ := by rw [one_mul]; exact hq
  have e : 1.5 * (6.25e-14 * (64 / x ^ 2)) = 6e-12 / x ^ 2 := by ring
  rw [← e]
  exact ⟨cs_bound _ _ _ _ _ hc (m _ qa0) qb0, cs_bound _ _ _ _ _ hc qa1 (m _ qb1)⟩

/-! ## the values at `8` -/

theorem W0_8 : |Wn 0 (-16) - (-0.0116621690699795874602)| ≤ 1e-22 := by
  have h := Wn_poly 0 (by norm_num) _ WL0_pos _ W0_ok W0_len (y := 64) (by norm_num) le_rfl
  rw [show -((64:ℝ) / 4) = -16 by norm_num] at h
  have h2 : |ev W0z 64 / WL0 - (-0.0116621690699795874602)| ≤ 0.5e-22 := by
    simp only [W0z, ev, WL0]; norm_num
  have := abs_sub_le (Wn 0 (-16)) (ev W0z 64 / WL0) (-0.0116621690699795874602)
  norm_num at *
  linarith

theorem W1_8 : |Wn 1 (-16) - (-0.3055966797674889185530)| ≤ 1e-22 := by
  have h := Wn_poly 1 (by norm_num) _ WL1_pos _ W1_ok W1_len (y := 64) (by norm_num) le_rfl
  rw [show -((64:ℝ) / 4) = -16 by norm_num] at h
  have h2 : |ev W1z 64 / WL1 - (-0.3055966797674889185530)| ≤ 0.5e-22 := by
    simp only [W1z, ev, WL1]; norm_num
  have := abs_sub_le (Wn 1 (-16)) (ev W1z 64 / WL1) (-0.3055966797674889185530)
  norm_num at *
  linarith

theorem log8 : |Real.log 8 - 2.07944154167983592825| ≤ 1e-20 := by
  have h := abs_le.1 Eul.log2
  have e : Real.log 8 = 3 * Real.log 2 := by rw [show (8:ℝ) = 2 ^ 3 by norm_num, Real.log_pow]; norm_num
  rw [e, abs_le]; constructor <;> norm_num at * <;> linarith [h.1, h.2]

theorem gam_small (n : ℕ) : |2 / π * ((Real.eulerMascheroniConstant - Real.log 2 - qg) * besselJR n 8)| ≤ 3e-17 ∨ 1 < n := by
  rcases Nat.lt_or_ge 1 n with h | h
  · exact Or.inr h
  left
  have J : |besselJR n 8| ≤ 1 := by interval_cases n; exacts [(BesX.J_le_one 8).1, (BesX.J_le_one 8).2]
  have p := twopi_le
  have p0 : 0 < 2 / π := by positivity
  have g := qg_close
  rw [abs_mul, abs_mul, abs_of_pos p0]
  calc 2 / π * (|Real.eulerMascheroniConstant - Real.log 2 - qg| * |besselJR n 8|) ≤ 0.637 * (3e-17 * 1) := by gcongr
    _ ≤ 3e-17 := by norm_num

theorem mul_close2 {a b a0 b0 : ℝ} (ha : |a - a0| ≤ 1e-16) (hb : |b - b0| ≤ 1e-16) (h1 : |a0| ≤ 6) (h2 : |b0| ≤ 6) : |a * b - a0 * b0| ≤ 1.3e-15 := by
  have e : a * b - a0 * b0 = (a - a0) * (b - b0) + a0 * (b - b0) + (a - a0) * b0 := by ring
  have e1 : |(a - a0) * (b - b0)| ≤ 1e-16 * 1e-16 := by rw [abs_mul]; gcongr
  have e2 : |a0 * (b - b0)| ≤ 6 * 1e-16 := by rw [abs_mul]; gcongr
  have e3 : |(a - a0) * b0| ≤ 1e-16 * 6 := by rw [abs_mul]; gcongr
  rw [e]
  have t1 := abs_add_le ((a - a0) * (b - b0) + a0 * (b - b0)) ((a - a0) * b0)
  have t2 := abs_add_le ((a - a0) * (b - b0)) (a0 * (b - b0))
  linarith

theorem twopi_mul {B b : ℝ} (h : |B - b| ≤ 2e-17) (hb : |b| ≤ 1) : |2 / π * B - 0.63661977236758134308 * b| ≤ 2e-17 := by
  have t := twopi_close
  have p := twopi_le
  have p0 : 0 < 2 / π := by positivity
  have e : 2 / π * B - 0.63661977236758134308 * b = 2 / π * (B - b) + (2 / π - 0.63661977236758134308) * b := by ring
  have e1 : |2 / π * (B - b)| ≤ 0.637 * 2e-17 := by rw [abs_mul, abs_of_pos p0]; gcongr
  have e2 : |(2 / π - 0.63661977236758134308) * b| ≤ 1e-20 * 1 := by rw [abs_mul]; gcongr
  rw [e]
  have := abs_add_le (2 / π * (B - b)) ((2 / π - 0.63661977236758134308) * b)
  linarith

theorem Y0_8 : |besselYR 0 8 - 0.223521489387566220527| ≤ 6e-17 := by
  rw [Y0_split (by norm_num), show -((8:ℝ) ^ 2 / 4) = -16 by norm_num]
  have g : |2 / π * ((Real.eulerMascheroniConstant - Real.log 2 - qg) * besselJR 0 8)| ≤ 3e-17 := by simpa using gam_small 0
  have e : 2 / π * besselJR 0 8 * Real.log 8 + 1 / π * Wn 0 (-16) = 2 / π * (besselJR 0 8 * Real.log 8 + Wn 0 (-16) / 2) := by ring
  rw [e]
  have m1 := mul_close (J0_8.trans (by norm_num)) (log8.trans (by norm_num)) (by norm_num) (by norm_num)
  have b : |besselJR 0 8 * Real.log 8 + Wn 0 (-16) / 2 - 0.351106734489713485528| ≤ 2e-17 := by
    have w := W0_8
    rw [abs_le] at *
    constructor <;> linarith [m1.1, m1.2, w.1, w.2]
  have q := twopi_mul b (by rw [abs_of_pos] <;> norm_num)
  rw [abs_le] at *
  constructor <;> linarith [g.1, g.2, q.1, q.2]

theorem Y1_8 : |besselYR 1 8 - (-0.158060461731247494256)| ≤ 6e-17 := by
  rw [Y1_split (by norm_num), show -((8:ℝ) ^ 2 / 4) = -16 by norm_num]
  have g : |2 / π * ((Real.eulerMascheroniConstant - Real.log 2 - qg) * besselJR 1 8)| ≤ 3e-17 := by simpa using gam_small 1
  have e : 2 / π * (besselJR 1 8 * Real.log 8 - 1 / 8) + 8 * (1 / (2 * π) * Wn 1 (-16)) =
    2 / π * (besselJR 1 8 * Real.log 8 - 1 / 8 + 2 * Wn 1 (-16)) := by field_simp; ring
  rw [e]
  have m1 := mul_close (J1_8.trans (by norm_num)) (log8.trans (by norm_num)) (by norm_num) (by norm_num)
  have b : |besselJR 1 8 * Real.log 8 - 1 / 8 + 2 * Wn 1 (-16) - (-0.248280792698948890035)| ≤ 2e-17 := by
    have w := W1_8
    rw [abs_le] at *
    constructor <;> linarith [m1.1, m1.2, w.1, w.2]
  have q := twopi_mul b (by rw [abs_of_neg] <;> norm_num)
  rw [abs_le] at *
  constructor <;> linarith [g.1, g.2, q.1, q.2]

theorem initY0 : |κ * T0 8 - √8 * besselYR 0 8| ≤ 2e-15 := by
  obtain ⟨t1, t2, t3, t4⟩ := tab8
  have hc := cos8
  have hs := sin8
  unfold T0
  rw [cos_sub, sin_sub, cos_pi_div_four, sin_pi_div_four, show (8:ℝ) / 8 = 1 by norm_num, one_mul]
  have e : ((sin 8 * (√2 / 2) - cos 8 * (√2 / 2)) * rt A0 B0 8 + (cos 8 * (√2 / 2) + sin 8 * (√2 / 2)) * rt C0 D0 8) =
     ((cos 8 * (√2 / 2) + sin 8 * (√2 / 2)) * rt C0 D0 8 - (sin 8 * (√2 / 2) - cos 8 * (√2 / 2)) * (-rt A0 B0 8)) := by ring
  rw [e]
  refine init _ _ _ _ _ _ ?_
  have c1 : |(cos 8 + sin 8) - 0.843858212814768251939| ≤ 2e-19 := by
    rw [abs_le] at *; constructor <;> linarith [hc.1, hc.2, hs.1, hs.2]
  have c2 : |(sin 8 - cos 8) - 1.134858280431995303677| ≤ 2e-19 := by
    rw [abs_le] at *; constructor <;> linarith [hc.1, hc.2, hs.1, hs.2]
  have m1 := mul_close c1 (t2.trans (by norm_num)) (by norm_num) (by norm_num)
  have m2 := mul_close c2 (t1.trans (by norm_num)) (by norm_num) (by norm_num)
  have m3 := mul_close2 (sqrt8pi.trans (by norm_num)) (Y0_8.trans (by norm_num)) (by norm_num) (by norm_num)
  rw [mul_neg]
  rw [abs_le] at *
  constructor <;> linarith [m1.1, m1.2, m2.1, m2.2, m3.1, m3.2]

theorem initY1 : |κ * T1 8 - √8 * besselYR 1 8| ≤ 2e-15 := by
  obtain ⟨t1, t2, t3, t4⟩ := tab8
  have hc := cos8
  have hs := sin8
  unfold T1
  rw [cos_sub, sin_sub, cos_pi_div_four, sin_pi_div_four, show (8:ℝ) / 8 = 1 by norm_num, one_mul]
  have e : (-(cos 8 * (√2 / 2) + sin 8 * (√2 / 2)) * rt A1 B1 8 + (sin 8 * (√2 / 2) - cos 8 * (√2 / 2)) * rt C1 D1 8) =
     ((cos 8 * (√2 / 2) + sin 8 * (√2 / 2)) * (-rt A1 B1 8) - (sin 8 * (√2 / 2) - cos 8 * (√2 / 2)) * (-rt C1 D1 8)) := by ring
  rw [e]
  refine init _ _ _ _ _ _ ?_
  have c1 : |(cos 8 + sin 8) - 0.843858212814768251939| ≤ 2e-19 := by
    rw [abs_le] at *; constructor <;> linarith [hc.1, hc.2, hs.1, hs.2]
  have c2 : |(sin 8 - cos 8) - 1.134858280431995303677| ≤ 2e-19 := by
    rw [abs_le] at *; constructor <;> linarith [hc.1, hc.2, hs.1, hs.2]
  have m1 := mul_close c1 (t3.trans (by norm_num)) (by norm_num) (by norm_num)
  have m2 := mul_close c2 (t4.trans (by norm_num)) (by norm_num) (by norm_num)
  have m3 := mul_close2 (sqrt8pi.trans (by norm_num)) (Y1_8.trans (by norm_num)) (by norm_num) (by norm_num)
  rw [mul_neg, mul_neg]
  rw [abs_le] at *
  constructor <;> linarith [m1.1, m1.2, m2.1, m2.2, m3.1, m3.2]

/-- the corrected approximations are within `1.3e-12/√x` -/
theorem rightY_err {x : ℝ} (hx : 8 ≤ x) :
    |κ * T0 x - √x * besselYR 0 x| ≤ 1.3e-12 ∧ |κ * T1 x - √x * besselYR 1 x| ≤ 1.3e-12 := by
  have h := energy (u0 := fun x => κ * T0 x - √x * besselYR 0 x) (u1 := fun x => κ * T1 x - √x * besselYR 1 x)
    (ρ0 := fun x => κ * RY0 x) (ρ1 := fun x => κ * RY1 x) (r := 4.8e-12) (η := 2e-15) (by norm_num)
    (by
      intro x hx
      have hx0 : 0 < x := by linarith
      have d := ((T0_deriv hx0).const_mul κ).sub (sqrtJ_deriv hx0 (Y0_deriv hx0))
      refine d.congr_deriv ?_
      field_simp; ring)
    (by
      intro x hx
      have hx0 : 0 < x := by linarith
      have d := ((T1_deriv hx0).const_mul κ).sub (sqrtJ_deriv hx0 (Y1_deriv hx0))
      refine d.congr_deriv ?_
      field_simp; ring)
    (by
      intro x hx
      have := (RY_bound hx).1
      rw [abs_mul, abs_of_pos κ_pos]
      calc κ * |RY0 x| ≤ 0.8 * (6e-12 / x ^ 2) := by gcongr; exact κ_le
        _ = _ := by ring)
    (by
      intro x hx
      have := (RY_bound hx).2
      rw [abs_mul, abs_of_pos κ_pos]
      calc κ * |RY1 x| ≤ 0.8 * (6e-12 / x ^ 2) := by gcongr; exact κ_le
        _ = _ := by ring)
    initY0 initY1 hx
  constructor
  · apply abs_le_of_sq_le_sq _ (by norm_num)
    nlinarith [sq_nonneg (κ * T1 x - √x * besselYR 1 x)]
  · apply abs_le_of_sq_le_sq _ (by norm_num)
    nlinarith [sq_nonneg (κ * T0 x - √x * besselYR 0 x)]

/-- the asymptotic form, with the original tables -/
theorem asyY0 {a : ℝ} (ha : 8 ≤ a) :
    |√(2 / π / a) * (sin (a - π / 4) * polySum ((8 / a) ^ 2) J0PN / polySum ((8 / a) ^ 2) J0PD +
      8 / a * cos (a - π / 4) * polySum ((8 / a) ^ 2) J0QN / polySum ((8 / a) ^ 2) J0QD) - besselYR 0 a| ≤ 1.301e-12 / √a := by
  have ha0 : 0 < a := by linarith
  have hs : 0 < √a := Real.sqrt_pos.mpr ha0
  have hz0 : 0 < 8 / a := by positivity
  have hz1 : 8 / a ≤ 1 := by rw [div_le_one ha0]; exact ha
  obtain ⟨h, -⟩ := rightY_err ha
  rw [Real.sqrt_div (by positivity), ← κ, mul_div_assoc, mul_div_assoc, hat_P0 (by positivity), hat_Q0 (by positivity)]
  have ey : (8 / a) ^ 2 = 64 / a ^ 2 := by rw [div_pow]; norm_num
  rw [ey]
  have e : κ / √a * (sin (a - π / 4) * (ev A0 (64 / a ^ 2) / ev B0 (64 / a ^ 2) - 1e-16) +
      8 / a * cos (a - π / 4) * (ev C0 (64 / a ^ 2) / ev D0 (64 / a ^ 2) + 8e-17)) - besselYR 0 a =
      ((κ * T0 a - √a * besselYR 0 a) - κ * (cos (a - π / 4) * (8 / a * -8e-17) + sin (a - π / 4) * 1e-16)) / √a := by
    unfold T0 rt
    field_simp
    ring
  rw [e, abs_div, abs_of_pos hs]
  refine div_le_div_of_nonneg_right ?_ hs.le
  have hb := cs_bound (cos (a - π / 4)) (sin (a - π / 4)) (8 / a * -8e-17) 1e-16 1e-16 (cos_sq_add_sin_sq _)
    (by rw [mul_neg, abs_neg, abs_of_pos (by positivity)]; linarith) (by rw [abs_of_pos] <;> norm_num)
  have hk : |κ * (cos (a - π / 4) * (8 / a * -8e-17) + sin (a - π / 4) * 1e-16)| ≤ 0.8 * (1.5 * 1e-16) := by
    rw [abs_mul, abs_of_pos κ_pos]
    have := κ_le
    gcongr
  have := abs_sub (κ * T0 a - √a * besselYR 0 a) (κ * (cos (a - π / 4) * (8 / a * -8e-17) + sin (a - π / 4) * 1e-16))
  linarith

theorem asyY1 {a : ℝ} (ha : 8 ≤ a) :
    |√(2 / π / a) * (sin (a - 3 * (π / 4)) * polySum ((8 / a) ^ 2) J1PN / polySum ((8 / a) ^ 2) J1PD +
      8 / a * cos (a - 3 * (π / 4)) * polySum ((8 / a) ^ 2) J1QN / polySum ((8 / a) ^ 2) J1QD) - besselYR 1 a| ≤ 1.301e-12 / √a := by
  have ha0 : 0 < a := by linarith
  have hs : 0 < √a := Real.sqrt_pos.mpr ha0
  have hz0 : 0 < 8 / a := by positivity
  have hz1 : 8 / a ≤ 1 := by rw [div_le_one ha0]; exact ha
  obtain ⟨-, h⟩ := rightY_err ha
  have hcos : cos (a - 3 * (π / 4)) = sin (a - π / 4) := by
    rw [show a - 3 * (π / 4) = (a - π / 4) - π / 2 by ring, cos_sub_pi_div_two]
  have hsin : sin (a - 3 * (π / 4)) = -cos (a - π / 4) := by
    rw [show a - 3 * (π / 4) = (a - π / 4) - π / 2 by ring, sin_sub_pi_div_two]
  rw [hcos, hsin]
  rw [Real.sqrt_div (by positivity), ← κ, mul_div_assoc, mul_div_assoc, hat_P1 (by positivity), hat_Q1 (by positivity)]
  have ey : (8 / a) ^ 2 = 64 / a ^ 2 := by rw [div_pow]; norm_num
  rw [ey]
  have e : κ / √a * (-cos (a - π / 4) * (ev A1 (64 / a ^ 2) / ev B1 (64 / a ^ 2)) +
      8 / a * sin (a - π / 4) * (ev C1 (64 / a ^ 2) / ev D1 (64 / a ^ 2) - 9e-17)) - besselYR 1 a =
      ((κ * T1 a - √a * besselYR 1 a) - κ * (cos (a - π / 4) * 0 + sin (a - π / 4) * (8 / a * 9e-17))) / √a := by
    unfold T1 rt
    field_simp
    ring
  rw [e, abs_div, abs_of_pos hs]
  refine div_le_div_of_nonneg_right ?_ hs.le
  have hb := cs_bound (cos (a - π / 4)) (sin (a - π / 4)) 0 (8 / a * 9e-17) 1e-16 (cos_sq_add_sin_sq _)
    (by norm_num) (by rw [abs_of_pos (by positivity)]; linarith)
  have hk : |κ * (cos (a - π / 4) * 0 + sin (a - π / 4) * (8 / a * 9e-17))| ≤ 0.8 * (1.5 * 1e-16) := by
    rw [abs_mul, abs_of_pos κ_pos]
    have := κ_le
    gcongr
  have := abs_sub (κ * T1 a - √a * besselYR 1 a) (κ * (cos (a - π / 4) * 0 + sin (a - π / 4) * (8 / a * 9e-17)))
  linarith

theorem y0_right {x : ℝ} (hx : 8 ≤ x) : |y0 x - besselYR 0 x| ≤ 1.301e-12 / √x := by
  have h : (x <ᶠ (8.0:ℝ)) = false := by
    show decide (x < (8.0:ℝ)) = false
    rw [decide_eq_false_iff_not]; norm_num; exact hx
  refine le_trans (le_of_eq ?_) (asyY0 hx)
  congr 2
  unfold y0
  simp only [h, asp_exact]
  rw [one0, one_mul]
  rfl

theorem y1_right {x : ℝ} (hx : 8 ≤ x) : |y1 x - besselYR 1 x| ≤ 1.301e-12 / √x := by
  have h : (x <ᶠ (8.0:ℝ)) = false := by
    show decide (x < (8.0:ℝ)) = false
    rw [decide_eq_false_iff_not]; norm_num; exact hx
  refine le_trans (le_of_eq ?_) (asyY1 hx)
  congr 2
  unfold y1
  simp only [h, asp_exact]
  rw [show (3.0:ℝ) = 3 by norm_num]
  rfl

end Bes
end Verif
