import Verif.Proofs.BesselRight2
import Verif.Proofs.BesselLeft2

/-! `j0` and `j1` for `x ≥ 8` in exact arithmetic. -/

namespace Verif
namespace Bes
open ZPoly Real

/-- the rational function `A/B` at `y = 64/x²` -/
noncomputable def rt (A B : List ℤ) (x : ℝ) : ℝ := ev A (64 / x ^ 2) / ev B (64 / x ^ 2)

theorem rt_deriv (A B : List ℤ) {x : ℝ} (hx : 0 < x) (hB : ev B (64 / x ^ 2) ≠ 0) :
    HasDerivAt (rt A B) (ev (dd A B) (64 / x ^ 2) / ev B (64 / x ^ 2) ^ 2 * (-(8 / x * (64 / x ^ 2) / 4))) x := by
  have hy : HasDerivAt (fun x : ℝ => 64 / x ^ 2) (-(8 / x * (64 / x ^ 2) / 4)) x := by
    have h := ((hasDerivAt_pow 2 x).inv (by positivity)).const_mul 64
    refine (h.congr_deriv ?_).congr_of_eventuallyEq ?_
    · push_cast; field_simp; ring
    · filter_upwards with z; rw [div_eq_mul_inv]; rfl
  have h1 := (hasDerivAt_ev A (64 / x ^ 2)).comp x hy
  have h2 := (hasDerivAt_ev B (64 / x ^ 2)).comp x hy
  have h3 := h1.div h2 hB
  refine h3.congr_deriv ?_
  simp only [Function.comp_apply]
  rw [dd, ev_sub, ev_mul, ev_mul]
  field_simp
  ring

/-- `√(πx/2)` times the approximation of `J₀` -/
noncomputable def S0 (x : ℝ) : ℝ := cos (x - π / 4) * rt A0 B0 x - 8 / x * sin (x - π / 4) * rt C0 D0 x
/-- `√(πx/2)` times the approximation of `J₁` -/
noncomputable def S1 (x : ℝ) : ℝ := sin (x - π / 4) * rt A1 B1 x + 8 / x * cos (x - π / 4) * rt C1 D1 x

/-- residuals -/
noncomputable def R0 (x : ℝ) : ℝ :=
  cos (x - π / 4) * (8 / x * (ev Na0 (64 / x ^ 2) / (16 * ev Da0 (64 / x ^ 2)))) + sin (x - π / 4) * (ev Nb0 (64 / x ^ 2) / (16 * ev Db0 (64 / x ^ 2)))
noncomputable def R1 (x : ℝ) : ℝ :=
  cos (x - π / 4) * (ev Na1 (64 / x ^ 2) / (16 * ev Da1 (64 / x ^ 2))) + sin (x - π / 4) * (8 / x * (ev Nb1 (64 / x ^ 2) / (16 * ev Db1 (64 / x ^ 2))))

theorem ev_sh (p : List ℤ) (y : ℝ) : ev (sh p) y = y * ev p y := by simp [sh, ev]
theorem ev_mul4 (a b c d : List ℤ) (y : ℝ) : ev (mul4 a b c d) y = ev a y * ev b y * (ev c y * ev d y) := by simp only [mul4, ev_mul]

theorem B0_pos {y : ℝ} (hy : 0 ≤ y) : 0 < ev B0 y := ev_pos_of (by decide +kernel) (by decide +kernel) hy
theorem D0_pos {y : ℝ} (hy : 0 ≤ y) : 0 < ev D0 y := ev_pos_of (by decide +kernel) (by decide +kernel) hy
theorem B1_pos {y : ℝ} (hy : 0 ≤ y) : 0 < ev B1 y := ev_pos_of (by decide +kernel) (by decide +kernel) hy
theorem D1_pos {y : ℝ} (hy : 0 ≤ y) : 0 < ev D1 y := ev_pos_of (by decide +kernel) (by decide +kernel) hy

theorem cos_shift (x : ℝ) : HasDerivAt (fun x : ℝ => cos (x - π / 4)) (-sin (x - π / 4)) x := by
  have h := ((hasDerivAt_id x).sub_const (π / 4)).cos
  exact h.congr_deriv (by simp)
theorem sin_shift (x : ℝ) : HasDerivAt (fun x : ℝ => sin (x - π / 4)) (cos (x - π / 4)) x := by
  have h := ((hasDerivAt_id x).sub_const (π / 4)).sin
  exact h.congr_deriv (by simp)
theorem z_deriv {x : ℝ} (hx : 0 < x) : HasDerivAt (fun x : ℝ => 8 / x) (-(64 / x ^ 2 / 8)) x := by
  have h := (hasDerivAt_inv hx.ne').const_mul 8
  refine (h.congr_deriv ?_).congr_of_eventuallyEq ?_
  · field_simp; norm_num
  · filter_upwards with z; rw [div_eq_mul_inv]

theorem S0_deriv {x : ℝ} (hx : 0 < x) : HasDerivAt S0 (S0 x / (2 * x) - S1 x + R0 x) x := by
  have hy : (0:ℝ) ≤ 64 / x ^ 2 := by positivity
  have b0 := (B0_pos hy).ne'
  have d0 := (D0_pos hy).ne'
  have b1 := (B1_pos hy).ne'
  have d1 := (D1_pos hy).ne'
  have h := ((cos_shift x).mul (rt_deriv A0 B0 hx b0)).sub ((((z_deriv hx).mul (sin_shift x))).mul (rt_deriv C0 D0 hx d0))
  refine h.congr_deriv ?_
  simp only [S0, S1, R0, rt, Na0, Da0, Nb0, Db0, ev_add, ev_smul, ev_sh, ev_mul, ev_mul4, Pi.mul_apply]
  have hz : x = 8 / (8 / x) := by field_simp
  have hyz : 64 / x ^ 2 = (8 / x) ^ 2 := by rw [div_pow]; norm_num
  have hi : ∀ q : ℝ, q / (2 * x) = 8 / x * q / 16 := by intro q; field_simp; ring
  rw [hi]
  set y := 64 / x ^ 2 with hyd
  set z := 8 / x with hzd
  generalize ev A0 y = a0 at *
  generalize ev B0 y = e0 at *
  generalize ev C0 y = c0 at *
  generalize ev D0 y = f0 at *
  generalize ev A1 y = a1 at *
  generalize ev B1 y = e1 at *
  generalize ev C1 y = c1 at *
  generalize ev D1 y = f1 at *
  generalize ev (dd A0 B0) y = g0
  generalize ev (dd C0 D0) y = g1
  generalize cos (x - π / 4) = c
  generalize sin (x - π / 4) = s
  rw [hyz]
  clear_value z
  push_cast
  field_simp
  ring

theorem S1_deriv {x : ℝ} (hx : 0 < x) : HasDerivAt S1 (S0 x - S1 x / (2 * x) + R1 x) x := by
  have hy : (0:ℝ) ≤ 64 / x ^ 2 := by positivity
  have b0 := (B0_pos hy).ne'
  have d0 := (D0_pos hy).ne'
  have b1 := (B1_pos hy).ne'
  have d1 := (D1_pos hy).ne'
  have h := ((sin_shift x).mul (rt_deriv A1 B1 hx b1)).add ((((z_deriv hx).mul (cos_shift x))).mul (rt_deriv C1 D1 hx d1))
  refine h.congr_deriv ?_
  simp only [S0, S1, R1, rt, Na1, Da1, Nb1, Db1, ev_add, ev_smul, ev_sh, ev_mul, ev_mul4, Pi.mul_apply]
  have hyz : 64 / x ^ 2 = (8 / x) ^ 2 := by rw [div_pow]; norm_num
  have hi : ∀ q : ℝ, q / (2 * x) = 8 / x * q / 16 := by intro q; field_simp; ring
  rw [hi]
  set y := 64 / x ^ 2 with hyd
  set z := 8 / x with hzd
  generalize ev A0 y = a0 at *
  generalize ev B0 y = e0 at *
  generalize ev C0 y = c0 at *
  generalize ev D0 y = f0 at *
  generalize ev A1 y = a1 at *
  generalize ev B1 y = e1 at *
  generalize ev C1 y = c1 at *
  generalize ev D1 y = f1 at *
  generalize ev (dd A1 B1) y = g0
  generalize ev (dd C1 D1) y = g1
  generalize cos (x - π / 4) = c
  generalize sin (x - π / 4) = s
  rw [hyz]
  clear_value z
  push_cast
  field_simp
  ring

theorem cs_bound (c s α β ε : ℝ) (h : c ^ 2 + s ^ 2 = 1) (ha : |α| ≤ ε) (hb : |β| ≤ ε) : |c * α + s * β| ≤ 1.5 * ε := by
  have hε : 0 ≤ ε := le_trans (abs_nonneg _) ha
  have h1 : |c| + |s| ≤ 1.5 := by
    have := sq_abs c
    have := sq_abs s
    nlinarith [sq_nonneg (|c| - |s|), abs_nonneg c, abs_nonneg s]
  calc |c * α + s * β| ≤ |c * α| + |s * β| := abs_add_le _ _
    _ = |c| * |α| + |s| * |β| := by rw [abs_mul, abs_mul]
    _ ≤ |c| * ε + |s| * ε := by gcongr
    _ = (|c| + |s|) * ε := by ring
    _ ≤ 1.5 * ε := by gcongr

theorem quot_bound {N D : List ℤ} {y : ℝ} (h : |ev N y| ≤ 16 / (16 * 10 ^ 12 : ℤ) * y * ev D y) (hD : 0 < ev D y) :
    |ev N y / (16 * ev D y)| ≤ 6.25e-14 * y := by
  rw [abs_div, abs_of_pos (by positivity : 0 < 16 * ev D y), div_le_iff₀ (by positivity)]
  refine h.trans (le_of_eq ?_)
  push_cast; ring

theorem R_bound {x : ℝ} (hx : 8 ≤ x) : |R0 x| ≤ 6e-12 / x ^ 2 ∧ |R1 x| ≤ 6e-12 / x ^ 2 := by
  have hx0 : 0 < x := by linarith
  have hy : (0:ℝ) ≤ 64 / x ^ 2 := by positivity
  have hy1 : 64 / x ^ 2 ≤ 1 := by rw [div_le_one (by positivity)]; nlinarith
  have hz : |8 / x| ≤ 1 := by rw [abs_of_pos (by positivity), div_le_one hx0]; exact hx
  have b0 := B0_pos hy
  have d0 := D0_pos hy
  have b1 := B1_pos hy
  have d1 := D1_pos hy
  have pa0 : 0 < ev Da0 (64 / x ^ 2) := by rw [Da0, ev_mul4]; positivity
  have pb0 : 0 < ev Db0 (64 / x ^ 2) := by rw [Db0, ev_mul4]; positivity
  have pa1 : 0 < ev Da1 (64 / x ^ 2) := by rw [Da1, ev_mul4]; positivity
  have pb1 : 0 < ev Db1 (64 / x ^ 2) := by rw [Db1, ev_mul4]; positivity
  have qa0 := quot_bound (resOK_sound 330 _ (by norm_num) _ _ cert_a0 hy hy1 pa0.le) pa0
  have qb0 := quot_bound (resOK_sound 330 _ (by norm_num) _ _ cert_b0 hy hy1 pb0.le) pb0
  have qa1 := quot_bound (resOK_sound 330 _ (by norm_num) _ _ cert_a1 hy hy1 pa1.le) pa1
  have qb1 := quot_bound (resOK_sound 330 _ (by norm_num) _ _ cert_b1 hy hy1 pb1.le) pb1
  have hc : cos (x - π / 4) ^ 2 + sin (x - π / 4) ^ 2 = 1 := cos_sq_add_sin_sq _
  have m : ∀ q : ℝ, |q| ≤ 6.25e-14 * (64 / x ^ 2) → |8 / x * q| ≤ 6.25e-14 * (64 / x ^ 2) := by
    intro q hq
    rw [abs_mul]
    calc |8 / x| * |q| ≤ 1 * |q| := by gcongr
      _ ≤ _ := by rw [one_mul]; exact hq
  have e : 1.5 * (6.25e-14 * (64 / x ^ 2)) = 6e-12 / x ^ 2 := by ring
  rw [← e]
  exact ⟨cs_bound _ _ _ _ _ hc (m _ qa0) qb0, cs_bound _ _ _ _ _ hc qa1 (m _ qb1)⟩

end Bes
end Verif
