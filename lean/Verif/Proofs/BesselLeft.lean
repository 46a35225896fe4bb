import Verif.Proofs.BesselSer
import Verif.Tables.BesselZ

/-! The rational approximations near the origin against the power series (exact arithmetic). -/

namespace Verif
namespace Bes
open ZPoly

/-- `|Q| ≤ W` on `[0, 2rn]`, checked on `n` pieces -/
def chkAll (t : ℕ) (W Q : List ℤ) (r n : ℕ) : Bool :=
  fL (shrL t (add W Q)) fun P => fL (shrL t (sub W Q)) fun M => posOn P r n 0 && posOn M r n 0

theorem chkAll_sound (t : ℕ) (W Q : List ℤ) (r : ℕ) (y : ℝ) (n : ℕ) (h : chkAll t W Q r n = true) (h1 : 0 ≤ y) (h2 : y < 2 * r * n) :
    |ev Q y| ≤ ev W y := by
  simp only [chkAll, fL_eq, Bool.and_eq_true] at h
  have h3 := posOn_sound _ r y n 0 h.1 (by simpa using h1) (by simpa using h2)
  have h4 := posOn_sound _ r y n 0 h.2 (by simpa using h1) (by simpa using h2)
  have h5 := shrL_le t y h1 (add W Q)
  have h6 := shrL_le t y h1 (sub W Q)
  have hp : (0:ℝ) < 2 ^ t := by positivity
  rw [ev_add] at h5
  rw [ev_sub] at h6
  have h7 := mul_nonneg h3 hp.le
  have h8 := mul_nonneg h4 hp.le
  rw [abs_le]; constructor <;> linarith

/-- the difference `f·N/D - hs`, cleared of denominators (`N = ev Nz/10^A`, `D = ev Dz/10^B`) -/
def diffZ (f : ℤ) (Nz Dz : List ℤ) (A B n : ℕ) (s : ℤ) (m : ℕ) : List ℤ :=
  sub (smul (f * 10 ^ B * hsZ.hscl n m 0) Nz) (smul (10 ^ A) (mul Dz (hsZ n s m 0)))

theorem ev_diffZ (f : ℤ) (Nz Dz : List ℤ) (A B n : ℕ) (s : ℤ) (m : ℕ) (y : ℝ) :
    ev (diffZ f Nz Dz A B n s m) y =
      10 ^ (A + B) * hsZ.hscl n m 0 * (f * (ev Nz y / 10 ^ A) - ev Dz y / 10 ^ B * hs n (s * y / 4) m 0) := by
  rw [diffZ, ev_sub, ev_smul, ev_smul, ev_mul, ev_hsZ]
  push_cast
  field_simp
  ring

/-- the check for an absolute error `1/e` -/
def absOK (t : ℕ) (e f : ℤ) (Nz Dz : List ℤ) (A B n : ℕ) (s : ℤ) (m r k : ℕ) : Bool :=
  fL Nz fun Nz => fL Dz fun Dz => fI (hsZ.hscl n m 0) fun C => fL (hsZ n s m 0) fun H => fL (mul Dz H) fun DH =>
  fL (smul e (sub (smul (f * 10 ^ B * C) Nz) (smul (10 ^ A) DH))) fun Q => chkAll t (smul (10 ^ A * C) Dz) Q r k

/-- the check for a relative error `1/e` -/
def relOK (t : ℕ) (e f : ℤ) (Nz Dz : List ℤ) (A B n : ℕ) (s : ℤ) (m r k : ℕ) : Bool :=
  fL Nz fun Nz => fL Dz fun Dz => fI (hsZ.hscl n m 0) fun C => fL (hsZ n s m 0) fun H => fL (mul Dz H) fun DH =>
  fL (smul e (sub (smul (f * 10 ^ B * C) Nz) (smul (10 ^ A) DH))) fun Q => chkAll t (smul (10 ^ A) DH) Q r k

/-- absolute error `1/e` -/
theorem left_abs (t : ℕ) (e : ℤ) (he : 0 < e) (f : ℤ) (Nz Dz : List ℤ) (A B n : ℕ) (s : ℤ) (m r k : ℕ)
    (h : absOK t e f Nz Dz A B n s m r k = true) (y : ℝ) (hy0 : 0 ≤ y)
    (hy : y < 2 * r * k) (hD : 0 < ev Dz y) :
    |f * ((ev Nz y / 10 ^ A) / (ev Dz y / 10 ^ B)) - hs n (s * y / 4) m 0| ≤ 1 / e := by
  simp only [absOK, fL_eq, fI_eq] at h
  have h1 := chkAll_sound t _ (smul e (diffZ f Nz Dz A B n s m)) r y k h hy0 hy
  rw [ev_smul, ev_smul, ev_diffZ] at h1
  push_cast at h1
  have hc : (0:ℝ) < hsZ.hscl n m 0 := by exact_mod_cast hscl_pos n m 0
  have he' : (0:ℝ) < e := by exact_mod_cast he
  set D := ev Dz y / 10 ^ B with hDd
  set N := ev Nz y / 10 ^ A with hNd
  have hD' : 0 < D := by positivity
  have eD : ev Dz y = D * 10 ^ B := by rw [hDd]; field_simp
  rw [eD, abs_mul, abs_of_pos he', abs_mul, abs_of_pos (by positivity)] at h1
  have e1 : f * (N / D) - hs n (s * y / 4) m 0 = (f * N - D * hs n (s * y / 4) m 0) / D := by field_simp
  rw [e1, abs_div, abs_of_pos hD', div_le_div_iff₀ hD' he', one_mul]
  set X := |f * N - D * hs n (s * y / 4) m 0|
  set C : ℝ := (hsZ.hscl n m 0 : ℝ)
  have h2 : (10 ^ (A + B) * C) * (X * e) ≤ (10 ^ (A + B) * C) * D := by
    rw [pow_add] at h1 ⊢; nlinarith
  exact le_of_mul_le_mul_left h2 (by positivity)

/-- relative error `1/e` -/
theorem left_rel (t : ℕ) (e : ℤ) (he : 0 < e) (f : ℤ) (Nz Dz : List ℤ) (A B n : ℕ) (s : ℤ) (m r k : ℕ)
    (h : relOK t e f Nz Dz A B n s m r k = true) (y : ℝ) (hy0 : 0 ≤ y)
    (hy : y < 2 * r * k) (hD : 0 < ev Dz y) :
    |f * ((ev Nz y / 10 ^ A) / (ev Dz y / 10 ^ B)) - hs n (s * y / 4) m 0| ≤ 1 / e * hs n (s * y / 4) m 0 := by
  simp only [relOK, fL_eq, fI_eq] at h
  have h1 := chkAll_sound t _ (smul e (diffZ f Nz Dz A B n s m)) r y k h hy0 hy
  rw [ev_smul, ev_smul, ev_diffZ, ev_mul, ev_hsZ] at h1
  push_cast at h1
  have hc : (0:ℝ) < hsZ.hscl n m 0 := by exact_mod_cast hscl_pos n m 0
  have he' : (0:ℝ) < e := by exact_mod_cast he
  set D := ev Dz y / 10 ^ B with hDd
  set N := ev Nz y / 10 ^ A with hNd
  have hD' : 0 < D := by positivity
  have eD : ev Dz y = D * 10 ^ B := by rw [hDd]; field_simp
  rw [eD, abs_mul, abs_of_pos he', abs_mul, abs_of_pos (by positivity)] at h1
  set S := hs n (s * y / 4) m 0
  have e1 : f * (N / D) - S = (f * N - D * S) / D := by rw [sub_div, mul_div_assoc, mul_div_cancel_left₀ _ hD'.ne']
  rw [e1, abs_div, abs_of_pos hD', show 1 / (e:ℝ) * S = S / e by ring, div_le_div_iff₀ hD' he']
  set X := |f * N - D * S|
  set C : ℝ := (hsZ.hscl n m 0 : ℝ)
  have h2 : (10 ^ (A + B) * C) * (X * e) ≤ (10 ^ (A + B) * C) * (S * D) := by
    rw [pow_add] at h1 ⊢; nlinarith
  exact le_of_mul_le_mul_left h2 (by positivity)

/-! ## the four certificates -/

/-- numerator of `j0` near the origin, times `10^61` -/
def j0N : List ℤ := mul (comp J0Rz [64, -1]) (mul [-5783185962946785, 10 ^ 15] [-3047126234366209, 10 ^ 14])
/-- numerator of `j1` near the origin, divided by `x`, times `10^60` -/
def j1N : List ℤ := mul (comp J1Rz [64, -1]) (mul [-1468197064212389, 10 ^ 14] [-492184563216946, 10 ^ 13])

set_option maxRecDepth 100000

theorem j0_cert : absOK 295 (10 ^ 14) 1 j0N J0Sz 61 31 0 (-1) 29 4 8 = true := by decide +kernel

theorem j1_cert : absOK 295 (4 * 10 ^ 14) 2 j1N J1Sz 60 31 1 (-1) 29 4 8 = true := by decide +kernel

/-- denominators of `i0`, `i1` near the origin -/
def i0D : List ℤ := comp I0Qz [225, -1]
def i1D : List ℤ := comp I1Qz [225, -1]

theorem i0_cert : relOK 220 (4 * 10 ^ 13) 1 I0Pz i0D 45 28 0 1 39 3 38 = true := by decide +kernel
theorem i1_cert : relOK 220 (10 ^ 14) 2 I1Pz i1D 46 28 1 1 39 5 23 = true := by decide +kernel

end Bes
end Verif
