import Verif.Proofs.BesselSer
import Verif.Proofs.BesselRight3
import Verif.Tables.BesselZ

/-! The residuals of the approximations of `k0` and `k1` for `x ≥ 1`. -/

namespace Verif
namespace Bes
open ZPoly Real

/-- check of `|N(y)| ≤ (k/e) y W(y)` for `a ≤ sy ≤ a + 2rn` -/
def resOn (t s d r n : ℕ) (a k e : ℤ) (N W : List ℤ) : Bool :=
  fL N fun N => match N with
  | [] => true
  | a0 :: N => fI a0 fun a0 => decide (a0 = 0) && (fL (smul k W) fun W => fL (smul e N) fun Q =>
    decide ((add W Q).length ≤ d + 1) && decide ((sub W Q).length ≤ d + 1) &&
    (fL (shrL t (sc s d (add W Q))) fun P => posOn P r n a) && (fL (shrL t (sc s d (sub W Q))) fun P => posOn P r n a))

theorem resOn_sound {t s d r n : ℕ} {a k e : ℤ} (hs : 0 < s) (hn : n ≠ 0) (hk : 0 ≤ k) (he : 0 < e) {N W : List ℤ} (h : resOn t s d r n a k e N W = true) {y : ℝ} (h0 : 0 ≤ y)
    (h1 : a ≤ s * y) (h2 : s * y ≤ a + 2 * r * n) (hW : 0 ≤ ev W y) : |ev N y| ≤ k / e * y * ev W y := by
  have he' : (0:ℝ) < e := by exact_mod_cast he
  have hk' : (0:ℝ) ≤ k := by exact_mod_cast hk
  unfold resOn at h
  rw [fL_eq] at h
  cases N with
  | nil => simp [ev]; positivity
  | cons a0 N =>
    simp only [fI_eq, fL_eq, Bool.and_eq_true, decide_eq_true_eq] at h
    obtain ⟨ha, ⟨⟨h3, h4⟩, h5⟩, h6⟩ := h
    have hs' : (0:ℝ) < s := by exact_mod_cast hs
    have key : ∀ p : List ℤ, p.length ≤ d + 1 → posOn (shrL t (sc s d p)) r n a = true → 0 ≤ ev p y := by
      intro p hp hpos
      have q := posOn_sound' _ r (s * y) n a hn hpos h1 h2
      have q2 := shrL_le t (s * y) (by positivity) (sc s d p)
      rw [ev_sc s hs.ne' (s * y) p d hp] at q2
      have e1 : s * y / (s:ℝ) = y := by field_simp
      rw [e1] at q2
      have q3 : 0 ≤ (s:ℝ) ^ d * ev p y := le_trans (mul_nonneg q (by positivity)) q2
      exact nonneg_of_mul_nonneg_right q3 (by positivity)
    have k1 := key _ h3 h5
    have k2 := key _ h4 h6
    rw [ev_add, ev_smul, ev_smul] at k1
    rw [ev_sub, ev_smul, ev_smul] at k2
    have k3 : |ev N y| ≤ k / e * ev W y := by
      rw [abs_le]
      have e2 : (k:ℝ) / (e:ℝ) * ev W y = k * ev W y / e := by ring
      rw [e2]
      constructor
      · rw [← neg_div, div_le_iff₀ he']; linarith
      · rw [le_div_iff₀ he']; linarith
    rw [ha]
    simp only [ev, Int.cast_zero, zero_add]
    rw [abs_mul, abs_of_nonneg h0]
    calc y * |ev N y| ≤ y * (k / e * ev W y) := by gcongr
      _ = _ := by ring

/-- the rational functions, normalised to 1 at 0 -/
def kA : List ℤ := smul (10 ^ 13) K0PPz
def kB : List ℤ := smul 1253314137315499 K0QQz
def kC : List ℤ := smul (5 * 10 ^ 15) K1PPz
def kD : List ℤ := smul 626657068657751 K1QQz

def kW : List ℤ := mul (mul kB kB) (mul kD kD)
def kU : List ℤ := mul (mul kC kD) (mul kB kB)
def kV : List ℤ := mul (mul kA kB) (mul kD kD)
def kX : List ℤ := mul (dd kA kB) (mul kD kD)
def kY : List ℤ := mul (dd kC kD) (mul kB kB)

/-- numerators of the residuals -/
def Nks : List ℤ := add (smul (-2) (sh (add kX kY))) (sub kU kV)
def Nkd : List ℤ := add (add (smul (-2) (sh (sh (sub kY kX)))) (smul (-4) (sub kU kV))) (sh (add kU kV))

set_option maxRecDepth 100000

theorem cert_s1 : resOn 390 1024 34 1 8 0 13 (10 ^ 13) Nks kW = true := by decide +kernel
theorem cert_d1 : resOn 390 256 34 1 2 0 92 (10 ^ 13) Nkd kW = true := by decide +kernel
theorem cert_s2 : resOn 390 128 34 1 7 2 50 (10 ^ 14) Nks kW = true := by decide +kernel
theorem cert_d2 : resOn 390 128 34 1 7 2 120 (10 ^ 14) Nkd kW = true := by decide +kernel
theorem cert_s3 : resOn 390 64 34 1 28 8 50 (10 ^ 14) Nks kW = true := by decide +kernel
theorem cert_d3 : resOn 390 64 34 1 28 8 120 (10 ^ 14) Nkd kW = true := by decide +kernel

end Bes
end Verif
