import Verif.Proofs.BesselRight

/-! The residuals of the asymptotic forms of `j0` and `j1`. -/

namespace Verif
namespace Bes
open ZPoly Real

/-! ## the tables, with their leading coefficients corrected by less than `1e-16`: `P₀ = A0/B0`, `Q₀ = C0/D0`, `P₁ = A1/B1`, `Q₁ = C1/D1` -/

def A0 : List ℤ := add (smul (10 ^ 17) J0PNz) J0PDz
def B0 : List ℤ := smul (10 ^ 16) J0PDz
def C0 : List ℤ := add (smul (10 ^ 15) J0QNz) (smul (-8) J0QDz)
def D0 : List ℤ := smul (10 ^ 17) J0QDz
def A1 : List ℤ := J1PNz
def B1 : List ℤ := J1PDz
def C1 : List ℤ := add (smul (10 ^ 16) J1QNz) (smul 9 J1QDz)
def D1 : List ℤ := smul (10 ^ 17) J1QDz

/-- numerator of the derivative of `A/B` -/
def dd (A B : List ℤ) : List ℤ := sub (mul (der A) B) (mul A (der B))

def mul4 (a b c d : List ℤ) : List ℤ := mul (mul a b) (mul c d)
/-- `y·p` -/
def sh (p : List ℤ) : List ℤ := 0 :: p

def Na0 : List ℤ := add (add (smul (-4) (sh (mul (dd A0 B0) (mul D0 D1)))) (smul (-1) (mul4 A0 B0 D0 D1))) (add (smul (-16) (mul4 C0 B0 B0 D1)) (smul 16 (mul4 C1 B0 B0 D0)))
def Da0 : List ℤ := mul4 B0 B0 D0 D1
def Nb0 : List ℤ := add (add (smul (-16) (mul4 A0 B1 D0 D0)) (smul 16 (mul4 A1 B0 D0 D0))) (add (smul 3 (sh (mul4 B0 B1 C0 D0))) (smul 4 (sh (sh (mul (mul B0 B1) (dd C0 D0))))))
def Db0 : List ℤ := mul4 B0 B1 D0 D0
def Na1 : List ℤ := add (add (smul 16 (mul4 A1 B0 D1 D1)) (smul (-16) (mul4 A0 B1 D1 D1))) (add (smul (-1) (sh (mul4 B0 B1 C1 D1))) (smul (-4) (sh (sh (mul (mul B0 B1) (dd C1 D1))))))
def Da1 : List ℤ := mul4 B0 B1 D1 D1
def Nb1 : List ℤ := add (add (smul (-4) (sh (mul (dd A1 B1) (mul D0 D1)))) (mul4 A1 B1 D0 D1)) (add (smul (-16) (mul4 C1 B1 B1 D0)) (smul 16 (mul4 C0 B1 B1 D1)))
def Db1 : List ℤ := mul4 B1 B1 D0 D1

/-- check of `|N(y)| ≤ (16/e) y D(y)` on `[0,1]` -/
def resOK (t : ℕ) (e : ℤ) (N D : List ℤ) : Bool :=
  fL N fun N => match N with
  | [] => true
  | a :: N => fI a fun a => decide (a = 0) && (fL (smul 16 D) fun W => fL (smul e N) fun Q =>
    decide ((add W Q).length ≤ 19) && decide ((sub W Q).length ≤ 19) &&
    (fL (shrL t (sc 16 18 (add W Q))) fun P => posOn P 1 8 0) && (fL (shrL t (sc 16 18 (sub W Q))) fun P => posOn P 1 8 0))

theorem resOK_sound (t : ℕ) (e : ℤ) (he : 0 < e) (N D : List ℤ) (h : resOK t e N D = true) {y : ℝ} (h0 : 0 ≤ y) (h1 : y ≤ 1) (hD : 0 ≤ ev D y) :
    |ev N y| ≤ 16 / e * y * ev D y := by
  have he' : (0:ℝ) < e := by exact_mod_cast he
  unfold resOK at h
  rw [fL_eq] at h
  cases N with
  | nil => simp [ev]; positivity
  | cons a N =>
    simp only [fI_eq, fL_eq, Bool.and_eq_true, decide_eq_true_eq] at h
    obtain ⟨ha, ⟨⟨h2, h3⟩, h4⟩, h5⟩ := h
    have key : ∀ p : List ℤ, p.length ≤ 19 → posOn (shrL t (sc 16 18 p)) 1 8 0 = true → 0 ≤ ev p y := by
      intro p hp hpos
      have q := posOn_sound' _ 1 (16 * y) 8 0 (by norm_num) hpos (by push_cast; linarith) (by push_cast; linarith)
      have q2 := shrL_le t (16 * y) (by linarith) (sc 16 18 p)
      rw [ev_sc 16 (by norm_num) (16 * y) p 18 hp] at q2
      have e1 : 16 * y / ((16:ℕ):ℝ) = y := by push_cast; ring
      rw [e1] at q2
      have q3 : 0 ≤ ((16:ℕ):ℝ) ^ 18 * ev p y := le_trans (mul_nonneg q (by positivity)) q2
      exact nonneg_of_mul_nonneg_right q3 (by positivity)
    have k1 := key _ h2 h4
    have k2 := key _ h3 h5
    rw [ev_add, ev_smul, ev_smul] at k1
    rw [ev_sub, ev_smul, ev_smul] at k2
    push_cast at k1 k2
    have k3 : |ev N y| ≤ 16 / e * ev D y := by
      rw [abs_le]
      have e2 : 16 / (e:ℝ) * ev D y = 16 * ev D y / e := by ring
      rw [e2]
      constructor
      · rw [← neg_div, div_le_iff₀ he']; linarith
      · rw [le_div_iff₀ he']; linarith
    rw [ha]
    simp only [ev, Int.cast_zero, zero_add]
    rw [abs_mul, abs_of_nonneg h0]
    calc y * |ev N y| ≤ y * (16 / e * ev D y) := by gcongr
      _ = _ := by ring

set_option maxRecDepth 100000

theorem cert_a0 : resOK 330 (16 * 10 ^ 12) Na0 Da0 = true := by decide +kernel
theorem cert_b0 : resOK 330 (16 * 10 ^ 12) Nb0 Db0 = true := by decide +kernel
theorem cert_a1 : resOK 330 (16 * 10 ^ 12) Na1 Da1 = true := by decide +kernel
theorem cert_b1 : resOK 330 (16 * 10 ^ 12) Nb1 Db1 = true := by decide +kernel

end Bes
end Verif
