import Verif.Proofs.FadAsy
import Mathlib.Algebra.Polynomial.Derivative
import Mathlib.Analysis.Calculus.Deriv.Polynomial

/-! The remainder of the asymptotic expansion of `w`, of any order: `|∫ H_n(s) e^(-s²+qs) ds| ≤ (√π/2) √(2^n n!)` for `Re q ≤ 0`. -/

namespace Verif
namespace Fad
open Complex MeasureTheory Set Polynomial

/-- Hermite polynomials -/
noncomputable def He : ℕ → ℝ[X]
  | 0 => 1
  | 1 => 2 * X
  | n+2 => 2 * X * He (n+1) - 2 * (n+1 : ℝ[X]) * He n

theorem He_deriv : ∀ n : ℕ, derivative (He (n+1)) = 2 * (n+1 : ℝ[X]) * He n
  | 0 => by simp [He]
  | 1 => by
    have d2 : derivative (2 : ℝ[X]) = 0 := derivative_ofNat 2
    simp [He, d2]; ring
  | n+2 => by
    have d2 : derivative (2 : ℝ[X]) = 0 := derivative_ofNat 2
    have dn : derivative (((n+1 : ℕ) : ℝ[X]) + 1) = 0 := by simp
    have h1 := He_deriv (n+1)
    have h2 := He_deriv n
    have e : He (n+3) = 2 * X * He (n+2) - 2 * (((n+1 : ℕ) : ℝ[X]) + 1) * He (n+1) := rfl
    have e2 : He (n+2) = 2 * X * He (n+1) - 2 * ((n : ℝ[X]) + 1) * He n := rfl
    rw [e, derivative_sub, derivative_mul, derivative_mul, derivative_mul, derivative_mul, derivative_X, d2, dn, h1, h2]
    push_cast
    linear_combination (-2 * ((n : ℝ[X]) + 2)) * e2

theorem He_next (n : ℕ) : He (n+1) = 2 * X * He n - derivative (He n) := by
  cases n with
  | zero => simp [He]
  | succ n => rw [He_deriv]; rfl

theorem pol_int (p : ℝ[X]) (q : ℂ) : IntegrableOn (fun s : ℝ => ((p.eval s : ℝ) : ℂ) * ker q s) (Ioi 0) := by
  induction p using Polynomial.induction_on' with
  | add a b ha hb =>
    refine (ha.add hb).congr (ae_of_all _ fun s => ?_)
    simp only [Pi.add_apply, eval_add]; push_cast; ring
  | monomial n c =>
    refine ((ker_int n q).const_mul (c : ℂ)).congr (ae_of_all _ fun s => ?_)
    simp only [eval_monomial]; push_cast; ring

theorem pol_intR (p : ℝ[X]) : IntegrableOn (fun s : ℝ => p.eval s * Real.exp (-1 * s^2)) (Ioi 0) := by
  induction p using Polynomial.induction_on' with
  | add a b ha hb =>
    refine (ha.add hb).congr (ae_of_all _ fun s => ?_)
    simp only [Pi.add_apply, eval_add]; ring
  | monomial n c =>
    refine ((gb_int n one_pos).const_mul c).congr (ae_of_all _ fun s => ?_)
    simp only [eval_monomial]; ring

/-- `∫ p e^(-s²+qs)` -/
noncomputable def It (p : ℝ[X]) (q : ℂ) : ℂ := ∫ s in Ioi (0:ℝ), ((p.eval s : ℝ) : ℂ) * ker q s

theorem It_parts (p : ℝ[X]) (q : ℂ) : q * It p q = It (2 * X * p - derivative p) q - ((p.eval 0 : ℝ) : ℂ) := by
  have hd : ∀ s : ℝ, HasDerivAt (fun s : ℝ => ((p.eval s : ℝ) : ℂ) * ker q s) (q * (((p.eval s : ℝ) : ℂ) * ker q s) - (((2 * X * p - derivative p).eval s : ℝ) : ℂ) * ker q s) s := by
    intro s
    have h1 := (p.hasDerivAt s).ofReal_comp
    have h2 : HasDerivAt (fun s : ℂ => Complex.exp (-s^2 + q * s)) (Complex.exp (-(s:ℂ)^2 + q * s) * (-(2 * (s:ℂ)) + q)) (s:ℂ) := by
      refine HasDerivAt.cexp (HasDerivAt.add ?_ ?_)
      · exact (hasDerivAt_pow 2 (s:ℂ)).neg.congr_deriv (by simp)
      · simpa using (hasDerivAt_id (s:ℂ)).const_mul q
    refine (h1.mul h2.comp_ofReal).congr_deriv ?_
    simp only [eval_sub, eval_mul, eval_X, eval_ofNat, ker]
    push_cast
    ring
  have i1 := (pol_int p q).const_mul q
  have i2 := pol_int (2 * X * p - derivative p) q
  have hi : IntegrableOn (fun s : ℝ => q * (((p.eval s : ℝ) : ℂ) * ker q s) - (((2 * X * p - derivative p).eval s : ℝ) : ℂ) * ker q s) (Ioi 0) := i1.sub i2
  have ht := tendsto_zero_of_hasDerivAt_of_integrableOn_Ioi (a := (0:ℝ)) (fun s _ => hd s) hi (pol_int p q)
  have h := integral_Ioi_of_hasDerivAt_of_tendsto' (a := (0:ℝ)) (fun s _ => hd s) hi ht
  rw [integral_sub i1 i2, integral_const_mul] at h
  have k0 : ker q 0 = 1 := by simp [ker]
  rw [k0] at h
  unfold It
  linear_combination h

theorem It_step (n : ℕ) (q : ℂ) : q * It (He n) q = It (He (n+1)) q - (((He n).eval 0 : ℝ) : ℂ) := by
  rw [It_parts, ← He_next]

/-- values at 0 -/
noncomputable def h0 (n : ℕ) : ℝ := (He n).eval 0
theorem h0_0 : h0 0 = 1 := by simp [h0, He]
theorem h0_1 : h0 1 = 0 := by simp [h0, He]
theorem h0_rec (n : ℕ) : h0 (n+2) = -2 * (n+1) * h0 n := by simp [h0, He]
theorem h0_odd (k : ℕ) : h0 (2*k+1) = 0 := by
  induction k with
  | zero => exact h0_1
  | succ k ih => rw [show 2*(k+1)+1 = 2*k+1+2 by ring, h0_rec, ih, mul_zero]

theorem It_two (k : ℕ) {p q : ℂ} (h : p * q = 1) : It (He (2*k)) q = p^2 * It (He (2*k+2)) q - (h0 (2*k) : ℂ) * p := by
  have s1 := It_step (2*k) q
  have s2 := It_step (2*k+1) q
  have o : (((He (2*k+1)).eval 0 : ℝ) : ℂ) = 0 := by have := h0_odd k; unfold h0 at this; rw [this]; simp
  rw [o] at s2
  unfold h0
  linear_combination p * s1 + p^2 * s2 - It (He (2*k)) q * h - p * It (He (2*k+1)) q * h

/-- norm of the Hermite polynomials on the half-line -/
noncomputable def Jn (n : ℕ) : ℝ := ∫ s in Ioi (0:ℝ), ((He n)^2).eval s * Real.exp (-1 * s^2)

theorem Jn_step (n : ℕ) : Jn (n+1) = 2 * (n+1) * Jn n := by
  have hd : ∀ s : ℝ, HasDerivAt (fun s : ℝ => (He (n+1) * He n).eval s * Real.exp (-1 * s^2)) ((2 * (n+1) * (((He n)^2).eval s * Real.exp (-1 * s^2))) - ((He (n+1))^2).eval s * Real.exp (-1 * s^2)) s := by
    intro s
    have h2 : HasDerivAt (fun s : ℝ => Real.exp (-1 * s^2)) (Real.exp (-1 * s^2) * (-1 * (2 * s))) s := by
      refine HasDerivAt.exp ?_
      have := (hasDerivAt_pow 2 s).const_mul (-1 : ℝ)
      simpa using this
    refine (((He (n+1) * He n).hasDerivAt s).mul h2).congr_deriv ?_
    have e := congrArg (eval s) (He_next n)
    rw [derivative_mul, He_deriv]
    simp only [eval_sub, eval_mul, eval_X, eval_ofNat, eval_add, eval_pow, eval_natCast, eval_one] at e ⊢
    linear_combination (eval s (He (n+1)) * Real.exp (-1 * s^2)) * e
  have i1 := (pol_intR ((He n)^2)).const_mul (2 * ((n:ℝ)+1))
  have i2 := pol_intR ((He (n+1))^2)
  have hi : IntegrableOn (fun s : ℝ => (2 * (n+1) * (((He n)^2).eval s * Real.exp (-1 * s^2))) - ((He (n+1))^2).eval s * Real.exp (-1 * s^2)) (Ioi 0) := i1.sub i2
  have ht := tendsto_zero_of_hasDerivAt_of_integrableOn_Ioi (a := (0:ℝ)) (fun s _ => hd s) hi (pol_intR _)
  have h := integral_Ioi_of_hasDerivAt_of_tendsto' (a := (0:ℝ)) (fun s _ => hd s) hi ht
  rw [integral_sub i1 i2, integral_const_mul] at h
  have z : (He (n+1) * He n).eval 0 = 0 := by
    rw [eval_mul]
    rcases Nat.even_or_odd n with ⟨k, hk⟩ | ⟨k, hk⟩
    · have := h0_odd k; unfold h0 at this
      rw [show n + 1 = 2*k+1 by omega, this, zero_mul]
    · have := h0_odd k; unfold h0 at this
      rw [show He n = He (2*k+1) by rw [hk], this, mul_zero]
  rw [z] at h
  unfold Jn
  linarith

theorem Jn_eq (n : ℕ) : Jn n = 2^n * n.factorial * mu 0 := by
  induction n with
  | zero => simp [Jn, mu, He]
  | succ n ih => rw [Jn_step, ih, Nat.factorial_succ]; push_cast; ring

theorem It_le (n : ℕ) {q : ℂ} (hq : q.re ≤ 0) {l : ℝ} (l0 : 0 < l) (hl : 2^n * (n.factorial : ℝ) ≤ l^2) : ‖It (He n) q‖ ≤ l * mu 0 := by
  have m0 : 0 ≤ mu 0 := setIntegral_nonneg measurableSet_Ioi fun s _ => by positivity
  have ib : IntegrableOn (fun s : ℝ => 1 / (2 * l) * (((He n)^2).eval s * Real.exp (-1 * s^2)) + l / 2 * (s^0 * Real.exp (-1 * s^2))) (Ioi 0) :=
    ((pol_intR ((He n)^2)).const_mul _).add ((gb_int 0 one_pos).const_mul _)
  have h : ‖It (He n) q‖ ≤ ∫ s in Ioi (0:ℝ), (1 / (2 * l) * (((He n)^2).eval s * Real.exp (-1 * s^2)) + l / 2 * (s^0 * Real.exp (-1 * s^2))) := by
    unfold It
    refine norm_integral_le_of_norm_le ib ?_
    refine (ae_restrict_iff' measurableSet_Ioi).2 (ae_of_all _ fun s hs => ?_)
    rw [norm_mul, Complex.norm_real, Real.norm_eq_abs, ker_norm]
    have e1 : Real.exp (-s^2 + q.re * s) ≤ Real.exp (-1 * s^2) := Real.exp_le_exp.2 (by
      have := mul_nonneg (neg_nonneg.2 hq) (le_of_lt hs)
      linarith)
    have e2 : |(He n).eval s| ≤ 1 / (2 * l) * ((He n)^2).eval s + l / 2 := by
      rw [eval_pow, ← sq_abs]
      generalize |eval s (He n)| = a
      have : 0 ≤ (a - l)^2 := sq_nonneg _
      rw [show 1 / (2 * l) * a^2 + l / 2 = (a^2 + l^2) / (2 * l) by field_simp, le_div_iff₀ (by linarith)]
      nlinarith
    have E := Real.exp_pos (-1 * s^2)
    calc |(He n).eval s| * Real.exp (-s^2 + q.re * s) ≤ (1 / (2 * l) * ((He n)^2).eval s + l / 2) * Real.exp (-1 * s^2) :=
          mul_le_mul e2 e1 (Real.exp_pos _).le ((abs_nonneg _).trans e2)
      _ = _ := by ring
  have i1 := (pol_intR ((He n)^2)).const_mul (1 / (2 * l))
  have i2 := (gb_int 0 one_pos).const_mul (l / 2)
  rw [integral_add i1 i2, integral_const_mul, integral_const_mul] at h
  change _ ≤ 1 / (2 * l) * Jn n + l / 2 * mu 0 at h
  rw [Jn_eq] at h
  refine h.trans ?_
  have : 1 / (2 * l) * (2^n * n.factorial * mu 0) ≤ 1 / (2 * l) * (l^2 * mu 0) := by gcongr
  calc _ ≤ 1 / (2 * l) * (l^2 * mu 0) + l / 2 * mu 0 := by linarith
    _ = l * mu 0 := by field_simp; ring

theorem It_zero (q : ℂ) : It (He 0) q = mo 0 q := by simp [It, He, mo]

end Fad
end Verif
