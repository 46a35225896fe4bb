import Verif.Proofs.FadAsy
import Verif.Proofs.FadHorner

/-! Rounding errors of the asymptotic branch of `faddeeva`. -/

namespace Verif
namespace Fad
open Complex F64

/-- real product with relative bounds -/
theorem rm {a b : F64} {A B p q α β : ℝ} (ha : Ab a A (α * p)) (hb : Ab b B (β * q)) (hA : |A| ≤ p) (hB : |B| ≤ q) (a0 : 0 ≤ α) (b0 : 0 ≤ β)
    (hα : α ≤ 1 / 10^9) (hβ : β ≤ 1 / 10^9) (hc : Cap (1.1 * (p * q))) : Ab (a * b) (A * B) ((α + β + 2.5 / 10^16) * (p * q)) := by
  have hp := (abs_nonneg A).trans hA
  have hq := (abs_nonneg B).trans hB
  have w := mul_nonneg hp hq
  have ab : α * β ≤ 1 / 10^18 := (mul_le_mul hα hβ b0 (by norm_num)).trans (by norm_num)
  refine (ab_mul ha hb hA hB (M := 1.1 * (p * q)) ?_ hc).mono ?_
  · calc p * q + (α * p * q + p * (β * q) + α * p * (β * q)) = (1 + α + β + α * β) * (p * q) := by ring
      _ ≤ 1.1 * (p * q) := mul_le_mul_of_nonneg_right (by norm_num at *; linarith) w
  · calc α * p * q + p * (β * q) + α * p * (β * q) + 1.1 * (p * q) / 2^52 = (α + β + (α * β + 1.1 / 2^52)) * (p * q) := by ring
      _ ≤ _ := mul_le_mul_of_nonneg_right (by norm_num at ab ⊢; linarith) w

/-- complex product with relative bounds -/
theorem nrm {a b : Cx F64} {A B : ℂ} {p q α β : ℝ} (ha : Nr (α * p) a A) (hb : Nr (β * q) b B) (hA : ‖A‖ ≤ p) (hB : ‖B‖ ≤ q) (a0 : 0 ≤ α) (b0 : 0 ≤ β)
    (hα : α ≤ 1 / 10^9) (hβ : β ≤ 1 / 10^9) (hc : Cap (1.1 * (p * q))) : Nr ((2 * α + 2 * β + 7.5 / 10^16) * (p * q)) (a.mul b) (A * B) := by
  have hp := (norm_nonneg A).trans hA
  have hq := (norm_nonneg B).trans hB
  have w := mul_nonneg hp hq
  have n : ‖A * B‖ ≤ p * q := by rw [norm_mul]; exact mul_le_mul hA hB (norm_nonneg _) hp
  have n1 := (Complex.abs_re_le_norm (A * B)).trans n
  have n2 := (Complex.abs_im_le_norm (A * B)).trans n
  have A1 := (Complex.abs_re_le_norm A).trans hA
  have A2 := (Complex.abs_im_le_norm A).trans hA
  have B1 := (Complex.abs_re_le_norm B).trans hB
  have B2 := (Complex.abs_im_le_norm B).trans hB
  have q1 := rm ha.1 hb.1 A1 B1 a0 b0 hα hβ hc
  have q2 := rm ha.2 hb.2 A2 B2 a0 b0 hα hβ hc
  have q3 := rm ha.1 hb.2 A1 B2 a0 b0 hα hβ hc
  have q4 := rm ha.2 hb.1 A2 B1 a0 b0 hα hβ hc
  have g1 : ∀ v : ℝ, |v| ≤ p * q → |v| + ((α + β + 2.5 / 10^16) * (p * q) + (α + β + 2.5 / 10^16) * (p * q)) ≤ 1.1 * (p * q) := by
    intro v hv
    have : (2 * (α + β + 2.5 / 10^16)) * (p * q) ≤ 0.1 * (p * q) := mul_le_mul_of_nonneg_right (by norm_num at *; linarith) w
    norm_num at this ⊢; linarith
  have g2 : (α + β + 2.5 / 10^16) * (p * q) + (α + β + 2.5 / 10^16) * (p * q) + 1.1 * (p * q) / 2^52 ≤ (2 * α + 2 * β + 7.5 / 10^16) * (p * q) := by
    calc _ = (2 * α + 2 * β + (5 / 10^16 + 1.1 / 2^52)) * (p * q) := by ring
      _ ≤ _ := mul_le_mul_of_nonneg_right (by norm_num) w
  rw [Complex.mul_re] at n1
  rw [Complex.mul_im] at n2
  constructor
  · rw [Complex.mul_re]
    exact (ab_sub q1 q2 (g1 _ n1) hc).mono g2
  · rw [Complex.mul_im]
    exact (ab_add q3 q4 (g1 _ n2) hc).mono g2

/-- exact version of `cxAsy` -/
noncomputable def hA (R2 R : ℂ) : ℂ → List ℝ → ℂ
  | s, [] => s * R
  | s, [c] => (s + (c:ℂ)) * R
  | s, c :: cs => hA R2 R ((s + (c:ℂ)) * R2) cs

/-- coefficient lists: close to the exact ones, which do not decrease too fast -/
def Cfl : ℝ → List F64 → List ℝ → Prop
  | _, [], [] => True
  | D, c :: cs, C :: Cs => Ab c C (4 / 10^16 * C) ∧ 1/10 ≤ C ∧ C ≤ 10^8 ∧ D ≤ 12 * C ∧ Cfl C cs Cs
  | _, _, _ => False

theorem capC {M : ℝ} (h1 : 1 / 10^20 ≤ M) (h2 : M ≤ 10^20) : Cap M :=
  cap_of (le_trans (by norm_num) h1) (h2.trans (pow_le_pow_right₀ (by norm_num) (by norm_num)))

theorem addC {s : Cx F64} {S : ℂ} {c : F64} {C D : ℝ} (hs : Nr (6 / 10^17 * D) s S) (hS : ‖S‖ ≤ D / 500) (hD : D ≤ 12 * C)
    (hc : Ab c C (4 / 10^16 * C)) (c1 : 1/10 ≤ C) (c2 : C ≤ 10^8) : Nr (1.4 / 10^15 * (1.03 * C)) (s.addR c) (S + (C:ℂ)) ∧ ‖S + (C:ℂ)‖ ≤ 1.03 * C := by
  have n : ‖S + (C:ℂ)‖ ≤ 1.03 * C := by
    refine (norm_add_le _ _).trans ?_
    rw [Complex.norm_real, Real.norm_eq_abs, abs_of_pos (by linarith)]
    norm_num; linarith
  refine ⟨⟨?_, ?_⟩, n⟩
  · have n1 := (Complex.abs_re_le_norm _).trans n
    rw [Complex.add_re, Complex.ofReal_re] at n1 ⊢
    have D0 := hs.1.nonneg
    refine (ab_add hs.1 hc (M := 1.1 * C) ?_ (capC ?_ ?_)).mono ?_
    · norm_num at n1 ⊢; linarith
    · norm_num; linarith
    · norm_num at c2 ⊢; linarith
    · norm_num; linarith
  · rw [Complex.add_im, Complex.ofReal_im, add_zero]
    exact hs.2.mono (by norm_num; linarith)

/-- the whole scheme -/
theorem nr_asy {r2 r : Cx F64} {R2 R : ℂ} {ρ : ℝ} (h2 : Nr (1.1 / 10^14 * (1/539)) r2 R2) (n2 : ‖R2‖ ≤ 1/539)
    (hr : Nr (2.1 / 10^15 * ρ) r R) (nr : ‖R‖ ≤ ρ) (ρ1 : 1 / 10^10 ≤ ρ) (ρ2 : ρ ≤ 1) :
    ∀ {cs : List F64} {Cs : List ℝ} {s : Cx F64} {S : ℂ} {D : ℝ}, cs ≠ [] → Cfl D cs Cs → Nr (6 / 10^17 * D) s S → ‖S‖ ≤ D / 500 →
      ∃ C, (Cs.getLast? = some C) ∧ Nr (9 / 10^15 * (C * ρ)) (cxAsy r2 r s cs) (hA R2 R S Cs)
  | [], _, _, _, _ => fun h => absurd rfl h
  | [c], [], _, _, _ => fun _ h => h.elim
  | [c], [C], s, S, D => by
    intro _ g hs hS
    obtain ⟨gc, c1, c2, gD, -⟩ := g
    obtain ⟨k1, k2⟩ := addC hs hS gD gc c1 c2
    have w : 0 < C * ρ := mul_pos (by linarith) (lt_of_lt_of_le (by norm_num) ρ1)
    have wl : 1/10 * (1 / 10^10) ≤ C * ρ := mul_le_mul c1 ρ1 (by norm_num) (by linarith)
    have wu : C * ρ ≤ 10^8 * 1 := mul_le_mul c2 ρ2 (by linarith [show (0:ℝ) < 1 / 10^10 by norm_num]) (by norm_num)
    refine ⟨C, rfl, ?_⟩
    have := nrm k1 hr k2 nr (by norm_num) (by norm_num) (by norm_num) (by norm_num) (capC (by norm_num at wl ⊢; nlinarith) (by norm_num at wu ⊢; nlinarith))
    refine Nr.mono this ?_
    calc (2 * (1.4 / 10^15) + 2 * (2.1 / 10^15) + 7.5 / 10^16) * (1.03 * C * ρ) = (2 * (1.4 / 10^15) + 2 * (2.1 / 10^15) + 7.5 / 10^16) * 1.03 * (C * ρ) := by ring
      _ ≤ _ := mul_le_mul_of_nonneg_right (by norm_num) w.le
  | [c], C :: C' :: Cs, _, _, _ => fun _ h => h.2.2.2.2.elim
  | c :: c' :: cs, [], _, _, _ => fun _ h => h.elim
  | c :: c' :: cs, [C], _, _, _ => fun _ h => h.2.2.2.2.elim
  | c :: c' :: cs, C :: C' :: Cs, s, S, D => by
    intro _ g hs hS
    obtain ⟨gc, c1, c2, gD, gr⟩ := g
    obtain ⟨k1, k2⟩ := addC hs hS gD gc c1 c2
    have := nrm k1 h2 k2 n2 (by norm_num) (by norm_num) (by norm_num) (by norm_num) (capC (by norm_num; linarith) (by norm_num at c2 ⊢; linarith))
    have ih := nr_asy h2 n2 hr nr ρ1 ρ2 (cs := c' :: cs) (Cs := C' :: Cs) (s := (s.addR c).mul r2) (S := (S + (C:ℂ)) * R2) (D := C) (by simp) gr (Nr.mono this (by norm_num; linarith)) (by
      rw [norm_mul]
      refine (mul_le_mul k2 n2 (norm_nonneg _) (by linarith)).trans ?_
      norm_num; linarith)
    obtain ⟨L, l1, l2⟩ := ih
    exact ⟨L, by simpa using l1, l2⟩

/-- exact coefficients -/
noncomputable def A3 : List ℝ := [kap * (3/8), kap * (1/4), kap * (1/2)]
noncomputable def A11 : List ℝ := [kap * (654729075/2048), kap * (34459425/1024), kap * (2027025/512), kap * (135135/256), kap * (10395/128), kap * (945/64), kap * (105/32), kap * (15/16)] ++ A3

theorem gl (m k : ℕ) (q : ℝ) (h1 : 1/5 ≤ q) (h2 : q ≤ 10^7) (h : |(m:ℝ) / 10^k - 1.1283791670955125739 * q| ≤ 1.9 / 10^16 * q) :
    Ab (OfScientific.ofScientific m true k : F64) (kap * q) (4 / 10^16 * (kap * q)) ∧ 1/10 ≤ kap * q ∧ kap * q ≤ 10^8 := by
  have hk := kap_bounds
  have q0 : 0 < q := by linarith
  have kq1 : 1.1283791670955125738 * q ≤ kap * q := mul_le_mul_of_nonneg_right hk.1 q0.le
  have kq2 : kap * q ≤ 1.1283791670955125739 * q := mul_le_mul_of_nonneg_right hk.2 q0.le
  obtain ⟨e1, e2⟩ := abs_le.1 h
  norm_num at kq1 kq2 e1 e2 h2
  refine ⟨?_, by norm_num; linarith, by norm_num; linarith⟩
  have l := ab_lit m k (M := 1.13 * q) (by norm_num; linarith) (capC (by norm_num; linarith) (by norm_num; linarith))
  refine ⟨l.fin, ?_⟩
  have := l.err
  have t := abs_sub_le (OfScientific.ofScientific m true k : F64).val ((m:ℝ) / 10^k) (kap * q)
  have u : |(m:ℝ) / 10^k - kap * q| ≤ 1.91 / 10^16 * q := by
    rw [abs_le]; constructor <;> norm_num <;> linarith
  norm_num at this u ⊢
  linarith

theorem kapq {D q : ℝ} (h : D ≤ 12 * q) : kap * D ≤ 12 * (kap * q) := by
  have := mul_le_mul_of_nonneg_left h kap_pos.le
  linarith

theorem glc {D q : ℝ} {c : F64} {cs : List F64} {Cs : List ℝ} (h : Ab c (kap * q) (4 / 10^16 * (kap * q)) ∧ 1/10 ≤ kap * q ∧ kap * q ≤ 10^8)
    (hD : D ≤ 12 * q) (hr : Cfl (kap * q) cs Cs) : Cfl (kap * D) (c :: cs) (kap * q :: Cs) := ⟨h.1, h.2.1, h.2.2, kapq hD, hr⟩

theorem g3 : Cfl (kap * (15/16)) asyTail3 A3 := by
  refine glc (gl _ _ _ ?_ ?_ ?_) ?_ (glc (gl _ _ _ ?_ ?_ ?_) ?_ (glc (gl _ _ _ ?_ ?_ ?_) ?_ trivial))
  all_goals norm_num [abs_le]

theorem g11 : Cfl (kap * (13749310575/4096)) asyTail11 A11 := by
  refine glc (gl _ _ _ ?_ ?_ ?_) ?_ (glc (gl _ _ _ ?_ ?_ ?_) ?_ (glc (gl _ _ _ ?_ ?_ ?_) ?_ (glc (gl _ _ _ ?_ ?_ ?_) ?_ (glc (gl _ _ _ ?_ ?_ ?_) ?_ (glc (gl _ _ _ ?_ ?_ ?_) ?_
    (glc (gl _ _ _ ?_ ?_ ?_) ?_ (glc (gl _ _ _ ?_ ?_ ?_) ?_ g3)))))))
  all_goals norm_num [abs_le]

theorem st_c {c : F64} {C : ℝ} {r2 : Cx F64} {R2 : ℂ} (h2 : Nr (1.1 / 10^14 * (1/539)) r2 R2) (n2 : ‖R2‖ ≤ 1/539)
    (hc : Ab c C (4 / 10^16 * C)) (c1 : 1/10 ≤ C) (c2 : C ≤ 10^8) : Nr (6 / 10^17 * C) (Cx.rmul c r2) ((C:ℂ) * R2) ∧ ‖(C:ℂ) * R2‖ ≤ C / 500 := by
  have r1 := (Complex.abs_re_le_norm R2).trans n2
  have i1 := (Complex.abs_im_le_norm R2).trans n2
  have cc : |C| ≤ C := by rw [abs_of_pos (by linarith)]
  have cap : Cap (1.1 * (C * (1/539))) := capC (by norm_num; linarith) (by norm_num at c2 ⊢; linarith)
  refine ⟨⟨?_, ?_⟩, ?_⟩
  · rw [Complex.re_ofReal_mul]
    exact (rm hc h2.1 cc r1 (by norm_num) (by norm_num) (by norm_num) (by norm_num) cap).mono (by norm_num; linarith)
  · rw [Complex.im_ofReal_mul]
    exact (rm hc h2.2 cc i1 (by norm_num) (by norm_num) (by norm_num) (by norm_num) cap).mono (by norm_num; linarith)
  · rw [norm_mul, Complex.norm_real, Real.norm_eq_abs]
    refine (mul_le_mul cc n2 (norm_nonneg _) (by linarith)).trans ?_
    norm_num; linarith

end Fad
end Verif
