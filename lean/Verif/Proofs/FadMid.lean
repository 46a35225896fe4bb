import Verif.Proofs.FadHerm
import Verif.Proofs.FadAsyG

/-! The 20-term branch of `faddeeva`, `49 ≤ |z|² ≤ 540`.  `ex40` is printed by tools/genmid.py. -/

namespace Verif
namespace Fad
open Complex F64

theorem h0v0 : h0 (2*0) = 1 := h0_0
theorem h0v1 : h0 (2*1) = -2 := by have := h0_rec (2*0); rw [h0v0] at this; push_cast at this; rw [show 2*1 = 2*0+2 by norm_num, this]; norm_num
theorem h0v2 : h0 (2*2) = 12 := by have := h0_rec (2*1); rw [h0v1] at this; push_cast at this; rw [show 2*2 = 2*1+2 by norm_num, this]; norm_num
theorem h0v3 : h0 (2*3) = -120 := by have := h0_rec (2*2); rw [h0v2] at this; push_cast at this; rw [show 2*3 = 2*2+2 by norm_num, this]; norm_num
theorem h0v4 : h0 (2*4) = 1680 := by have := h0_rec (2*3); rw [h0v3] at this; push_cast at this; rw [show 2*4 = 2*3+2 by norm_num, this]; norm_num
theorem h0v5 : h0 (2*5) = -30240 := by have := h0_rec (2*4); rw [h0v4] at this; push_cast at this; rw [show 2*5 = 2*4+2 by norm_num, this]; norm_num
theorem h0v6 : h0 (2*6) = 665280 := by have := h0_rec (2*5); rw [h0v5] at this; push_cast at this; rw [show 2*6 = 2*5+2 by norm_num, this]; norm_num
theorem h0v7 : h0 (2*7) = -17297280 := by have := h0_rec (2*6); rw [h0v6] at this; push_cast at this; rw [show 2*7 = 2*6+2 by norm_num, this]; norm_num
theorem h0v8 : h0 (2*8) = 518918400 := by have := h0_rec (2*7); rw [h0v7] at this; push_cast at this; rw [show 2*8 = 2*7+2 by norm_num, this]; norm_num
theorem h0v9 : h0 (2*9) = -17643225600 := by have := h0_rec (2*8); rw [h0v8] at this; push_cast at this; rw [show 2*9 = 2*8+2 by norm_num, this]; norm_num
theorem h0v10 : h0 (2*10) = 670442572800 := by have := h0_rec (2*9); rw [h0v9] at this; push_cast at this; rw [show 2*10 = 2*9+2 by norm_num, this]; norm_num
theorem h0v11 : h0 (2*11) = -28158588057600 := by have := h0_rec (2*10); rw [h0v10] at this; push_cast at this; rw [show 2*11 = 2*10+2 by norm_num, this]; norm_num
theorem h0v12 : h0 (2*12) = 1295295050649600 := by have := h0_rec (2*11); rw [h0v11] at this; push_cast at this; rw [show 2*12 = 2*11+2 by norm_num, this]; norm_num
theorem h0v13 : h0 (2*13) = -64764752532480000 := by have := h0_rec (2*12); rw [h0v12] at this; push_cast at this; rw [show 2*13 = 2*12+2 by norm_num, this]; norm_num
theorem h0v14 : h0 (2*14) = 3497296636753920000 := by have := h0_rec (2*13); rw [h0v13] at this; push_cast at this; rw [show 2*14 = 2*13+2 by norm_num, this]; norm_num
theorem h0v15 : h0 (2*15) = -202843204931727360000 := by have := h0_rec (2*14); rw [h0v14] at this; push_cast at this; rw [show 2*15 = 2*14+2 by norm_num, this]; norm_num
theorem h0v16 : h0 (2*16) = 12576278705767096320000 := by have := h0_rec (2*15); rw [h0v15] at this; push_cast at this; rw [show 2*16 = 2*15+2 by norm_num, this]; norm_num
theorem h0v17 : h0 (2*17) = -830034394580628357120000 := by have := h0_rec (2*16); rw [h0v16] at this; push_cast at this; rw [show 2*17 = 2*16+2 by norm_num, this]; norm_num
theorem h0v18 : h0 (2*18) = 58102407620643984998400000 := by have := h0_rec (2*17); rw [h0v17] at this; push_cast at this; rw [show 2*18 = 2*17+2 by norm_num, this]; norm_num
theorem h0v19 : h0 (2*19) = -4299578163927654889881600000 := by have := h0_rec (2*18); rw [h0v18] at this; push_cast at this; rw [show 2*19 = 2*18+2 by norm_num, this]; norm_num
theorem ex40 {p q : ℂ} (h : p * q = 1) : mo 0 q = (-1) * p * (p^2)^0 + (2) * p * (p^2)^1 + (-12) * p * (p^2)^2 + (120) * p * (p^2)^3 + (-1680) * p * (p^2)^4 + (30240) * p * (p^2)^5 + (-665280) * p * (p^2)^6 + (17297280) * p * (p^2)^7 + (-518918400) * p * (p^2)^8 + (17643225600) * p * (p^2)^9 + (-670442572800) * p * (p^2)^10 + (28158588057600) * p * (p^2)^11 + (-1295295050649600) * p * (p^2)^12 + (64764752532480000) * p * (p^2)^13 + (-3497296636753920000) * p * (p^2)^14 + (202843204931727360000) * p * (p^2)^15 + (-12576278705767096320000) * p * (p^2)^16 + (830034394580628357120000) * p * (p^2)^17 + (-58102407620643984998400000) * p * (p^2)^18 + (4299578163927654889881600000) * p * (p^2)^19 + (p^2)^20 * It (He 40) q := by
  rw [← It_zero]
  have e0 : It (He 0) q = p^2 * It (He 2) q - (1) * p := by have := It_two 0 h; rw [h0v0] at this; push_cast at this; exact this
  have e1 : It (He 2) q = p^2 * It (He 4) q - (-2) * p := by have := It_two 1 h; rw [h0v1] at this; push_cast at this; exact this
  have e2 : It (He 4) q = p^2 * It (He 6) q - (12) * p := by have := It_two 2 h; rw [h0v2] at this; push_cast at this; exact this
  have e3 : It (He 6) q = p^2 * It (He 8) q - (-120) * p := by have := It_two 3 h; rw [h0v3] at this; push_cast at this; exact this
  have e4 : It (He 8) q = p^2 * It (He 10) q - (1680) * p := by have := It_two 4 h; rw [h0v4] at this; push_cast at this; exact this
  have e5 : It (He 10) q = p^2 * It (He 12) q - (-30240) * p := by have := It_two 5 h; rw [h0v5] at this; push_cast at this; exact this
  have e6 : It (He 12) q = p^2 * It (He 14) q - (665280) * p := by have := It_two 6 h; rw [h0v6] at this; push_cast at this; exact this
  have e7 : It (He 14) q = p^2 * It (He 16) q - (-17297280) * p := by have := It_two 7 h; rw [h0v7] at this; push_cast at this; exact this
  have e8 : It (He 16) q = p^2 * It (He 18) q - (518918400) * p := by have := It_two 8 h; rw [h0v8] at this; push_cast at this; exact this
  have e9 : It (He 18) q = p^2 * It (He 20) q - (-17643225600) * p := by have := It_two 9 h; rw [h0v9] at this; push_cast at this; exact this
  have e10 : It (He 20) q = p^2 * It (He 22) q - (670442572800) * p := by have := It_two 10 h; rw [h0v10] at this; push_cast at this; exact this
  have e11 : It (He 22) q = p^2 * It (He 24) q - (-28158588057600) * p := by have := It_two 11 h; rw [h0v11] at this; push_cast at this; exact this
  have e12 : It (He 24) q = p^2 * It (He 26) q - (1295295050649600) * p := by have := It_two 12 h; rw [h0v12] at this; push_cast at this; exact this
  have e13 : It (He 26) q = p^2 * It (He 28) q - (-64764752532480000) * p := by have := It_two 13 h; rw [h0v13] at this; push_cast at this; exact this
  have e14 : It (He 28) q = p^2 * It (He 30) q - (3497296636753920000) * p := by have := It_two 14 h; rw [h0v14] at this; push_cast at this; exact this
  have e15 : It (He 30) q = p^2 * It (He 32) q - (-202843204931727360000) * p := by have := It_two 15 h; rw [h0v15] at this; push_cast at this; exact this
  have e16 : It (He 32) q = p^2 * It (He 34) q - (12576278705767096320000) * p := by have := It_two 16 h; rw [h0v16] at this; push_cast at this; exact this
  have e17 : It (He 34) q = p^2 * It (He 36) q - (-830034394580628357120000) * p := by have := It_two 17 h; rw [h0v17] at this; push_cast at this; exact this
  have e18 : It (He 36) q = p^2 * It (He 38) q - (58102407620643984998400000) * p := by have := It_two 18 h; rw [h0v18] at this; push_cast at this; exact this
  have e19 : It (He 38) q = p^2 * It (He 40) q - (-4299578163927654889881600000) * p := by have := It_two 19 h; rw [h0v19] at this; push_cast at this; exact this
  linear_combination (p^2)^0 * e0 + (p^2)^1 * e1 + (p^2)^2 * e2 + (p^2)^3 * e3 + (p^2)^4 * e4 + (p^2)^5 * e5 + (p^2)^6 * e6 + (p^2)^7 * e7 + (p^2)^8 * e8 + (p^2)^9 * e9 + (p^2)^10 * e10 + (p^2)^11 * e11 + (p^2)^12 * e12 + (p^2)^13 * e13 + (p^2)^14 * e14 + (p^2)^15 * e15 + (p^2)^16 * e16 + (p^2)^17 * e17 + (p^2)^18 * e18 + (p^2)^19 * e19
/-- exact coefficients -/
noncomputable def A19 : List ℝ := [kap * (221643095476699771875/524288), kap * (6332659870762850625/262144), kap * (191898783962510625/131072), kap * (6190283353629375/65536), kap * (213458046676875/32768), kap * (7905853580625/16384), kap * (316234143225/8192), kap * (13749310575/4096)] ++ A11

/-- twenty terms -/
theorem w20 {z : ℂ} (hz : 7 ≤ ‖z‖) (h : 0 ≤ z.im) :
    ‖hA ((z⁻¹)^2) (I * z⁻¹) (((kap * (8200794532637891559375/1048576) : ℝ) : ℂ) * (z⁻¹)^2) A19 - faddeevaW z‖ ≤ 1.5 / 10^15 * ‖z‖⁻¹ := by
  have h0 : z ≠ 0 := by rintro rfl; norm_num at hz
  have e := ex40 (pq h0)
  have b : ‖It (He 40) (2 * I * z)‖ ≤ 95 * 10^28 := by
    refine (It_le 40 (q_re h) (l := 95 * 10^28) (by norm_num) (by norm_num [Nat.factorial])).trans ?_
    have := mu0
    nlinarith
  have d : hA ((z⁻¹)^2) (I * z⁻¹) (((kap * (8200794532637891559375/1048576) : ℝ) : ℂ) * (z⁻¹)^2) A19 - faddeevaW z = -((kap : ℂ) * ((-(I / 2) * z⁻¹)^40 * It (He 40) (2 * I * z))) := by
    rw [w_ray, e]
    have : (-(I / 2) * z⁻¹)^40 = ((-(I / 2) * z⁻¹)^2)^20 := by ring
    rw [this, p_sq]
    simp only [hA, A19, A11, A3, List.cons_append, List.nil_append]
    push_cast
    ring
  rw [d, norm_neg, norm_mul, norm_mul, norm_pow, p_norm, Complex.norm_real, Real.norm_eq_abs, abs_of_pos kap_pos]
  have m : 0 ≤ ‖z‖⁻¹ := inv_nonneg.2 (norm_nonneg _)
  have m2 : ‖z‖⁻¹ ≤ 1/7 := by rw [← one_div]; exact one_div_le_one_div_of_le (by norm_num) hz
  generalize ‖z‖⁻¹ = u at *
  have u8 : u^39 ≤ (1/7)^39 := pow_le_pow_left₀ m m2 39
  calc kap * ((u / 2)^40 * ‖It (He 40) (2 * I * z)‖) ≤ 1.13 * ((u / 2)^40 * (95 * 10^28)) := mul_le_mul kap_le (mul_le_mul_of_nonneg_left b (by positivity)) (by positivity) (by norm_num)
    _ = (1.13 * (95 * 10^28) / 2^40 * u^39) * u := by ring
    _ ≤ (1.13 * (95 * 10^28) / 2^40 * (1/7)^39) * u := mul_le_mul_of_nonneg_right (mul_le_mul_of_nonneg_left u8 (by norm_num)) m
    _ ≤ _ := mul_le_mul_of_nonneg_right (by norm_num) m

/-- coefficient lists: close to the exact ones, which do not decrease too fast -/
def Cfm : ℝ → List F64 → List ℝ → Prop
  | _, [], [] => True
  | D, [c], [C] => Ab c C (4 / 10^16 * C) ∧ 1/10 ≤ C ∧ C ≤ 10^16 ∧ D ≤ C
  | D, c :: cs, C :: Cs => Ab c C (4 / 10^16 * C) ∧ 1/10 ≤ C ∧ C ≤ 10^16 ∧ D ≤ 18.5 * C ∧ Cfm C cs Cs
  | _, _, _ => False

theorem addM {s : Cx F64} {S : ℂ} {c : F64} {C D : ℝ} (hs : Nr (3.3 / 10^15 * D) s S) (hS : ‖S‖ ≤ 0.0335 * D) (hD : D ≤ 18.5 * C)
    (hc : Ab c C (4 / 10^16 * C)) (c1 : 1/10 ≤ C) (c2 : C ≤ 10^16) : Nr (3.85 / 10^14 * (1.62 * C)) (s.addR c) (S + (C:ℂ)) ∧ ‖S + (C:ℂ)‖ ≤ 1.62 * C := by
  have n : ‖S + (C:ℂ)‖ ≤ 1.62 * C := by
    refine (norm_add_le _ _).trans ?_
    rw [Complex.norm_real, Real.norm_eq_abs, abs_of_pos (by linarith)]
    norm_num at hS hD ⊢; linarith
  have D0 := hs.1.nonneg
  norm_num at hD D0
  refine ⟨⟨?_, ?_⟩, n⟩
  · have n1 := (Complex.abs_re_le_norm _).trans n
    rw [Complex.add_re, Complex.ofReal_re] at n1 ⊢
    refine (ab_add hs.1 hc (M := 1.63 * C) ?_ (capC ?_ ?_)).mono ?_
    · norm_num at n1 ⊢; linarith
    · norm_num; linarith
    · norm_num at c2 ⊢; linarith
    · norm_num; linarith
  · rw [Complex.add_im, Complex.ofReal_im, add_zero]
    exact hs.2.mono (by norm_num; linarith)

theorem addM1 {s : Cx F64} {S : ℂ} {c : F64} {C D : ℝ} (hs : Nr (3.3 / 10^15 * D) s S) (hS : ‖S‖ ≤ 0.0335 * D) (hD : D ≤ C)
    (hc : Ab c C (4 / 10^16 * C)) (c1 : 1/10 ≤ C) (c2 : C ≤ 10^16) : Nr (3.8 / 10^15 * (1.04 * C)) (s.addR c) (S + (C:ℂ)) ∧ ‖S + (C:ℂ)‖ ≤ 1.04 * C := by
  have n : ‖S + (C:ℂ)‖ ≤ 1.04 * C := by
    refine (norm_add_le _ _).trans ?_
    rw [Complex.norm_real, Real.norm_eq_abs, abs_of_pos (by linarith)]
    norm_num at hS ⊢; linarith
  have D0 := hs.1.nonneg
  norm_num at D0
  refine ⟨⟨?_, ?_⟩, n⟩
  · have n1 := (Complex.abs_re_le_norm _).trans n
    rw [Complex.add_re, Complex.ofReal_re] at n1 ⊢
    refine (ab_add hs.1 hc (M := 1.05 * C) ?_ (capC ?_ ?_)).mono ?_
    · norm_num at n1 ⊢; linarith
    · norm_num; linarith
    · norm_num at c2 ⊢; linarith
    · norm_num; linarith
  · rw [Complex.add_im, Complex.ofReal_im, add_zero]
    exact hs.2.mono (by norm_num; linarith)

/-- the whole scheme -/
theorem nr_mid {r2 r : Cx F64} {R2 R : ℂ} {ρ : ℝ} (h2 : Nr (1.1 / 10^14 * (1/49)) r2 R2) (n2 : ‖R2‖ ≤ 1/49)
    (hr : Nr (2.1 / 10^15 * ρ) r R) (nr : ‖R‖ ≤ ρ) (ρ1 : 1 / 10^10 ≤ ρ) (ρ2 : ρ ≤ 1) :
    ∀ {cs : List F64} {Cs : List ℝ} {s : Cx F64} {S : ℂ} {D : ℝ}, cs ≠ [] → Cfm D cs Cs → Nr (3.3 / 10^15 * D) s S → ‖S‖ ≤ 0.0335 * D →
      ∃ C, (Cs.getLast? = some C) ∧ Nr (1.31 / 10^14 * (C * ρ)) (cxAsy r2 r s cs) (hA R2 R S Cs)
  | [], _, _, _, _ => fun h => absurd rfl h
  | [c], [], _, _, _ => fun _ h => h.elim
  | [c], [C], s, S, D => by
    intro _ g hs hS
    obtain ⟨gc, c1, c2, gD⟩ := g
    obtain ⟨k1, k2⟩ := addM1 hs hS gD gc c1 c2
    have w : 0 < C * ρ := mul_pos (by linarith) (lt_of_lt_of_le (by norm_num) ρ1)
    have wl : 1/10 * (1 / 10^10) ≤ C * ρ := mul_le_mul c1 ρ1 (by norm_num) (by linarith)
    have wu : C * ρ ≤ 10^16 * 1 := mul_le_mul c2 ρ2 (by linarith [show (0:ℝ) < 1 / 10^10 by norm_num]) (by norm_num)
    refine ⟨C, rfl, ?_⟩
    have := nrm k1 hr k2 nr (by norm_num) (by norm_num) (by norm_num) (by norm_num) (capC (by norm_num at wl ⊢; nlinarith) (by norm_num at wu ⊢; nlinarith))
    refine Nr.mono this ?_
    calc (2 * (3.8 / 10^15) + 2 * (2.1 / 10^15) + 7.5 / 10^16) * (1.04 * C * ρ) = (2 * (3.8 / 10^15) + 2 * (2.1 / 10^15) + 7.5 / 10^16) * 1.04 * (C * ρ) := by ring
      _ ≤ _ := mul_le_mul_of_nonneg_right (by norm_num) w.le
  | [c], C :: C' :: Cs, _, _, _ => fun _ h => h.2.2.2.2.elim
  | c :: c' :: cs, [], _, _, _ => fun _ h => h.elim
  | c :: c' :: cs, [C], _, _, _ => fun _ h => by have := h.2.2.2.2; simp [Cfm] at this
  | c :: c' :: cs, C :: C' :: Cs, s, S, D => by
    intro _ g hs hS
    obtain ⟨gc, c1, c2, gD, gr⟩ := g
    obtain ⟨k1, k2⟩ := addM hs hS gD gc c1 c2
    have := nrm k1 h2 k2 n2 (by norm_num) (by norm_num) (by norm_num) (by norm_num) (capC (by norm_num; linarith) (by norm_num at c2 ⊢; linarith))
    have ih := nr_mid h2 n2 hr nr ρ1 ρ2 (cs := c' :: cs) (Cs := C' :: Cs) (s := (s.addR c).mul r2) (S := (S + (C:ℂ)) * R2) (D := C) (by simp) gr (Nr.mono this (by norm_num; linarith)) (by
      rw [norm_mul]
      refine (mul_le_mul k2 n2 (norm_nonneg _) (by linarith)).trans ?_
      norm_num; linarith)
    obtain ⟨L, l1, l2⟩ := ih
    exact ⟨L, by simpa using l1, l2⟩

theorem gm (m k : ℕ) (q : ℝ) (h1 : 1/5 ≤ q) (h2 : q ≤ 10^15) (h : |(m:ℝ) / 10^k - 1.1283791670955125739 * q| ≤ 1.9 / 10^16 * q) :
    Ab (OfScientific.ofScientific m true k : F64) (kap * q) (4 / 10^16 * (kap * q)) ∧ 1/10 ≤ kap * q ∧ kap * q ≤ 10^16 := by
  have hk := kap_bounds
  have q0 : 0 < q := by linarith
  have kq1 : 1.1283791670955125738 * q ≤ kap * q := mul_le_mul_of_nonneg_right hk.1 q0.le
  have kq2 : kap * q ≤ 1.1283791670955125739 * q := mul_le_mul_of_nonneg_right hk.2 q0.le
  obtain ⟨e1, e2⟩ := abs_le.1 h
  norm_num at kq1 kq2 e1 e2 h2
  refine ⟨?_, by norm_num; linarith, by norm_num; linarith⟩
  have l := ab_lit m k (M := 1.13 * q) (by norm_num; linarith) (capC (by norm_num; linarith) (by norm_num; linarith))
  refine ⟨l.fin, ?_⟩
  have := l.err
  have t := abs_sub_le (OfScientific.ofScientific m true k : F64).val ((m:ℝ) / 10^k) (kap * q)
  have u : |(m:ℝ) / 10^k - kap * q| ≤ 1.91 / 10^16 * q := by
    rw [abs_le]; constructor <;> norm_num <;> linarith
  norm_num at this u ⊢
  linarith

theorem gmc {D q q' : ℝ} {c c' : F64} {cs : List F64} {Cs : List ℝ} (h : Ab c (kap * q) (4 / 10^16 * (kap * q)) ∧ 1/10 ≤ kap * q ∧ kap * q ≤ 10^16)
    (hD : D ≤ 18.5 * q) (hr : Cfm (kap * q) (c' :: cs) (kap * q' :: Cs)) : Cfm (kap * D) (c :: c' :: cs) (kap * q :: kap * q' :: Cs) :=
  ⟨h.1, h.2.1, h.2.2, by have := mul_le_mul_of_nonneg_left hD kap_pos.le; linarith, hr⟩
theorem gm1 {D q : ℝ} {c : F64} (h : Ab c (kap * q) (4 / 10^16 * (kap * q)) ∧ 1/10 ≤ kap * q ∧ kap * q ≤ 10^16)
    (hD : D ≤ q) : Cfm (kap * D) [c] [kap * q] :=
  ⟨h.1, h.2.1, h.2.2, mul_le_mul_of_nonneg_left hD kap_pos.le⟩

theorem g19 : Cfm (kap * (8200794532637891559375/1048576)) asyTail19 A19 := by
  show Cfm _ [_, _, _, _, _, _, _, _, _, _, _, _, _, _, _, _, _, _, _] [_, _, _, _, _, _, _, _, _, _, _, _, _, _, _, _, _, _, _]
  refine gmc (gm _ _ _ ?_ ?_ ?_) ?_ (gmc (gm _ _ _ ?_ ?_ ?_) ?_ (gmc (gm _ _ _ ?_ ?_ ?_) ?_ (gmc (gm _ _ _ ?_ ?_ ?_) ?_ (gmc (gm _ _ _ ?_ ?_ ?_) ?_ (gmc (gm _ _ _ ?_ ?_ ?_) ?_ (gmc (gm _ _ _ ?_ ?_ ?_) ?_ (gmc (gm _ _ _ ?_ ?_ ?_) ?_ (gmc (gm _ _ _ ?_ ?_ ?_) ?_ (gmc (gm _ _ _ ?_ ?_ ?_) ?_ (gmc (gm _ _ _ ?_ ?_ ?_) ?_ (gmc (gm _ _ _ ?_ ?_ ?_) ?_ (gmc (gm _ _ _ ?_ ?_ ?_) ?_ (gmc (gm _ _ _ ?_ ?_ ?_) ?_ (gmc (gm _ _ _ ?_ ?_ ?_) ?_ (gmc (gm _ _ _ ?_ ?_ ?_) ?_ (gmc (gm _ _ _ ?_ ?_ ?_) ?_ (gmc (gm _ _ _ ?_ ?_ ?_) ?_ (gm1 (gm _ _ _ ?_ ?_ ?_) ?_))))))))))))))))))
  all_goals norm_num [abs_le]

theorem c19 : Ab (8.824926094302537e15 : F64) (kap * (8200794532637891559375/1048576)) (4 / 10^16 * (kap * (8200794532637891559375/1048576))) ∧
    1/10 ≤ kap * (8200794532637891559375/1048576) ∧ kap * (8200794532637891559375/1048576) ≤ 10^16 := by
  have v : (8.824926094302537e15 : F64).val = 8824926094302537 := by exact_mod_cast val_of_int (x := (8.824926094302537e15 : F64)) 8824926094302537 (by decide +kernel)
  obtain ⟨h1, h2⟩ := kap_bounds
  norm_num at h1 h2
  refine ⟨⟨by decide +kernel, ?_⟩, by norm_num; linarith, by norm_num; linarith⟩
  rw [v, abs_le]
  constructor <;> norm_num <;> linarith

theorem st_m {c : F64} {C : ℝ} {r2 : Cx F64} {R2 : ℂ} (h2 : Nr (1.1 / 10^14 * (1/49)) r2 R2) (n2 : ‖R2‖ ≤ 1/49)
    (hc : Ab c C (4 / 10^16 * C)) (c1 : 1/10 ≤ C) (c2 : C ≤ 10^16) : Nr (3.3 / 10^15 * C) (Cx.rmul c r2) ((C:ℂ) * R2) ∧ ‖(C:ℂ) * R2‖ ≤ 0.0335 * C := by
  have r1 := (Complex.abs_re_le_norm R2).trans n2
  have i1 := (Complex.abs_im_le_norm R2).trans n2
  have cc : |C| ≤ C := by rw [abs_of_pos (by linarith)]
  have cap : Cap (1.1 * (C * (1/49))) := capC (by norm_num; linarith) (by norm_num at c2 ⊢; linarith)
  refine ⟨⟨?_, ?_⟩, ?_⟩
  · rw [Complex.re_ofReal_mul]
    exact (rm hc h2.1 cc r1 (by norm_num) (by norm_num) (by norm_num) (by norm_num) cap).mono (by norm_num; linarith)
  · rw [Complex.im_ofReal_mul]
    exact (rm hc h2.2 cc i1 (by norm_num) (by norm_num) (by norm_num) (by norm_num) cap).mono (by norm_num; linarith)
  · rw [norm_mul, Complex.norm_real, Real.norm_eq_abs]
    refine (mul_le_mul cc n2 (norm_nonneg _) (by linarith)).trans ?_
    norm_num; linarith

end Fad
end Verif
