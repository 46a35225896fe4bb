import Verif.Proofs.BetaCfF

/-!
# The continued fraction of the incomplete beta function in binary64, `b ≤ 1`: the loop
-/

namespace Verif
namespace Bcf
open F64

variable {a b x : F64} {X : ℝ}

noncomputable def xp (X : ℝ) : ℝ := X * (1 + 16 * uu)
noncomputable def xm (X : ℝ) : ℝ := X * (1 - 16 * uu)
noncomputable def kap (X : ℝ) : ℝ := (1 - xp X) / (1 - xm X)
noncomputable def lam (X : ℝ) : ℝ := (1 - 6 * uu) * kap X

structure XX (X : ℝ) : Prop where
  m0 : 0 < xm X
  mX : xm X ≤ X
  Xp : X ≤ xp X
  mp : xm X ≤ xp X
  p1 : xp X ≤ 9991 / 10000
  k0 : 0 < kap X
  k1 : kap X ≤ 1
  l0 : 0 < lam X
  l1 : lam X ≤ 1
  kl : 1 - 32 * uu / (1 - X) ≤ kap X
  ll : 1 - 38 * uu / (1 - X) ≤ lam X

theorem Ctx.xx (H : Ctx a b x X) : XX X := by
  have X0 := H.Xpos
  have X1 := H.x1
  have U := uu_pos
  have U2 := uu_le
  have m0 : 0 < xm X := mul_pos X0 (by norm_num at U2; linarith)
  have mX : xm X ≤ X := by unfold xm; nlinarith
  have Xp : X ≤ xp X := by unfold xp; nlinarith
  have p1 : xp X ≤ 9991 / 10000 := by unfold xp; norm_num at U2; nlinarith
  have k0 : 0 < kap X := div_pos (by linarith) (by linarith)
  have k1 : kap X ≤ 1 := (div_le_one (by linarith)).2 (by linarith)
  have w : 0 < 1 - X := by linarith
  have kl : 1 - 32 * uu / (1 - X) ≤ kap X := by
    have wm : 0 < 1 - xm X := by linarith
    have : kap X = 1 - 32 * uu * X / (1 - xm X) := by
      unfold kap; rw [eq_sub_iff_add_eq, ← add_div, div_eq_one_iff_eq wm.ne']; unfold xp xm; ring
    rw [this]
    have : 32 * uu * X / (1 - xm X) ≤ 32 * uu / (1 - X) := div_le_div₀ (by positivity) (by nlinarith) w (by linarith)
    linarith
  have s : (0:ℝ) < 1 - 6 * uu := by norm_num at U2; linarith
  refine ⟨m0, mX, Xp, mX.trans Xp, p1, k0, k1, mul_pos s k0, ?_, kl, ?_⟩
  · unfold lam; nlinarith
  · have h6 : 6 * uu ≤ 6 * uu / (1 - X) := by rw [le_div_iff₀ w]; nlinarith
    have e : 38 * uu / (1 - X) = 32 * uu / (1 - X) + 6 * uu / (1 - X) := by ring
    unfold lam
    rw [e]
    nlinarith

theorem lam_pow (H : Ctx a b x X) {n : ℕ} (hn : n ≤ 20001) : 1 - 9 / 10^11 / (1 - X) ≤ lam X ^ n ∧ (1/2:ℝ) ≤ lam X ^ n ∧ lam X ^ n ≤ 1 := by
  have hX := H.xx
  have w : 0 < 1 - X := by linarith [H.x1]
  have w2 : 1 / 1000 ≤ 1 - X := by linarith [H.x1]
  have c : (n:ℝ) ≤ 20001 := by exact_mod_cast hn
  have b := one_add_mul_le_pow (a := lam X - 1) (by linarith [hX.l0]) n
  rw [add_sub_cancel] at b
  have t : 1 - 9 / 10^11 / (1 - X) ≤ lam X ^ n := by
    refine le_trans ?_ b
    have : (n:ℝ) * (1 - lam X) ≤ 20001 * (38 * uu / (1 - X)) := mul_le_mul c (by linarith [hX.ll]) (by linarith [hX.l1]) (by norm_num)
    have e : (20001:ℝ) * (38 * uu / (1 - X)) ≤ 9 / 10^11 / (1 - X) := by
      rw [mul_div_assoc']
      exact div_le_div_of_nonneg_right (by unfold uu; norm_num) w.le
    linarith
  refine ⟨t, le_trans ?_ t, pow_le_one₀ hX.l0.le hX.l1⟩
  have : 9 / 10^11 / (1 - X) ≤ 1 / 2 := by rw [div_le_iff₀ w]; norm_num; linarith
  linarith

/-- the state after the half step `k` -/
structure Inv (a b : F64) (X : ℝ) (k : ℕ) (d c h : F64) : Prop where
  hD : ∃ D, SR d (1 / D) 2 ∧ Dk a.val b.val (xp X) k ≤ D ∧ D ≤ Dk a.val b.val (xm X) k
  hC : ∃ C, SR c C 1 ∧ Ck a.val b.val (xp X) k ≤ C ∧ C ≤ Ck a.val b.val (xm X) k
  fh : h.isFin = true
  lo : lam X ^ (k + 1) * cv a.val b.val (xp X) k ≤ h.val
  hi : lam X ^ (k + 1) * h.val ≤ cv a.val b.val (xm X) k

theorem G_ge_one {a b x : ℝ} (H : Neg a b) (h0 : 0 < x) (h1 : x < 1) : 1 ≤ G a b x 1 := by
  have := H.ha; have := H.hb
  unfold G; exact Hyp.F_ge_one (by positivity) (Nat.cast_nonneg _) (by positivity) h0.le h1

theorem cv_range {a b x : ℝ} (H : Neg a b) (h0 : 0 < x) (h1 : x < 1) (k : ℕ) : 1 - x ≤ cv a b x k ∧ cv a b x k ≤ 1 / (1 - x) := by
  refine ⟨?_, (cv_le H h0 h1 k).trans (G_le H h0 h1)⟩
  refine le_trans ?_ (cv_tail H h0 h1 k)
  have g := G_ge_one H h0 h1
  have p : x ^ (k + 1) ≤ x := pow_le_of_le_one h0.le h1.le (by omega)
  nlinarith

/-- one rounded step of a ratio -/
theorem rsr {z : F64} {E : ℝ} (hv : z.val = RN E) (h1 : 9 / 10^4 ≤ E) (h2 : E ≤ 1) :
    SR z E 1 ∧ guardTiny z = z ∧ SR (1.0 / z) (1 / E) 2 := by
  have E0 : 0 < E := lt_of_lt_of_le (by norm_num) h1
  have s : SR z E 1 := (sr_round (k := 0) (e := 0) hv (rng_n (by norm_num at h1 ⊢; linarith) (by norm_num; linarith)) le_rfl (by norm_num) (by norm_num) (by simp)).mono (by norm_num)
  refine ⟨s, guard_id s.fin ?_, ?_⟩
  · have := s.err
    rw [abs_of_pos E0] at this
    have := (abs_le.1 this).1
    have := uu_le
    have := uu_pos
    norm_num at *; nlinarith
  · have r1 : 1 ≤ 1 / E := by rw [le_div_iff₀ E0]; linarith
    have r2 : 1 / E ≤ 10^4 := by rw [div_le_iff₀ E0]; norm_num at h1 ⊢; linarith
    exact (sr_div one_sr s E0 (rng_n (by norm_num at r1 ⊢; linarith) (by norm_num at r2 ⊢; linarith)) le_rfl (by norm_num) (by norm_num) (by norm_num)).mono (by norm_num)

/-- the perturbed coefficient -/
theorem pert {t : F64} {P E : ℝ} (hE : 0 < E) (hP : 0 ≤ P) (h : SR t (-(P / E)) 15) :
    P * (1 - 16 * uu) ≤ -t.val * E ∧ -t.val * E ≤ P * (1 + 16 * uu) := by
  have e := h.err
  rw [abs_neg, abs_of_nonneg (div_nonneg hP hE.le)] at e
  have e2 : |t.val - -(P / E)| * E ≤ 15 * uu * P := by
    calc _ ≤ 15 * uu * (P / E) * E := mul_le_mul_of_nonneg_right e hE.le
      _ = _ := by field_simp
  rw [show |t.val - -(P / E)| * E = |(-t.val * E) - P| by
    rw [← abs_of_pos hE, ← abs_mul, abs_of_pos hE, show (t.val - -(P / E)) * E = -((-t.val * E) - P) by field_simp; ring, abs_neg]] at e2
  obtain ⟨l, r⟩ := abs_le.1 e2
  have := uu_pos
  have : 0 ≤ uu * P := by positivity
  constructor <;> nlinarith

set_option maxHeartbeats 1000000 in
theorem half_step (H : Ctx a b x X) {k : ℕ} {d c h aa : F64} (I : Inv a b X k d c h) (hk : k + 1 ≤ 20000)
    (ha : SR aa (-pk a.val b.val X (k + 1)) 12) (hp : pk a.val b.val X (k + 1) = 0 ∨ 1 / 10^296 ≤ pk a.val b.val X (k + 1)) :
    Inv a b X (k + 1) (1.0 / guardTiny (1.0 + aa * d)) (guardTiny (1.0 + aa / c)) (h * (1.0 / guardTiny (1.0 + aa * d) * guardTiny (1.0 + aa / c)))
    ∧ ∃ q, SR (1.0 / guardTiny (1.0 + aa * d) * guardTiny (1.0 + aa / c)) q 4 ∧
        Ck a.val b.val (xp X) (k + 1) / Dk a.val b.val (xm X) (k + 1) ≤ q := by
  have hX := H.xx
  have N := H.neg
  have P0 := N.pk0 H.Xpos.le (k + 1)
  have P1 : pk a.val b.val X (k + 1) ≤ 1 := by
    unfold pk
    have := N.g0 (k + 1); have := N.g1 (k + 1); have := N.g0 (k + 1 + 1); have := N.g1 (k + 1 + 1)
    have h1 : (1 - g a.val b.val (k + 1)) * g a.val b.val (k + 1 + 1) ≤ 1 := mul_le_one₀ (by linarith) (by assumption) (by assumption)
    have h0 : 0 ≤ (1 - g a.val b.val (k + 1)) * g a.val b.val (k + 1 + 1) := mul_nonneg (by linarith) (by assumption)
    exact mul_le_one₀ h1 H.Xpos.le (by linarith [H.x1])
  have pp : pk a.val b.val (xp X) (k + 1) = pk a.val b.val X (k + 1) * (1 + 16 * uu) := by unfold pk xp; ring
  have pm : pk a.val b.val (xm X) (k + 1) = pk a.val b.val X (k + 1) * (1 - 16 * uu) := by unfold pk xm; ring
  have pm0 := N.pk0 hX.m0.le (k + 1)
  have p0 : 0 < xp X := lt_of_lt_of_le hX.m0 hX.mp
  have p1 : xp X < 1 := lt_of_le_of_lt hX.p1 (by norm_num)
  have m1 : xm X < 1 := lt_of_le_of_lt hX.mp p1
  have l9 : ∀ {y}, 1 - xp X ≤ y → 9 / 10^4 ≤ y := fun h => le_trans (by have := hX.p1; norm_num; linarith) h
  have DkS : ∀ y, Dk a.val b.val y (k + 1) = 1 - pk a.val b.val y (k + 1) / Dk a.val b.val y k := fun _ => rfl
  have CkS : ∀ y, Ck a.val b.val y (k + 1) = 1 - pk a.val b.val y (k + 1) / Ck a.val b.val y k := fun _ => rfl
  have rg : ∀ {E : ℝ}, 9 / 10^4 ≤ E → E ≤ 1 → Rng (-(pk a.val b.val X (k + 1) / E)) := by
    intro E h1 h2
    have E0 : 0 < E := lt_of_lt_of_le (by norm_num) h1
    apply rng_neg
    rcases hp with h | h
    · rw [h, zero_div]; exact Or.inl rfl
    · refine rng_of ?_ ?_
      · refine le_trans (one_div_le_one_div_of_le (by positivity) (pow_le_pow_right₀ (by norm_num) (by norm_num))) (h.trans ?_)
        rw [le_div_iff₀ E0]; nlinarith
      · rw [div_le_iff₀ E0]; norm_num at h1 ⊢; linarith
  -- the denominator
  obtain ⟨D, d1, d2, d3⟩ := I.hD
  have Dge := Dk_ge N p0.le p1 k
  have Dle := (Dk_low N hX.m0.le m1 k).2
  have D9 := l9 (Dge.trans d2)
  have D0 : 0 < D := lt_of_lt_of_le (by norm_num) D9
  have t1 : SR (aa * d) (-(pk a.val b.val X (k + 1) / D)) 15 := by
    have := sr_mul ha d1 (by rw [show -pk a.val b.val X (k + 1) * (1 / D) = -(pk a.val b.val X (k + 1) / D) by ring]; exact rg D9 (d3.trans Dle)) (by norm_num) (by norm_num) (by norm_num) (by norm_num)
    rw [show -pk a.val b.val X (k + 1) * (1 / D) = -(pk a.val b.val X (k + 1) / D) by ring] at this
    exact this.mono (by norm_num)
  obtain ⟨e1, e2⟩ := pert D0 P0 t1
  rw [← pm] at e1
  rw [← pp] at e2
  have sD := sand_step (lt_of_lt_of_le (by linarith) Dge) d2 d3 pm0 e1 e2
  rw [← DkS, ← DkS, show 1 - -(aa * d).val * D / D = 1 + (aa * d).val by field_simp; ring] at sD
  have vD := (add_spec (show (1.0:F64).isFin = true by decide +kernel) t1.fin).2
  rw [one_val] at vD
  obtain ⟨D', hD'⟩ : ∃ D', D' = 1 + (aa * d).val := ⟨_, rfl⟩
  rw [← hD'] at sD vD
  have Dp9 : 9 / 10^4 ≤ D' := l9 ((Dk_ge N p0.le p1 (k + 1)).trans sD.1)
  have Dp1 := sD.2.trans (Dk_low N hX.m0.le m1 (k + 1)).2
  obtain ⟨_, g1, i1⟩ := rsr vD Dp9 Dp1
  -- the numerator
  obtain ⟨C, c1, c2, c3⟩ := I.hC
  have Cge := Ck_ge N p0.le p1 k
  have Cle := (Ck_low N hX.m0.le m1 k).2
  have C9 := l9 (Cge.trans c2)
  have C0 : 0 < C := lt_of_lt_of_le (by norm_num) C9
  have t2 : SR (aa / c) (-(pk a.val b.val X (k + 1) / C)) 15 := by
    have := sr_div ha c1 C0 (by rw [neg_div]; exact rg C9 (c3.trans Cle)) (by norm_num) (by norm_num) (by norm_num) (by norm_num)
    rw [neg_div] at this
    exact this.mono (by norm_num)
  obtain ⟨f1, f2⟩ := pert C0 P0 t2
  rw [← pm] at f1
  rw [← pp] at f2
  have sC := sand_step (lt_of_lt_of_le (by linarith) Cge) c2 c3 pm0 f1 f2
  rw [← CkS, ← CkS, show 1 - -(aa / c).val * C / C = 1 + (aa / c).val by field_simp; ring] at sC
  have vC := (add_spec (show (1.0:F64).isFin = true by decide +kernel) t2.fin).2
  rw [one_val] at vC
  obtain ⟨C', hC'⟩ : ∃ C', C' = 1 + (aa / c).val := ⟨_, rfl⟩
  rw [← hC'] at sC vC
  have Cp9 : 9 / 10^4 ≤ C' := l9 ((Ck_ge N p0.le p1 (k + 1)).trans sC.1)
  have Cp1 := sC.2.trans (Ck_low N hX.m0.le m1 (k + 1)).2
  obtain ⟨i2, g2, _⟩ := rsr vC Cp9 Cp1
  rw [g1, g2]
  generalize (1.0 + aa * d) = s at i1
  generalize (1.0 + aa / c) = c' at i2
  have D'0 : 0 < D' := lt_of_lt_of_le (by norm_num) Dp9
  have C'0 : 0 < C' := lt_of_lt_of_le (by norm_num) Cp9
  -- their ratio
  have qe : 1 / D' * C' = C' / D' := by ring
  have q0 : 0 < C' / D' := div_pos C'0 D'0
  have q1 : 9 / 10^4 ≤ C' / D' := by rw [le_div_iff₀ D'0]; nlinarith
  have q2 : C' / D' ≤ 10^4 := by rw [div_le_iff₀ D'0]; norm_num at Dp9 ⊢; linarith
  have dl : SR (1.0 / s * c') (C' / D') 4 := by
    have := sr_mul i1 i2 (by rw [qe]; exact rng_n (by norm_num at q1 ⊢; linarith) (by norm_num at q2 ⊢; linarith)) (by norm_num) (by norm_num) (by norm_num) (by norm_num)
    rw [qe] at this
    exact this.mono (by norm_num)
  have DP0 := Dk_pos N p0.le p1 (k + 1)
  have DM0 := Dk_pos N hX.m0.le m1 (k + 1)
  have CP0 := Ck_pos N p0.le p1 (k + 1)
  have rat := Dk_ratio N hX.m0.le hX.mp p1 (k + 1)
  rw [show (1 - xp X) / (1 - xm X) = kap X from rfl] at rat
  have q3 : Ck a.val b.val (xp X) (k + 1) / Dk a.val b.val (xm X) (k + 1) ≤ C' / D' := div_le_div₀ C'0.le sC.1 D'0 sD.2
  have q4 : kap X * (C' / D') ≤ Ck a.val b.val (xm X) (k + 1) / Dk a.val b.val (xm X) (k + 1) := by
    rw [mul_div_assoc', div_le_div_iff₀ D'0 DM0]
    calc kap X * C' * Dk a.val b.val (xm X) (k + 1) = C' * (kap X * Dk a.val b.val (xm X) (k + 1)) := by ring
      _ ≤ Ck a.val b.val (xm X) (k + 1) * D' := mul_le_mul sC.2 (rat.trans sD.1) (mul_nonneg hX.k0.le DM0.le) (C'0.le.trans sC.2)
  have q5 : kap X * (Ck a.val b.val (xp X) (k + 1) / Dk a.val b.val (xp X) (k + 1)) ≤ C' / D' := by
    refine le_trans ?_ q3
    rw [mul_div_assoc', div_le_div_iff₀ DP0 DM0]
    calc kap X * Ck a.val b.val (xp X) (k + 1) * Dk a.val b.val (xm X) (k + 1) = Ck a.val b.val (xp X) (k + 1) * (kap X * Dk a.val b.val (xm X) (k + 1)) := by ring
      _ ≤ _ := mul_le_mul_of_nonneg_left rat CP0.le
  -- the value
  obtain ⟨w1, w2, w3⟩ := lam_pow H (n := k + 1) (by omega)
  have cp := cv_range N p0 p1 k
  have cm := cv_range N hX.m0 m1 k
  have h9 : 4 / 10^4 ≤ h.val := by
    refine le_trans ?_ I.lo
    have : (9:ℝ) / 10^4 ≤ cv a.val b.val (xp X) k := l9 cp.1
    have := mul_le_mul w2 this (by norm_num) (by linarith)
    norm_num at this ⊢; linarith
  have h0 : 0 < h.val := lt_of_lt_of_le (by norm_num) h9
  have h4 : h.val ≤ 10^4 := by
    have h1 : 1 / (1 - xm X) ≤ 2000 := by
      have := hX.p1; have := hX.mp
      rw [div_le_iff₀ (by linarith)]; linarith
    have h2 : (1/2) * h.val ≤ lam X ^ (k + 1) * h.val := mul_le_mul_of_nonneg_right w2 h0.le
    have := I.hi
    norm_num; linarith [cm.2]
  have hh : SR (h * (1.0 / s * c')) (h.val * (C' / D')) 5 := by
    have r1 : (4:ℝ) / 10^4 * (9 / 10^4) ≤ h.val * (C' / D') := mul_le_mul h9 q1 (by norm_num) h0.le
    have r2 : h.val * (C' / D') ≤ 10^4 * 10^4 := mul_le_mul h4 q2 q0.le (by norm_num)
    exact (sr_mul (sr_self I.fh) dl (rng_n (by norm_num at r1 ⊢; linarith) (by norm_num at r2 ⊢; linarith)) le_rfl (by norm_num) (by norm_num) (by norm_num)).mono (by norm_num)
  have he := hh.err
  have v0 : 0 < h.val * (C' / D') := mul_pos h0 q0
  rw [abs_of_pos v0] at he
  obtain ⟨y1, y2⟩ := abs_le.1 he
  have U := uu_pos
  have U2 := uu_le
  refine ⟨⟨⟨D', i1, sD⟩, ⟨C', i2, sC⟩, hh.fin, ?_, ?_⟩, C' / D', dl, q3⟩
  · rw [cv_ratio]
    calc lam X ^ (k + 1 + 1) * (cv a.val b.val (xp X) k * (Ck a.val b.val (xp X) (k + 1) / Dk a.val b.val (xp X) (k + 1)))
        = (1 - 6 * uu) * ((lam X ^ (k + 1) * cv a.val b.val (xp X) k) * (kap X * (Ck a.val b.val (xp X) (k + 1) / Dk a.val b.val (xp X) (k + 1)))) := by
          rw [pow_succ (lam X) (k + 1)]; unfold lam; ring
      _ ≤ (1 - 6 * uu) * (h.val * (C' / D')) := by
          refine mul_le_mul_of_nonneg_left (mul_le_mul I.lo q5 (mul_nonneg hX.k0.le (div_pos CP0 DP0).le) h0.le) (by norm_num at U2; linarith)
      _ ≤ _ := by nlinarith
  · rw [cv_ratio]
    have z : (1 - 6 * uu) * (h * (1.0 / s * c')).val ≤ h.val * (C' / D') := by
      have : (h * (1.0 / s * c')).val ≤ (1 + 5 * uu) * (h.val * (C' / D')) := by linarith
      have := mul_le_mul_of_nonneg_left this (show 0 ≤ 1 - 6 * uu by norm_num at U2; linarith)
      refine this.trans ?_
      rw [← mul_assoc]
      exact mul_le_of_le_one_left v0.le (by nlinarith)
    calc lam X ^ (k + 1 + 1) * (h * (1.0 / s * c')).val = lam X ^ (k + 1) * kap X * ((1 - 6 * uu) * (h * (1.0 / s * c')).val) := by
          rw [pow_succ (lam X) (k + 1)]; unfold lam; ring
      _ ≤ lam X ^ (k + 1) * kap X * (h.val * (C' / D')) := mul_le_mul_of_nonneg_left z (mul_nonneg (by linarith) hX.k0.le)
      _ = (lam X ^ (k + 1) * h.val) * (kap X * (C' / D')) := by ring
      _ ≤ _ := mul_le_mul I.hi q4 (mul_nonneg hX.k0.le q0.le) (le_trans (by linarith [hX.p1, hX.mp]) cm.1)

theorem init_inv (H : Ctx a b x X) :
    Inv a b X 0 (1.0 / guardTiny (1.0 - (a + b) * x / (a + 1.0))) 1.0 (1.0 / guardTiny (1.0 - (a + b) * x / (a + 1.0))) := by
  have hX := H.xx
  have N := H.neg
  have P0 := N.pk0 H.Xpos.le 0
  have p0 : 0 < xp X := lt_of_lt_of_le hX.m0 hX.mp
  have p1 : xp X < 1 := lt_of_le_of_lt hX.p1 (by norm_num)
  have m1 : xm X < 1 := lt_of_le_of_lt hX.mp p1
  have pp : pk a.val b.val (xp X) 0 = pk a.val b.val X 0 * (1 + 16 * uu) := by unfold pk xp; ring
  have pm : pk a.val b.val (xm X) 0 = pk a.val b.val X 0 * (1 - 16 * uu) := by unfold pk xm; ring
  have I := init_sr H
  have e := I.err
  rw [abs_of_nonneg P0] at e
  obtain ⟨e1, e2⟩ := abs_le.1 e
  have U := uu_pos
  have U2 := uu_le
  have UP : 0 ≤ uu * pk a.val b.val X 0 := by positivity
  have v := (sub_spec (show (1.0:F64).isFin = true by decide +kernel) I.fin).2
  rw [one_val] at v
  obtain ⟨D, hD⟩ : ∃ D, D = 1 - ((a + b) * x / (a + 1.0)).val := ⟨_, rfl⟩
  rw [← hD] at v
  have s1 : Dk a.val b.val (xp X) 0 ≤ D := by show 1 - _ ≤ _; rw [pp, hD]; nlinarith
  have s2 : D ≤ Dk a.val b.val (xm X) 0 := by show _ ≤ 1 - _; rw [pm, hD]; nlinarith
  have D9 : 9 / 10^4 ≤ D := le_trans (by have := hX.p1; norm_num; linarith) ((Dk_ge N p0.le p1 0).trans s1)
  have D0 : 0 < D := lt_of_lt_of_le (by norm_num) D9
  obtain ⟨_, g1, i1⟩ := rsr v D9 (s2.trans (Dk_low N hX.m0.le m1 0).2)
  rw [g1]
  have ie := i1.err
  rw [abs_of_pos (one_div_pos.2 D0)] at ie
  obtain ⟨y1, y2⟩ := abs_le.1 ie
  have DP0 := Dk_pos N p0.le p1 0
  have DM0 := Dk_pos N hX.m0.le m1 0
  have rat := Dk_ratio N hX.m0.le hX.mp p1 0
  rw [show (1 - xp X) / (1 - xm X) = kap X from rfl] at rat
  have cvz : ∀ y, cv a.val b.val y 0 = 1 / Dk a.val b.val y 0 := fun _ => rfl
  have i0 : 0 < 1 / D := one_div_pos.2 D0
  refine ⟨⟨D, i1, s1, s2⟩, ⟨1, one_sr.mono (by norm_num), le_rfl, le_rfl⟩, i1.fin, ?_, ?_⟩
  · rw [cvz, zero_add, pow_one]
    have : kap X * (1 / Dk a.val b.val (xp X) 0) ≤ 1 / D := by
      rw [mul_one_div, div_le_div_iff₀ DP0 D0]
      have := mul_le_mul_of_nonneg_left s2 hX.k0.le
      linarith
    have := mul_le_mul_of_nonneg_left this (show 0 ≤ 1 - 6 * uu by norm_num at U2; linarith)
    unfold lam
    nlinarith
  · rw [cvz, zero_add, pow_one]
    have : kap X * (1 / D) ≤ 1 / Dk a.val b.val (xm X) 0 := by
      rw [mul_one_div, div_le_div_iff₀ D0 DM0]; linarith
    refine le_trans ?_ this
    have z : (1 - 6 * uu) * (1.0 / (1.0 - (a + b) * x / (a + 1.0)) : F64).val ≤ 1 / D := by
      have : (1.0 / (1.0 - (a + b) * x / (a + 1.0)) : F64).val ≤ (1 + 5 * uu) * (1 / D) := by nlinarith
      have := mul_le_mul_of_nonneg_left this (show 0 ≤ 1 - 6 * uu by norm_num at U2; linarith)
      refine this.trans ?_
      rw [← mul_assoc]
      exact mul_le_of_le_one_left i0.le (by nlinarith)
    unfold lam
    calc _ = kap X * ((1 - 6 * uu) * (1.0 / (1.0 - (a + b) * x / (a + 1.0)) : F64).val) := by ring
      _ ≤ _ := mul_le_mul_of_nonneg_left z hX.k0.le

end Bcf
end Verif
