import Verif.Proofs.BetaCfG

/-!
# The continued fraction of the incomplete beta function in binary64, `b ≤ 1`: its value
-/

namespace Verif
namespace Bcf
open F64

variable {a b x : F64} {X : ℝ}

theorem step_inv (H : Ctx a b x X) {j : ℕ} (hj : j + 1 ≤ 9999) {c d h : F64} (I : Inv a b X (2 * j) d c h) :
    Inv a b X (2 * j + 2) (betacfStep a b x (a + b) (a + 1.0) (a - 1.0) (j + 1) c d h).2.1
      (betacfStep a b x (a + b) (a + 1.0) (a - 1.0) (j + 1) c d h).1 (betacfStep a b x (a + b) (a + 1.0) (a - 1.0) (j + 1) c d h).2.2.1
    ∧ ∃ q, SR (betacfStep a b x (a + b) (a + 1.0) (a - 1.0) (j + 1) c d h).2.2.2 q 4 ∧
        Ck a.val b.val (xp X) (2 * j + 2) / Dk a.val b.val (xm X) (2 * j + 2) ≤ q := by
  unfold betacfStep
  dsimp only
  simp only [ar_ofNat]
  obtain ⟨s1, g1⟩ := even_sr H (m := j + 1) (by omega) (by omega)
  obtain ⟨s2, g2⟩ := odd_sr H (m := j + 1) (by omega) (by omega)
  rw [show 2 * (j + 1) - 1 = 2 * j + 1 by omega] at s1 g1
  rw [show 2 * (j + 1) = 2 * j + 1 + 1 by omega] at s2 g2
  have I1 := (half_step H I (by omega) s1 g1).1
  exact half_step H I1 (by omega) s2 g2

theorem stop_le {del : F64} {q : ℝ} (h : SR del q 4) (q0 : 0 < q) (hs : F64.le (F64.abs (del - 1.0)) EPS = true) : q ≤ 1 + 8 * uu := by
  have U := uu_pos
  have U2 := uu_le
  have s := (sub_spec h.fin (show (1.0:F64).isFin = true by decide +kernel)).2
  have l := (le_iff.1 hs).2.2
  rw [val_abs, s, one_val, lit_EPS_val] at l
  have e := h.err
  rw [abs_of_pos q0] at e
  have e1 := (abs_le.1 e).1
  by_contra hc
  have hc := lt_of_not_ge hc
  have d1 : 1 + 3 * uu ≤ del.val := by
    norm_num at U2; nlinarith
  have m := RN_mono (show 3 * uu ≤ del.val - 1 by linarith)
  have r := rn_rel (x := 3 * uu) (by
    rw [abs_of_pos (by linarith)]
    have : (1:ℝ) / 2^1022 ≤ 1 / 2^60 := one_div_le_one_div_of_le (by positivity) (pow_le_pow_right₀ (by norm_num) (by norm_num))
    refine this.trans ?_
    unfold uu; norm_num) (by
    rw [abs_of_pos (by linarith)]
    exact le_trans (show 3 * uu ≤ 1 by unfold uu; norm_num) (one_le_pow₀ (by norm_num)))
  have r2 := (abs_le.1 r.2.1).1
  rw [abs_of_pos (show 0 < 3 * uu by linarith)] at r2
  have := le_abs_self (RN (del.val - 1))
  have f : (2:ℝ)^(-52:ℤ) < 3 * uu - 3 * uu / 2^53 := by unfold uu; norm_num
  generalize (2:ℝ)^(-52:ℤ) = t at l f
  generalize 3 * uu / 2^53 = t2 at r2 f
  linarith

/-- what the loop returns -/
def Res (a b : F64) (X : ℝ) (r : F64) : Prop :=
  r.isFin = true ∧ ∃ k ≤ 19998, lam X ^ (k + 1) * cv a.val b.val (xp X) k ≤ r.val ∧ lam X ^ (k + 1) * r.val ≤ cv a.val b.val (xm X) k ∧
    (k = 19998 ∨ ∃ j, k = 2 * j + 2 ∧ Ck a.val b.val (xp X) k / Dk a.val b.val (xm X) k ≤ 1 + 8 * uu)

theorem loop_res (H : Ctx a b x X) : ∀ (n j : ℕ) (c d h : F64), j + n = 9999 → Inv a b X (2 * j) d c h →
    Res a b X (betacfLoop a b x (a + b) (a + 1.0) (a - 1.0) n (j + 1) c d h) := by
  intro n
  induction n with
  | zero =>
    intro j c d h hj I
    rw [show j = 9999 by omega] at I
    unfold betacfLoop
    exact ⟨I.fh, 19998, le_rfl, I.lo, I.hi, Or.inl rfl⟩
  | succ n ih =>
    intro j c d h hj I
    unfold betacfLoop
    dsimp only
    rw [ar_le, ar_abs]
    obtain ⟨I2, q, sq, lq⟩ := step_inv H (show j + 1 ≤ 9999 by omega) I
    generalize betacfStep a b x (a + b) (a + 1.0) (a - 1.0) (j + 1) c d h = r at I2 sq
    by_cases hs : F64.le (F64.abs (r.2.2.2 - 1.0)) EPS = true
    · rw [if_pos hs]
      have hX := H.xx
      have p0 : 0 < xp X := lt_of_lt_of_le hX.m0 hX.mp
      have p1 : xp X < 1 := lt_of_le_of_lt hX.p1 (by norm_num)
      have q0 : 0 < q := lt_of_lt_of_le (div_pos (Ck_pos H.neg p0.le p1 _) (Dk_pos H.neg hX.m0.le (lt_of_le_of_lt hX.mp p1) _)) lq
      exact ⟨I2.fh, 2 * j + 2, by omega, I2.lo, I2.hi, Or.inr ⟨j, rfl, lq.trans (stop_le sq q0 hs)⟩⟩
    · rw [if_neg hs]
      exact ih (j + 1) _ _ _ (by omega) I2

theorem Ck_ge_Dk {a b x : ℝ} (H : Neg a b) (h0 : 0 ≤ x) (h1 : x < 1) (k : ℕ) : Dk a b x k ≤ Ck a b x k := by
  induction k with
  | zero =>
    show 1 - _ ≤ (1:ℝ)
    linarith [H.pk0 h0 0]
  | succ k ih =>
    show 1 - _ / _ ≤ 1 - _ / _
    have := div_le_div_of_nonneg_left (H.pk0 h0 (k + 1)) (Dk_pos H h0 h1 k) ih
    linarith

/-- the value of the continued fraction -/
theorem cf_val (H : Ctx a b x X) {r : F64} (R : Res a b X r) :
    |r.val - G a.val b.val X 1| ≤ (6.001 / 10^9 + 12 / 10^11 / (1 - X)) * G a.val b.val X 1 := by
  obtain ⟨fr, k, hk, lo, hi, hs⟩ := R
  have hX := H.xx
  have N := H.neg
  have U := uu_pos
  have U2 := uu_le
  have p0 : 0 < xp X := lt_of_lt_of_le hX.m0 hX.mp
  have p1 : xp X < 1 := lt_of_le_of_lt hX.p1 (by norm_num)
  have m1 : xm X < 1 := lt_of_le_of_lt hX.mp p1
  have X1 : X < 1 := lt_of_le_of_lt hX.Xp p1
  have w : 0 < 1 - X := by linarith
  have w3 : 1 / 1000 ≤ 1 - X := by linarith [H.x1]
  have wp : (9:ℝ) / 10 * (1 - X) ≤ 1 - xp X := by
    have : xp X - X = 16 * uu * X := by unfold xp; ring
    have : 16 * uu * X ≤ 16 * (2 / 10^16) * 1 := by
      have := H.x1; have := H.Xpos
      exact mul_le_mul (by linarith) (by linarith) (by linarith) (by norm_num)
    norm_num at this; linarith
  obtain ⟨l1, l2, l3⟩ := lam_pow H (n := k + 1) (by omega)
  have l0 : 0 < lam X ^ (k + 1) := by linarith
  have gp := G_ge_one N p0 p1
  have gX := G_ge_one N H.Xpos X1
  have mono1 := G_mono N hX.m0.le hX.mX X1
  have mono2 := G_mono N H.Xpos.le hX.Xp p1
  obtain ⟨iw, hiw⟩ : ∃ i, i = 1 / (1 - X) := ⟨_, rfl⟩
  have iw1 : 1 ≤ iw := by rw [hiw, le_div_iff₀ w]; linarith [H.Xpos]
  have iw2 : iw ≤ 1000 := by rw [hiw, div_le_iff₀ w]; linarith
  rw [show (9:ℝ) / 10^11 / (1 - X) = 9 / 10^11 * iw by rw [hiw]; ring] at l1
  rw [show (12:ℝ) / 10^11 / (1 - X) = 12 / 10^11 * iw by rw [hiw]; ring]
  have low : (1 - (6.0005 / 10^9 + 2 / 10^11 * iw)) * G a.val b.val (xp X) 1 ≤ cv a.val b.val (xp X) k := by
    rcases hs with rfl | ⟨j, rfl, hq⟩
    · refine le_trans ?_ (cv_tail N p0 p1 19998)
      refine mul_le_mul_of_nonneg_right ?_ (by linarith)
      have := pow_tail (x := xp X) (N := 19998 + 1) p0.le (by
        have : xp X - X = 16 * uu * X := by unfold xp; ring
        have : 16 * uu * X ≤ 16 * (2 / 10^16) * 1 := by
          have := H.x1; have := H.Xpos
          exact mul_le_mul (by linarith) (by linarith) (by linarith) (by norm_num)
        norm_num at this w3 ⊢; linarith)
      norm_num at this ⊢; linarith
    · have rat := Dk_ratio N hX.m0.le hX.mp p1 (2 * j + 2)
      rw [show (1 - xp X) / (1 - xm X) = kap X from rfl] at rat
      have DP0 := Dk_pos N p0.le p1 (2 * j + 2)
      have DM0 := Dk_pos N hX.m0.le m1 (2 * j + 2)
      have CD := Ck_ge_Dk N p0.le p1 (2 * j + 2)
      have kl := hX.kl
      rw [show 32 * uu / (1 - X) = 32 * uu * iw by rw [hiw]; ring] at kl
      have k9 : (9:ℝ)/10 ≤ kap X := by norm_num at U2; nlinarith
      -- C(x+)/D(x+) ≤ (1 + 8u)/κ
      have z1 : kap X * (Ck a.val b.val (xp X) (2 * j + 2) / Dk a.val b.val (xp X) (2 * j + 2)) ≤ 1 + 8 * uu := by
        refine le_trans ?_ hq
        rw [mul_div_assoc', div_le_div_iff₀ DP0 DM0]
        calc _ = Ck a.val b.val (xp X) (2 * j + 2) * (kap X * Dk a.val b.val (xm X) (2 * j + 2)) := by ring
          _ ≤ _ := mul_le_mul_of_nonneg_left rat (DP0.le.trans CD)
      have z2 : 1 ≤ Ck a.val b.val (xp X) (2 * j + 2) / Dk a.val b.val (xp X) (2 * j + 2) := (one_le_div DP0).2 CD
      generalize hρ : Ck a.val b.val (xp X) (2 * j + 2) / Dk a.val b.val (xp X) (2 * j + 2) = ρ at *
      have z3 : ρ - 1 ≤ 50 * uu * iw := by
        have : kap X * (ρ - 1) ≤ 40 * uu * iw := by nlinarith
        have : (9:ℝ)/10 * (ρ - 1) ≤ kap X * (ρ - 1) := mul_le_mul_of_nonneg_right k9 (by linarith)
        have : 0 ≤ uu * iw := by positivity
        linarith
      have ip : 1 / (1 - xp X) ≤ 10 / 9 * iw := by
        rw [hiw, div_le_iff₀ (by linarith), mul_one_div, div_mul_eq_mul_div, le_div_iff₀ w]; linarith
      have uw : 50 * uu * iw ≤ 2 / 10^11 := by
        calc _ ≤ 50 * (2 / 10^16) * 1000 := mul_le_mul (by linarith) iw2 (by linarith) (by norm_num)
          _ ≤ _ := by norm_num
      have st := cv_stop N p0 p1 (j := j) (e := 50 * uu * iw) (by positivity) (by
        have : 1 + 1 / (1 - xp X) ≤ 3000 := by linarith
        have h0 : 0 ≤ 1 + 1 / (1 - xp X) := by have := one_div_pos.2 (show 0 < 1 - xp X by linarith); linarith
        calc _ ≤ (2 / 10^11) * (3000:ℝ) := mul_le_mul uw this h0 (by norm_num)
          _ ≤ _ := by norm_num) (by rw [hρ, abs_of_nonneg (by linarith)]; exact z3)
      refine le_trans ?_ st
      refine mul_le_mul_of_nonneg_right ?_ (by linarith)
      have : 2 * (50 * uu * iw) / (1 - xp X) ≤ 2 / 10^11 * iw := by
        calc 2 * (50 * uu * iw) / (1 - xp X) = 2 * (50 * uu * iw) * (1 / (1 - xp X)) := by ring
          _ ≤ 2 * (50 * uu * iw) * (10 / 9 * iw) := mul_le_mul_of_nonneg_left ip (by positivity)
          _ = (50 * 2 * 10 / 9 * uu * iw) * iw := by ring
          _ ≤ _ := by
            refine mul_le_mul_of_nonneg_right ?_ (by linarith)
            calc _ ≤ 50 * 2 * 10 / 9 * uu * 1000 := mul_le_mul_of_nonneg_left iw2 (by positivity)
              _ ≤ _ := by unfold uu; norm_num
      linarith
  have e0 : 0 ≤ 6.0005 / 10^9 + 2 / 10^11 * iw := by positivity
  have e1 : 6.0005 / 10^9 + 2 / 10^11 * iw ≤ 1 / 10^7 := by norm_num; linarith
  rw [abs_le]
  constructor
  · have s1 : (1 - 9 / 10^11 * iw) * ((1 - (6.0005 / 10^9 + 2 / 10^11 * iw)) * G a.val b.val X 1) ≤ r.val := by
      refine le_trans ?_ lo
      refine mul_le_mul l1 (le_trans (mul_le_mul_of_nonneg_left mono2 (by norm_num at e1 ⊢; linarith)) low) (mul_nonneg (by norm_num at e1 ⊢; linarith) (by linarith)) l0.le
    have s2 : 1 - (6.001 / 10^9 + 12 / 10^11 * iw) ≤ (1 - 9 / 10^11 * iw) * (1 - (6.0005 / 10^9 + 2 / 10^11 * iw)) := by norm_num; nlinarith
    have := mul_le_mul_of_nonneg_right s2 (show 0 ≤ G a.val b.val X 1 by linarith)
    nlinarith
  · have s1 : (1 - 9 / 10^11 * iw) * r.val ≤ G a.val b.val X 1 := by
      have r0 : 0 ≤ r.val := le_trans (mul_nonneg l0.le (le_trans (by linarith) (cv_range N p0 p1 k).1)) lo
      exact (mul_le_mul_of_nonneg_right l1 r0).trans (hi.trans ((cv_le N hX.m0 m1 k).trans mono1))
    have s2 : 1 ≤ (1 - 9 / 10^11 * iw) * (1 + (6.001 / 10^9 + 12 / 10^11 * iw)) := by norm_num; nlinarith
    have s3 := mul_le_mul_of_nonneg_right s2 (show 0 ≤ G a.val b.val X 1 by linarith)
    have pz : 0 < 1 - 9 / 10^11 * iw := by norm_num; linarith
    have : (1 - 9 / 10^11 * iw) * r.val ≤ (1 - 9 / 10^11 * iw) * ((1 + (6.001 / 10^9 + 12 / 10^11 * iw)) * G a.val b.val X 1) := by nlinarith
    have := le_of_mul_le_mul_left this pz
    linarith

theorem betacf_f64 (H : Ctx a b x X) : (betacf a b x).isFin = true ∧
    |(betacf a b x).val - G a.val b.val X 1| ≤ (6.001 / 10^9 + 12 / 10^11 / (1 - X)) * G a.val b.val X 1 := by
  have R := loop_res H 9999 0 _ _ _ (by norm_num) (init_inv H)
  have e : betacf a b x = betacfLoop a b x (a + b) (a + 1.0) (a - 1.0) 9999 (0 + 1) 1.0 (1.0 / guardTiny (1.0 - (a + b) * x / (a + 1.0))) (1.0 / guardTiny (1.0 - (a + b) * x / (a + 1.0))) := rfl
  rw [e]
  exact ⟨R.1, cf_val H R⟩

end Bcf
end Verif
