import Verif.Proofs.BesselKF4
import Verif.Proofs.GcfF8

/-!
# `Kn` for `x ≥ 750` (src/bessel.rs): a refutation of C75

`exp(-x)` underflows to zero, so both starting values of the recurrence are zero and so is the result for every order, however
large `K_n(x)` is.
-/

namespace Verif
open F64 Bes

namespace BesX

/-- `1.0 / x` -/
theorem t1w {a : F64} (hf : a.isFin = true) (h1 : 1 ≤ a.val) :
    ((1.0 : F64) / a).isFin = true ∧ |((1.0 : F64) / a).val - 1 / a.val| ≤ (2 ^ 108 : ℕ) / FlErr.U ∧ 0 ≤ ((1.0 : F64) / a).val ∧ ((1.0 : F64) / a).val ≤ 1 := by
  have h0 : 0 < a.val := by linarith
  have e1 : (1.0 : F64).val = 1 := by exact_mod_cast val_of_int (x := (1.0 : F64)) 1 (by decide +kernel)
  obtain ⟨-, d, -⟩ := div_spec (a := (1.0 : F64)) (by decide +kernel) hf h0.ne'
  rw [e1] at d
  have q0 : 0 ≤ 1 / a.val := by positivity
  have q1 : 1 / a.val ≤ 1 := by rw [div_le_one h0]; exact h1
  have hH := HUGE_ge
  have r := RN_err' (x := 1 / a.val) (by rw [abs_of_nonneg q0]; exact lt_of_le_of_lt q1 (lt_of_lt_of_le (by norm_num) hH))
  rw [abs_of_nonneg q0] at r
  have m1 : 1 / a.val / 2 ^ 53 ≤ 1 / 2 ^ 53 := by gcongr
  have m2 : (1:ℝ) / 2 ^ 1075 ≤ 1 / 2 ^ 100 := one_div_le_one_div_of_le (by positivity) (pow_le_pow_right₀ (by norm_num) (by norm_num))
  have lo : 0 ≤ RN (1 / a.val) := by
    have := RN_mono q0
    rwa [RN_zero] at this
  have hi : RN (1 / a.val) ≤ 1 := by
    have := RN_mono q1
    rwa [RN_one] at this
  rw [isFin_iff_val, d]
  refine ⟨?_, ?_, lo, hi⟩
  · rw [abs_of_nonneg lo]; exact lt_of_le_of_lt hi (lt_of_lt_of_le (by norm_num) hH)
  · refine r.trans ((add_le_add m1 m2).trans ?_)
    unfold FlErr.U; norm_num

/-- a finite zero -/
def Zr (a : F64) : Prop := a.isFin = true ∧ a.val = 0

theorem Zr.of {a : F64} (h : a.val = RN 0) : Zr a := by
  rw [RN_zero] at h
  exact ⟨isFin_of_abs (b := 1) (by rw [h]; norm_num) (by norm_num), h⟩

theorem Zr.mul {a b : F64} (ha : Zr a) (hb : b.isFin = true) : Zr (a * b) :=
  .of (by rw [(mul_spec ha.1 hb).2.1, ha.2, zero_mul])

theorem Zr.mul' {a b : F64} (ha : a.isFin = true) (hb : Zr b) : Zr (a * b) :=
  .of (by rw [(mul_spec ha hb.1).2.1, hb.2, mul_zero])

theorem Zr.div {a b : F64} (ha : Zr a) (hb : b.isFin = true) (h : b.val ≠ 0) : Zr (a / b) :=
  .of (by rw [(div_spec ha.1 hb h).2.1, ha.2, zero_div])

theorem Zr.add {a b : F64} (ha : Zr a) (hb : Zr b) : Zr (a + b) :=
  .of (by rw [(add_spec ha.1 hb.1).2, ha.2, hb.2, add_zero])

theorem k_zero [Libm F64] (A : LibmAcc) {a p q : F64} (hf : a.isFin = true) (h1 : 750 ≤ a.val) (h2 : a.val ≤ 10^15)
    (hp : p.isFin = true) (hq : q.isFin = true) (hq1 : 1 / 2 ≤ q.val ∧ q.val ≤ 1024) :
    Zr (Libm.exp (-a) * p / (F64.sqrt a * q)) := by
  have h0 : 0 < a.val := by linarith
  have e : Libm.exp (-a) = (0.0 : F64) := A.exp_under _ (by simpa using isFin_notNaN hf) (by rw [val_neg]; linarith)
  have z : Zr (0.0 : F64) := .of (by rw [RN_zero]; exact zero_val)
  rw [e]
  have s1 : 1 ≤ √a.val := Real.le_sqrt_of_sq_le (by norm_num; linarith)
  have s2 : √a.val ≤ 10^8 := Real.sqrt_le_iff.mpr ⟨by norm_num, h2.trans (by norm_num)⟩
  obtain ⟨-, sv, -⟩ := F64.sqrt_spec hf h0
  obtain ⟨r1, r2⟩ := Gcf.rn_rel (y := √a.val) (le_trans (by norm_num) s1) (s2.trans (by norm_num))
  rw [← sv] at r1 r2
  obtain ⟨r3, r4⟩ := abs_le.1 r2
  have fs := isFin_iff_val.2 r1
  have t1 : 1 / 2 ≤ (F64.sqrt a).val := by norm_num at r3 ⊢; linarith
  have t2 : (F64.sqrt a).val ≤ 10^9 := by norm_num at r4 s2 ⊢; linarith
  obtain ⟨-, mv, -⟩ := mul_spec fs hq
  have m1 : 1 / 2 * (1 / 2) ≤ (F64.sqrt a).val * q.val := mul_le_mul t1 hq1.1 (by norm_num) (by linarith)
  have m2 : (F64.sqrt a).val * q.val ≤ 10^9 * 1024 := mul_le_mul t2 hq1.2 (by linarith) (by norm_num)
  obtain ⟨u1, u2⟩ := Gcf.rn_rel (y := (F64.sqrt a).val * q.val) (le_trans (by norm_num) m1) (m2.trans (by norm_num))
  rw [← mv] at u1 u2
  obtain ⟨u3, u4⟩ := abs_le.1 u2
  refine (z.mul hp).div (isFin_iff_val.2 u1) ?_
  have : 0 < (F64.sqrt a * q).val := by norm_num at u3 m1 ⊢; linarith
  exact this.ne'

theorem k0_zero [Libm F64] (A : LibmAcc) {x : F64} (h1 : 750 ≤ x.val) (h2 : x.val ≤ 10^15) : Zr (k0 x) := by
  have hf : x.isFin = true := isFin_of_abs (b := 10^15) (by rw [abs_of_pos (by linarith)]; exact h2) (by norm_num)
  obtain ⟨t1, t2, t3, t4⟩ := t1w hf (by linarith)
  obtain ⟨p1, p2⟩ := piecesE_rel3 t1 t2 t3 t4 k0pp_pc
  obtain ⟨q1, q2⟩ := piecesE_rel3 t1 t2 t3 t4 k0qq_pc
  have e1 : k0 x = Libm.exp (-x) * FlErr.evF (fun _ => (1.0 : F64) / x) (polyE (.var 0) K0PPx) / (F64.sqrt x * FlErr.evF (fun _ => (1.0 : F64) / x) (polyE (.var 0) K0QQx)) := by
    unfold k0
    simp only [k_right_ge (show 1 < x.val by linarith), polyE_F' (K0PPx_F (fun _ => (1.0 : F64) / x)) (by decide), polyE_F' (K0QQx_F (fun _ => (1.0 : F64) / x)) (by decide)]
    rw [if_neg (by simp)]
    simp only [FlErr.evF]
    rfl
  rw [e1]
  exact k_zero A hf h1 h2 p1.fin q1.fin q2

theorem k1_zero [Libm F64] (A : LibmAcc) {x : F64} (h1 : 750 ≤ x.val) (h2 : x.val ≤ 10^15) : Zr (k1 x) := by
  have hf : x.isFin = true := isFin_of_abs (b := 10^15) (by rw [abs_of_pos (by linarith)]; exact h2) (by norm_num)
  obtain ⟨t1, t2, t3, t4⟩ := t1w hf (by linarith)
  obtain ⟨p1, p2⟩ := piecesE_rel3 t1 t2 t3 t4 k1pp_pc
  obtain ⟨q1, q2⟩ := piecesE_rel3 t1 t2 t3 t4 k1qq_pc
  have e1 : k1 x = Libm.exp (-x) * FlErr.evF (fun _ => (1.0 : F64) / x) (polyE (.var 0) K1PPx) / (F64.sqrt x * FlErr.evF (fun _ => (1.0 : F64) / x) (polyE (.var 0) K1QQx)) := by
    unfold k1
    simp only [k_right_ge (show 1 < x.val by linarith), polyE_F' (K1PPx_F (fun _ => (1.0 : F64) / x)) (by decide), polyE_F' (K1QQx_F (fun _ => (1.0 : F64) / x)) (by decide)]
    rw [if_neg (by simp)]
    simp only [FlErr.evF]
    rfl
  rw [e1]
  exact k_zero A hf h1 h2 p1.fin q1.fin q2

/-- the recurrence started from two zeros -/
theorem upPlus_zr {t b c : F64} (ht : t.isFin = true) (h1 : |t.val| ≤ 1) (hb : Zr b) (hc : Zr c) :
    ∀ k : ℕ, k < 2^32 → Zr (upPlus t b c k).1 ∧ Zr (upPlus t b c k).2 := by
  intro k
  induction k with
  | zero => intro _; exact ⟨hb, hc⟩
  | succ k ih =>
    intro hk
    obtain ⟨z1, z2⟩ := ih (by omega)
    refine ⟨z2, ?_⟩
    have kb : k + 1 ≤ 2^53 := by omega
    obtain ⟨n1, n2⟩ := ofNat_val kb
    have nn : (((k + 1 : ℕ) : ℝ)) ≤ 2^53 := by exact_mod_cast kb
    have m : (F64.ofNat (k+1) * t).isFin = true := by
      rw [isFin_iff_val, (mul_spec n1 ht).2.1, RN_abs, n2]
      have : |((k + 1 : ℕ) : ℝ) * t.val| ≤ 2^53 := by
        rw [abs_mul, abs_of_nonneg (Nat.cast_nonneg _)]
        calc ((k + 1 : ℕ) : ℝ) * |t.val| ≤ 2^53 * 1 := mul_le_mul nn h1 (abs_nonneg _) (by norm_num)
          _ = _ := by norm_num
      have h := RN_mono this
      have e := RN_nat (2^53) le_rfl
      rw [show ((2^53 : ℕ) : ℝ) = 2^53 by norm_num] at e
      rw [e] at h
      exact lt_of_le_of_lt h (lt_of_lt_of_le (by norm_num) HUGE_ge)
    exact ((Zr.mul' m z2).add z1)

end BesX

open BesX in
/-- C75 is false of the code: `Kn(n,x)` is zero for every order `n : u32` and every `750 ≤ x ≤ 10^15`, although `K_n(x) ≥ 1` as soon as
`n ≥ 4000` and `x ≤ 1000` (and `K_n(x)` grows without bound with `n` for every `x`). -/
theorem Kn_underflows [Libm F64] (A : LibmAcc) {n : ℕ} (hn : n < 2^32) {x : F64} (h1 : 750 ≤ x.val) (h2 : x.val ≤ 10^15) :
    (Kn n x).isFin = true ∧ (Kn n x).val = 0 ∧ (4000 ≤ n → x.val ≤ 1000 → 1 ≤ besselKR n x.val) := by
  have hf : x.isFin = true := isFin_of_abs (b := 10^15) (by rw [abs_of_pos (by linarith)]; exact h2) (by norm_num)
  have x0 : 0 < x.val := by linarith
  have hz : Zr (Kn n x) := by
    unfold Kn
    split_ifs with c1 c2
    · exact k0_zero A h1 h2
    · exact k1_zero A h1 h2
    · have e2 : (2.0 : F64).val = 2 := by exact_mod_cast val_of_int (x := (2.0 : F64)) 2 (by decide +kernel)
      obtain ⟨-, d, -⟩ := div_spec (a := (2.0 : F64)) (by decide +kernel) hf x0.ne'
      rw [e2] at d
      have q0 : 0 ≤ 2 / x.val := by positivity
      have q1 : 2 / x.val ≤ 1 := by rw [div_le_one x0]; linarith
      have lo := RN_mono q0
      have hi := RN_mono q1
      rw [RN_zero, ← d] at lo
      rw [RN_one, ← d] at hi
      have ab : |((2.0 : F64) / x).val| ≤ 1 := by rw [abs_of_nonneg lo]; exact hi
      exact (upPlus_zr (isFin_of_abs ab (by norm_num)) ab (k0_zero A h1 h2) (k1_zero A h1 h2) (n - 1) (by omega)).2
  refine ⟨hz.1, hz.2, fun n4 x1 => ?_⟩
  obtain ⟨-, s2, -⟩ := K_sandwich x0
  have lowK : Real.exp (-1000) / 100 ≤ besselKR 1 x.val := by
    refine le_trans ?_ s2
    rw [K_half x0]
    have a1 : (1:ℝ) / 100 ≤ √(Real.pi / (2 * x.val)) := by
      refine Real.le_sqrt_of_sq_le ?_
      rw [le_div_iff₀ (by linarith)]
      have := Real.pi_gt_three
      norm_num; linarith
    have a2 : Real.exp (-1000) ≤ Real.exp (-x.val) := Real.exp_le_exp.2 (by linarith)
    calc Real.exp (-1000) / 100 = 1 / 100 * Real.exp (-1000) := by ring
      _ ≤ _ := mul_le_mul a1 a2 (Real.exp_pos _).le (by positivity)
  have grow : ∀ k : ℕ, (4:ℝ)^k * besselKR 1 x.val ≤ besselKR ((2000 + k : ℕ) : ℝ) x.val := by
    intro k
    induction k with
    | zero =>
      rw [pow_zero, one_mul]
      exact K_mono x0 (by norm_num)
    | succ k ih =>
      have r := K_rec x0 ((2000 + k : ℕ) : ℝ)
      have p := K_pos x0 (((2000 + k : ℕ) : ℝ) - 1)
      have p2 := K_pos x0 ((2000 + k : ℕ) : ℝ)
      have e : ((2000 + (k + 1) : ℕ) : ℝ) = ((2000 + k : ℕ) : ℝ) + 1 := by push_cast; ring
      rw [e]
      have kk : (2000:ℝ) ≤ ((2000 + k : ℕ) : ℝ) := by push_cast; linarith [Nat.cast_nonneg (α := ℝ) k]
      generalize besselKR (((2000 + k : ℕ) : ℝ) + 1) x.val = K2 at *
      generalize besselKR (((2000 + k : ℕ) : ℝ) - 1) x.val = Km at *
      generalize besselKR ((2000 + k : ℕ) : ℝ) x.val = Kc at *
      generalize ((2000 + k : ℕ) : ℝ) = m at *
      have h4 : 4 * Kc ≤ K2 := by
        have g1 : 4 * x.val * Kc ≤ 2 * m * Kc := mul_le_mul_of_nonneg_right (by linarith) p2.le
        have g2 : x.val * (4 * Kc) ≤ x.val * K2 := by nlinarith [mul_pos x0 p]
        exact le_of_mul_le_mul_left g2 x0
      rw [pow_succ]
      linarith
  obtain ⟨k, rfl⟩ : ∃ k, n = 2000 + k := ⟨n - 2000, by omega⟩
  refine le_trans ?_ (grow k)
  have hk : (4:ℝ)^2000 ≤ 4^k := pow_le_pow_right₀ (by norm_num) (by omega)
  have hE : 100 ≤ (4:ℝ)^2000 * Real.exp (-1000) := by
    have e : Real.exp (-1000) = (Real.exp (-1))^1000 := by rw [← Real.exp_nat_mul]; norm_num
    have e1 : (1/3 : ℝ) ≤ Real.exp (-1) := by
      rw [Real.exp_neg, one_div]
      exact inv_anti₀ (Real.exp_pos _) (by linarith [Real.exp_one_lt_d9])
    have e4 : (4:ℝ)^2000 = (4^2)^1000 := by rw [← pow_mul]
    rw [e, e4, ← mul_pow]
    calc (100:ℝ) ≤ 2^1000 := le_trans (by norm_num : (100:ℝ) ≤ 2^7) (pow_le_pow_right₀ (by norm_num) (by norm_num))
      _ ≤ _ := pow_le_pow_left₀ (by norm_num) (by norm_num; linarith) 1000
  have p1 := K_pos x0 1
  calc (1:ℝ) ≤ 4^2000 * (Real.exp (-1000) / 100) := by rw [mul_div_assoc']; rw [le_div_iff₀ (by norm_num)]; linarith only [hE]
    _ ≤ _ := mul_le_mul hk lowK (by positivity) (by positivity)

/-- the hypotheses of `Kn_underflows`, including those of its last part, are met by `n = 5000`, `x = 800` and the correctly rounded functions -/
example : ∃ _ : Libm F64, LibmAcc ∧ 5000 < 2^32 ∧ 750 ≤ (800.0 : F64).val ∧ (800.0 : F64).val ≤ 1000 := by
  have e : (800.0 : F64).val = 800 := by exact_mod_cast val_of_int (x := (800.0 : F64)) 800 (by decide +kernel)
  exact ⟨idealLibm, ideal_acc, by norm_num, by rw [e]; norm_num, by rw [e]; norm_num⟩

end Verif
