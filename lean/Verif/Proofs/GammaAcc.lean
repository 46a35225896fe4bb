import Verif.Proofs.GammaCoreF
import Verif.Proofs.Gamma2
import Mathlib.Analysis.SpecialFunctions.Gamma.BohrMollerup

/-! # The loops of `gamma`: accuracy in exact arithmetic and in binary64 -/

namespace Verif
open F64

/-! ## Bounds of the gamma function -/

theorem Gam_mono {a b : ℝ} (h : 2 ≤ a) (hab : a ≤ b) : Real.Gamma a ≤ Real.Gamma b :=
  Real.Gamma_strictMonoOn_Ici.monotoneOn h (h.trans hab) hab

theorem Gam_ge_one {a : ℝ} (h : 2 ≤ a) : 1 ≤ Real.Gamma a := by
  have := Gam_mono (le_refl 2) h
  rwa [Real.Gamma_two] at this

theorem Gam_four : Real.Gamma 4 = 6 := by
  have h := Real.Gamma_nat_eq_factorial 3
  rw [show ((3:ℕ):ℝ) + 1 = 4 by norm_num] at h
  rw [h]; norm_num [Nat.factorial]

/-- `1/2 ≤ Γ` on `(0, ∞)` -/
theorem Gam_half {a : ℝ} (h : 0 < a) : 1/2 ≤ Real.Gamma a := by
  rcases le_or_gt 2 a with h2 | h2
  · linarith [Gam_ge_one h2]
  rcases le_or_gt 1 a with h1 | h1
  · have e := Real.Gamma_add_one h.ne'
    have := Gam_ge_one (a := a + 1) (by linarith)
    have hp := Real.Gamma_pos_of_pos h
    nlinarith
  · have e := Real.Gamma_add_one h.ne'
    have e2 := Real.Gamma_add_one (s := a + 1) (by linarith)
    have h3 := Gam_ge_one (a := a + 1 + 1) (by linarith)
    have hp := Real.Gamma_pos_of_pos h
    have hp1 := Real.Gamma_pos_of_pos (s := a + 1) (by linarith)
    nlinarith

/-- convexity: one step to the right of `a` -/
theorem Gam_conv {a d : ℝ} (h : 0 < a) (h0 : 0 ≤ d) (h1 : d ≤ 1) : Real.Gamma (a + d) ≤ Real.Gamma a * (1 + d * (a - 1)) := by
  have hc := Real.convexOn_Gamma.2 (show a ∈ Set.Ioi 0 from h) (show a + 1 ∈ Set.Ioi 0 by simp only [Set.mem_Ioi]; linarith) (show (0:ℝ) ≤ 1 - d by linarith) h0 (by ring)
  simp only [smul_eq_mul] at hc
  rw [Real.Gamma_add_one h.ne'] at hc
  have e : (1 - d) * a + d * (a + 1) = a + d := by ring
  rw [e] at hc
  linarith

/-- `Γ ≤ 6` on `[1/2, 4]` -/
theorem Gam_six {a : ℝ} (h : 1/2 ≤ a) (h4 : a ≤ 4) : Real.Gamma a ≤ 6 := by
  rcases le_or_gt 2 a with h2 | h2
  · have := Gam_mono h2 h4
    rwa [Gam_four] at this
  have k : ∀ b : ℝ, 1 ≤ b → b ≤ 2 → Real.Gamma b ≤ 1 := by
    intro b b1 b2
    have := Gam_conv (a := 1) (d := b - 1) (by norm_num) (by linarith) (by linarith)
    rw [Real.Gamma_one] at this
    have e : 1 + (b - 1) = b := by ring
    rw [e] at this
    linarith
  rcases le_or_gt 1 a with h1 | h1
  · linarith [k a h1 h2.le]
  · have e := Real.Gamma_add_one (s := a) (by linarith)
    have := k (a + 1) (by linarith) (by linarith)
    have hp := Real.Gamma_pos_of_pos (s := a) (by linarith)
    nlinarith

/-- `Γ` at nearby points of `[2, 4]` -/
theorem Gam_near {a b e : ℝ} (ha : 2 ≤ a) (ha4 : a ≤ 4) (hb : 2 ≤ b) (hb4 : b ≤ 4) (h : |a - b| ≤ e) (he : e ≤ 1) :
    |Real.Gamma a - Real.Gamma b| ≤ 3 * e * Real.Gamma b := by
  have key : ∀ x y : ℝ, 2 ≤ x → x ≤ y → y ≤ 4 → y - x ≤ e → Real.Gamma x ≤ Real.Gamma y ∧ Real.Gamma y ≤ Real.Gamma x * (1 + 3 * e) := by
    intro x y hx hxy hy hd
    refine ⟨Gam_mono hx hxy, ?_⟩
    have := Gam_conv (a := x) (d := y - x) (by linarith) (by linarith) (by linarith)
    rw [show x + (y - x) = y by ring] at this
    refine this.trans (mul_le_mul_of_nonneg_left ?_ (Real.Gamma_pos_of_pos (by linarith)).le)
    nlinarith
  have hab := abs_le.1 h
  have he0 := (abs_nonneg _).trans h
  rcases le_total a b with hc | hc
  · obtain ⟨k1, k2⟩ := key a b ha hc hb4 (by linarith)
    rw [abs_of_nonpos (by linarith)]
    nlinarith
  · obtain ⟨k1, k2⟩ := key b a hb hc ha4 (by linarith)
    rw [abs_of_nonneg (by linarith)]
    nlinarith

/-! ## Exact arithmetic -/

/-- the descending loop takes the factors out of `Γ` -/
theorem gammaDown_gam [Cfg] (n : Nat) : ∀ (fuel : Nat) (z : ℝ), n + 1 ≤ fuel → 5/2 ≤ z → z < 7/2 + n →
    ∃ z' g, (∀ f, gammaDown fuel z f = .ok (z', f * g)) ∧ 5/2 ≤ z' ∧ z' ≤ 7/2 ∧ Real.Gamma z = g * Real.Gamma z' := by
  induction n with
  | zero =>
    intro fuel z hf h0 h
    obtain ⟨m, rfl⟩ : ∃ m, fuel = m + 1 := ⟨fuel - 1, by omega⟩
    have h' : z < 7/2 := by simpa using h
    exact ⟨z, 1, fun f => by rw [gammaDown_stop h', mul_one], h0, h'.le, by ring⟩
  | succ n ih =>
    intro fuel z hf h0 h
    obtain ⟨m, rfl⟩ : ∃ m, fuel = m + 1 := ⟨fuel - 1, by omega⟩
    rcases lt_or_ge z (7/2) with h' | h'
    · exact ⟨z, 1, fun f => by rw [gammaDown_stop h', mul_one], h0, h'.le, by ring⟩
    · push_cast at h
      obtain ⟨z', g, hg, g1, g2, g3⟩ := ih m (z - 1) (by omega) (by linarith) (by linarith)
      refine ⟨z', (z - 1) * g, fun f => by rw [gammaDown_step h', hg, mul_assoc], g1, g2, ?_⟩
      have e := Real.Gamma_add_one (s := z - 1) (by linarith)
      rw [sub_add_cancel] at e
      rw [e, g3, mul_assoc]

/-- the ascending loop multiplies factors into `Γ` -/
theorem gammaUp_gam [Cfg] (n : Nat) : ∀ (fuel : Nat) (z : ℝ), n + 1 ≤ fuel → 5/2 - n < z → z ≤ 7/2 → (¬ ∃ k : ℕ, z = -k) →
    ∃ z' g, (∀ f, gammaUp fuel z f = .ok (some (z', f * g))) ∧ 5/2 ≤ z' ∧ z' ≤ 7/2 ∧ g ≠ 0 ∧ Real.Gamma z' = g * Real.Gamma z := by
  induction n with
  | zero =>
    intro fuel z hf h h1 _
    obtain ⟨m, rfl⟩ : ∃ m, fuel = m + 1 := ⟨fuel - 1, by omega⟩
    have h' : 5/2 < z := by simpa using h
    exact ⟨z, 1, fun f => by rw [gammaUp_stop h', mul_one], h'.le, h1, one_ne_zero, by ring⟩
  | succ n ih =>
    intro fuel z hf h h1 hp
    obtain ⟨m, rfl⟩ : ∃ m, fuel = m + 1 := ⟨fuel - 1, by omega⟩
    rcases lt_or_ge (5/2) z with h' | h'
    · exact ⟨z, 1, fun f => by rw [gammaUp_stop h', mul_one], h'.le, h1, one_ne_zero, by ring⟩
    · push_cast at h
      have hz0 : z ≠ 0 := fun e => hp ⟨0, by rw [e]; simp⟩
      obtain ⟨z', g, hg, g1, g2, g3, g4⟩ := ih m (z + 1) (by omega) (by linarith) (by linarith) (by
        rintro ⟨k, hk⟩
        exact hp ⟨k + 1, by push_cast; linarith⟩)
      refine ⟨z', z * g, fun f => by rw [gammaUp_step h', hg, mul_assoc], g1, g2, mul_ne_zero hz0 g3, ?_⟩
      rw [g4, Real.Gamma_add_one hz0]; ring

/-- `gamma` in exact arithmetic -/
theorem gamma_exact_acc [Cfg] {z : ℝ} (h1 : -240 < z) (h2 : z ≤ 171) (hp : ¬ ∃ n : ℕ, z = -n) :
    ∃ g, gamma z = .ok g ∧ |g - Real.Gamma z| ≤ 2.9e-13 * |Real.Gamma z| := by
  by_cases hint : ∃ i : ℤ, z = i
  · obtain ⟨i, rfl⟩ := hint
    have hi0 : 0 < i := by
      by_contra hc
      refine hp ⟨(-i).toNat, ?_⟩
      have : (((-i).toNat : ℤ) : ℝ) = ((-i : ℤ) : ℝ) := by rw [Int.toNat_of_nonneg (by omega)]
      rw [Int.cast_natCast] at this
      rw [this]; push_cast; ring
    obtain ⟨k, rfl⟩ := Int.eq_ofNat_of_zero_le hi0.le
    have hk : k ≤ 171 := by exact_mod_cast h2
    have hk1 : 1 ≤ k := by omega
    refine ⟨_, by rw [Int.cast_natCast]; exact gamma_real_int k hk1 hk, ?_⟩
    obtain ⟨j, rfl⟩ : ∃ j, k = j + 1 := ⟨k - 1, by omega⟩
    have := Real.Gamma_nat_eq_factorial j
    rw [Int.cast_natCast]
    push_cast
    rw [this, sub_self, abs_zero]
    positivity
  · rw [gamma_real_main hint h2]
    split
    · rename_i h
      obtain ⟨z', g, hg, g1, g2, g3⟩ := gammaDown_gam 168 gammaFuel z (by norm_num) (by linarith) (by push_cast; linarith)
      rw [hg]
      refine ⟨gammaCore z' * (1 * g), rfl, ?_⟩
      have := gammaCore_exact g1 g2
      have hG := Real.Gamma_pos_of_pos (s := z') (by linarith)
      rw [g3, one_mul, mul_comm, ← mul_sub, abs_mul, abs_mul, abs_of_pos hG]
      have := mul_le_mul_of_nonneg_left this (abs_nonneg g)
      linarith
    · split
      · rename_i h
        obtain ⟨z', g, hg, g1, g2, g0, g3⟩ := gammaUp_gam 243 gammaFuel z (by norm_num) (by push_cast; linarith) (by linarith) hp
        rw [hg]
        refine ⟨gammaCore z' * (1 / (1 * g)), rfl, ?_⟩
        have := gammaCore_exact g1 g2
        have hG := Real.Gamma_pos_of_pos (s := z') (by linarith)
        have e : Real.Gamma z = 1 / g * Real.Gamma z' := by rw [g3]; field_simp
        rw [e, one_mul, mul_comm, ← mul_sub, abs_mul, abs_mul, abs_of_pos hG]
        have := mul_le_mul_of_nonneg_left this (abs_nonneg (1 / g))
        linarith
      · refine ⟨gammaCore z, rfl, ?_⟩
        rename_i h3 h4
        rw [abs_of_pos (Real.Gamma_pos_of_pos (s := z) (by linarith))]
        exact gammaCore_exact (by linarith) (by linarith)

end Verif
