import Verif.Proofs.BesselKF3
import Verif.Proofs.BesselInF4

/-! The upward recurrence of `Kn` in binary64. -/

namespace Verif
namespace Bes
open F64

theorem g_round {a : F64} {x A g : ℝ} (hv : a.val = RN x) (hA : Mid A) (hg : g ≤ 3 / 2) (hx : |x - A| ≤ (g - 1) * A) : Rel a A (g * om - 1) := by
  refine (rel_round hv hA (by linarith) hx).mono (le_of_eq ?_)
  unfold om; ring

theorem g_mul {a b : F64} {A B g h : ℝ} (ha : Rel a A (g - 1)) (hb : Rel b B (h - 1)) (hm : Mid (A * B)) (hg : g * h ≤ 3 / 2) : Rel (a * b) (A * B) (g * h * om - 1) := by
  have := rel_mul ha hb hm (by linarith)
  refine this.mono (le_of_eq ?_)
  unfold om; ring

theorem g_add {a b : F64} {A B g : ℝ} (ha : Rel a A (g - 1)) (hb : Rel b B (g - 1)) (hm : Mid (A + B)) (hg : g ≤ 3 / 2) : Rel (a + b) (A + B) (g * om - 1) := by
  refine g_round (add_spec ha.fin hb.fin).2 hm hg ?_
  rw [show a.val + b.val - (A + B) = (a.val - A) + (b.val - B) by ring]
  refine (abs_add_le _ _).trans ?_
  have h1 := ha.err
  have h2 := hb.err
  linarith

theorem K0_low {x : ℝ} (hx : 0 < x) (h1 : x ≤ 680) : 1 / 2 ^ 988 ≤ besselKR 0 x := by
  rcases le_or_gt x 1 with h | h
  · refine le_trans ?_ (le_trans (le_add_of_nonneg_right ?_) (K0_ge hx h))
    · have : (1:ℝ) / 2 ^ 988 ≤ 1 / 2 ^ 4 := one_div_le_one_div_of_le (by positivity) (pow_le_pow_right₀ (by norm_num) (by norm_num))
      exact this.trans (by norm_num)
    · have := Real.log_nonpos hx.le h
      have : 0 ≤ -Real.log x := by linarith
      positivity
  · obtain ⟨t1, t2, t3, t4⟩ := tfg_bounds hx
    have e1 := BesX.exp680 (X := -x) (by linarith)
    have h2 : 1 / (2 * x) ≤ 1 / 2 := by rw [div_le_div_iff₀ (by positivity) (by norm_num)]; linarith
    have t5 : 1 / 2 ≤ tf x := by linarith
    have s1 := sp2.1
    have hs2 : √x ≤ 27 := Real.sqrt_le_iff.mpr ⟨by norm_num, by linarith⟩
    have hs0 : 0 < √x := Real.sqrt_pos.2 hx
    have a1 : 1 / 2 ≤ √(Real.pi / 2) * tf x := by norm_num at *; nlinarith
    have a2 : 1 / 2 ^ 982 / 27 ≤ Real.exp (-x) / √x := div_le_div₀ (Real.exp_pos _).le e1 hs0 hs2
    rw [K0_form hx]
    have a3 : 1 / 2 * (1 / 2 ^ 982 / 27) ≤ √(Real.pi / 2) * tf x * (Real.exp (-x) / √x) := mul_le_mul a1 a2 (by positivity) (by linarith)
    refine le_trans ?_ a3
    have e : (1:ℝ) / 2 ^ 988 = 1 / 2 ^ 982 * (1 / 64) := by rw [div_mul_div_comm, one_mul, show (64:ℝ) = 2 ^ 6 by norm_num, ← pow_add]
    rw [e]
    have w : (0:ℝ) < 1 / 2 ^ 982 := by positivity
    generalize (1:ℝ) / 2 ^ 982 = z at *
    linarith

theorem toxK {x : F64} (h0 : 1 / 2 ^ 960 ≤ x.val) (h1 : x.val ≤ 680) : Rel ((2.0 : F64) / x) (2 / x.val) (om - 1) := by
  have hx : 0 < x.val := lt_of_lt_of_le (by positivity) h0
  have hf : x.isFin = true := isFin_of_abs (show |x.val| ≤ 680 by rw [abs_of_pos hx]; exact h1) (by norm_num)
  have e2 : (2.0 : F64).val = 2 := by exact_mod_cast val_of_int (x := (2.0 : F64)) 2 (by decide +kernel)
  have hd := (div_spec (a := (2.0 : F64)) (by decide +kernel) hf hx.ne').2.1
  rw [e2] at hd
  have l : (1:ℝ) / 2 ^ 10 ≤ 2 / x.val := by rw [div_le_div_iff₀ (by positivity) hx]; norm_num; linarith
  have u : 2 / x.val ≤ 2 ^ 961 := by
    rw [div_le_iff₀ hx]
    rw [div_le_iff₀ (by positivity)] at h0
    have e : (2:ℝ) ^ 961 = 2 * 2 ^ 960 := by rw [← pow_succ']
    rw [e]
    generalize (2:ℝ) ^ 960 = w at *
    linarith
  have := g_round (g := 1) hd (BesX.mid_of (le_trans (by norm_num) l) (u.trans (pow_le_pow_right₀ (by norm_num) (by norm_num)))) (by norm_num) (by simp)
  rwa [one_mul] at this

variable [Libm F64]

/-- the state after `k` steps -/
theorem upK (L : LibmUlp) {x : F64} (h0 : 1 / 2 ^ 960 ≤ x.val) (h1 : x.val ≤ 680) : ∀ k : ℕ, k < 2 ^ 32 → besselKR (k + 1) x.val ≤ 2 ^ 1000 →
    Rel (upPlus (2.0 / x) (k0 x) (k1 x) k).1 (besselKR k x.val) ((1 + 9.7e-13) * om ^ (4 * k) - 1) ∧
    Rel (upPlus (2.0 / x) (k0 x) (k1 x) k).2 (besselKR (k + 1) x.val) ((1 + 9.7e-13) * om ^ (4 * k) - 1) := by
  have hx : 0 < x.val := lt_of_lt_of_le (by positivity) h0
  intro k
  induction k with
  | zero =>
    intro _ _
    simp only [upPlus, Nat.cast_zero, zero_add, mul_zero, pow_zero, mul_one]
    exact ⟨(BesX.k0_acc L (le_trans (one_div_le_one_div_of_le (by positivity) (pow_le_pow_right₀ (by norm_num) (by norm_num))) h0) h1).mono (by norm_num), (BesX.k1_acc L h0 h1).mono (by norm_num)⟩
  | succ k ih =>
    intro hk hK
    have hK2 : besselKR (k + 1) x.val ≤ besselKR ((k + 1 : ℕ) + 1) x.val := K_mono hx (by
      rw [abs_of_nonneg (by positivity), abs_of_nonneg (by positivity)]; push_cast; linarith)
    obtain ⟨i1, i2⟩ := ih (by omega) (hK2.trans hK)
    have hbig : ((4 * k + 4 : ℕ) : ℝ) ≤ 1e12 := by
      have : 4 * k + 4 ≤ 2 ^ 35 := by omega
      have h : ((4 * k + 4 : ℕ) : ℝ) ≤ ((2 ^ 35 : ℕ) : ℝ) := by exact_mod_cast this
      refine h.trans (by norm_num)
    have ho := om_half hbig
    have hom : ∀ j ≤ 4 * k + 4, (1 + 9.7e-13) * om ^ j ≤ 3 / 2 := by
      intro j hj
      have := om_mono hj
      norm_num at *; linarith
    have hmon : ∀ i j, i ≤ j → (1 + 9.7e-13) * om ^ i - 1 ≤ (1 + 9.7e-13) * om ^ j - 1 := by
      intro i j hij
      have := om_mono hij
      norm_num at *; linarith
    refine ⟨?_, ?_⟩
    · simp only [upPlus]
      have := i2.mono (hmon _ (4 * (k + 1)) (by omega))
      push_cast; exact this
    have hr := K_rec hx ((k:ℝ) + 1)
    rw [show (k:ℝ) + 1 - 1 = k by ring] at hr
    have e2 : besselKR ((k:ℝ) + 1 + 1) x.val = ((k:ℝ) + 1) * (2 / x.val) * besselKR (k + 1) x.val + besselKR k x.val := by
      field_simp; linarith
    push_cast at hK
    simp only [upPlus]
    have lowK : ∀ ν : ℝ, 1 / 2 ^ 988 ≤ besselKR ν x.val := fun ν => (K0_low hx h1).trans (K_mono hx (by rw [abs_zero]; exact abs_nonneg _))
    have p988 : (1:ℝ) / 2 ^ 1000 ≤ 1 / 2 ^ 988 := one_div_le_one_div_of_le (by positivity) (pow_le_pow_right₀ (by norm_num) (by norm_num))
    -- the coefficient
    have hk53 : k + 1 ≤ 2 ^ 53 := by omega
    have hn := ofNat_val hk53
    have hn' : Rel (Arith.ofNat (k + 1) : F64) ((k:ℝ) + 1) (1 - 1) := by
      refine ⟨hn.1, by positivity, ?_⟩
      have : (Arith.ofNat (k + 1) : F64).val = (k:ℝ) + 1 := by show (F64.ofNat (k + 1)).val = _; rw [hn.2]; push_cast; rfl
      rw [this]; simp
    have ht := toxK h0 h1
    have l : (1:ℝ) / 2 ^ 10 ≤ 2 / x.val := by rw [div_le_div_iff₀ (by positivity) hx]; norm_num; linarith
    have u : 2 / x.val ≤ 2 ^ 961 := by
      rw [div_le_iff₀ hx]
      rw [div_le_iff₀ (by positivity)] at h0
      have e : (2:ℝ) ^ 961 = 2 * 2 ^ 960 := by rw [← pow_succ']
      rw [e]
      generalize (2:ℝ) ^ 960 = w at *
      linarith
    have k32 : (k:ℝ) + 1 ≤ 2 ^ 32 := by exact_mod_cast (by omega : k + 1 ≤ 2 ^ 32)
    have lc : 1 / 2 ^ 10 ≤ ((k:ℝ) + 1) * (2 / x.val) := by
      calc (1:ℝ) / 2 ^ 10 = 1 * (1 / 2 ^ 10) := by ring
        _ ≤ _ := mul_le_mul (by linarith [(Nat.cast_nonneg k : (0:ℝ) ≤ k)]) l (by positivity) (by positivity)
    have uc : ((k:ℝ) + 1) * (2 / x.val) ≤ 2 ^ 1000 := by
      calc ((k:ℝ) + 1) * (2 / x.val) ≤ 2 ^ 32 * 2 ^ 961 := mul_le_mul k32 u (by positivity) (by positivity)
        _ ≤ 2 ^ 1000 := by rw [← pow_add]; exact pow_le_pow_right₀ (by norm_num) (by norm_num)
    have hc := g_mul hn' ht (BesX.mid_of (le_trans (by norm_num) lc) uc) (by rw [one_mul]; unfold om; norm_num)
    rw [one_mul] at hc
    -- the product
    have pK := K_pos hx ((k:ℝ) + 1)
    have pK0 := K_pos hx (k:ℝ)
    have m1 : Mid (((k:ℝ) + 1) * (2 / x.val) * besselKR (k + 1) x.val) := by
      refine ⟨?_, ?_⟩
      · calc (1:ℝ) / 2 ^ 1000 ≤ 1 / 2 ^ 10 * (1 / 2 ^ 988) := by
              rw [div_mul_div_comm, one_mul, ← pow_add]
              exact one_div_le_one_div_of_le (by positivity) (pow_le_pow_right₀ (by norm_num) (by norm_num))
          _ ≤ _ := mul_le_mul lc (lowK _) (by positivity) (by positivity)
      · rw [e2] at hK
        generalize (2:ℝ) ^ 1000 = w at *
        linarith
    have hp := g_mul hc i2 m1 (by
      have := hom (4 * k + 2) (by omega)
      rw [pow_add] at this
      calc om * om * ((1 + 9.7e-13) * om ^ (4 * k)) = (1 + 9.7e-13) * (om ^ (4 * k) * om ^ 2) := by ring
        _ ≤ _ := this)
    -- the sum
    have e3 : om * om * ((1 + 9.7e-13) * om ^ (4 * k)) * om = (1 + 9.7e-13) * om ^ (4 * k + 3) := by rw [pow_add]; ring
    rw [e3] at hp
    have hs := g_add hp (i1.mono (hmon (4 * k) (4 * k + 3) (by omega))) (by
      rw [← e2]
      exact ⟨p988.trans (lowK _), hK⟩) (hom _ (by omega))
    push_cast
    rw [e2]
    refine hs.mono (le_of_eq ?_)
    rw [show 4 * (k + 1) = (4 * k + 3) + 1 by ring, pow_succ om (4 * k + 3)]
    ring

end Bes
end Verif
