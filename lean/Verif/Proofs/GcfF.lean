import Verif.Proofs.GcfR3
import Verif.Proofs.Gcf
import Verif.Proofs.Exact
import Verif.Proofs.Rel

/-! Rounding errors of the continued fraction of `gcf`: the running sums and one step of the quotients. -/

namespace Verif
namespace Gcf
open F64

theorem huge_big : (10:ℝ)^60 < HUGE := lt_of_lt_of_le (by norm_num) HUGE_ge

theorem tau_small : (1:ℝ) / 2^1075 ≤ 1 / 10^60 := by
  have h : (10:ℝ)^60 ≤ 2^1075 := by
    calc (10:ℝ)^60 ≤ 2^200 := by norm_num
      _ ≤ _ := pow_le_pow_right₀ (by norm_num) (by norm_num)
  exact one_div_le_one_div_of_le (by positivity) h

/-- rounding, with bounds that suit quantities of moderate size -/
theorem rn_mod {y Y : ℝ} (h : |y| ≤ Y) (hY : Y ≤ 10^50) : |RN y| < HUGE ∧ |RN y - y| ≤ Y / 2^53 + 1 / 10^60 := by
  have hh := huge_big
  have h1 : |y| < HUGE := lt_of_le_of_lt (h.trans hY) (lt_trans (by norm_num) hh)
  have h2 := RN_err' h1
  have h3 : |RN y - y| ≤ Y / 2^53 + 1 / 10^60 := h2.trans (add_le_add (by gcongr) tau_small)
  refine ⟨lt_of_le_of_lt ?_ hh, h3⟩
  have h4 : |RN y| ≤ |RN y - y| + |y| := by
    have := abs_add_le (RN y - y) y; rwa [sub_add_cancel] at this
  have h5 : Y / 2^53 ≤ Y := div_le_self (le_trans (abs_nonneg _) h) (by norm_num)
  norm_num at *
  linarith

/-- a running sum `v + 1 + 1 + …` (or `v + 2 + 2 + …`): rounding happens only when the exponent changes -/
def Bin (b : F64) (B : ℝ) : Prop := ∃ e : ℕ, e ≤ 20 ∧ (2:ℝ)^e ≤ b.val ∧ b.val ≤ 2^(e+1) ∧ |b.val - B| ≤ 21/10 * 2^e / 2^52

theorem Bin.fin {b : F64} {B : ℝ} (h : Bin b B) : b.isFin = true := by
  obtain ⟨e, he, h1, h2, _⟩ := h
  have : (2:ℝ)^(e+1) ≤ 2^21 := pow_le_pow_right₀ (by norm_num) (by omega)
  have p : (0:ℝ) < 2^e := by positivity
  refine isFin_of_abs (b := 2^21) ?_ (by norm_num)
  rw [abs_of_pos (by linarith)]; linarith

theorem Bin.err {b : F64} {B : ℝ} (h : Bin b B) : |b.val - B| ≤ 5 / 2^53 * B ∧ 1 ≤ b.val ∧ 0 < B := by
  obtain ⟨e, _, h1, h2, h3⟩ := h
  have p : (1:ℝ) ≤ 2^e := one_le_pow₀ (by norm_num)
  generalize (2:ℝ)^e = q at *
  obtain ⟨g1, g2⟩ := abs_le.1 h3
  have : 0 < B := by norm_num at *; linarith
  refine ⟨?_, by linarith, this⟩
  refine h3.trans ?_
  norm_num at *
  linarith

theorem exact_add {b : F64} {e : ℕ} (he : e ≤ 20) (h1 : (2:ℝ)^e ≤ b.val) (p : ℕ) (h3 : b.val + p < 2^(e+1)) :
    RN (b.val + p) = b.val + p := by
  obtain ⟨m, k, hk, hm, hk1, hn⟩ := val_decomp b
  have p0 : (0:ℝ) < 2^e := by positivity
  rw [abs_of_pos (by linarith)] at hk
  have hp0 : (0:ℝ) ≤ p := Nat.cast_nonneg p
  have hmr : (m:ℝ) < 2^53 := by exact_mod_cast hm
  -- the exponent
  have hke : k = (e:ℤ) - 52 := by
    rcases hn with h | h
    · exfalso
      rw [hk, h] at h1
      have : (m:ℝ) * 2^(-1074:ℤ) < 2^53 * 2^(-1074:ℤ) := by
        apply mul_lt_mul_of_pos_right hmr; positivity
      have h4 : (1:ℝ) ≤ 2^e := one_le_pow₀ (by norm_num)
      have h5 : (2:ℝ)^53 * 2^(-1074:ℤ) ≤ 1 := by
        rw [zpow_neg, ← div_eq_mul_inv, div_le_one (by positivity)]
        exact_mod_cast pow_le_pow_right₀ (by norm_num : (1:ℝ) ≤ 2) (by norm_num : 53 ≤ 1074)
      linarith
    · have hmr2 : (2:ℝ)^52 ≤ m := by exact_mod_cast h
      have z0 : (0:ℝ) < 2^k := by positivity
      have a1 : (2:ℝ)^((52:ℤ) + k) < 2^((e:ℤ) + 1) := by
        rw [zpow_add₀ (by norm_num), zpow_add₀ (by norm_num), zpow_natCast]
        have : (2:ℝ)^(52:ℤ) * 2^k ≤ m * 2^k := mul_le_mul_of_nonneg_right (by exact_mod_cast hmr2) z0.le
        have h6 : (2:ℝ)^(e+1) = 2^e * 2^(1:ℤ) := by rw [pow_succ]; norm_num
        rw [← h6]; linarith
      have a2 : (2:ℝ)^(e:ℤ) < 2^((53:ℤ) + k) := by
        rw [zpow_add₀ (by norm_num), zpow_natCast]
        have : (m:ℝ) * 2^k < (2:ℝ)^(53:ℤ) * 2^k := mul_lt_mul_of_pos_right (by exact_mod_cast hmr) z0
        linarith
      rw [zpow_lt_zpow_iff_right₀ (by norm_num)] at a1 a2
      omega
  have z0 : (0:ℝ) < 2^k := by positivity
  have e1 : (p:ℝ) = ((p * 2^(52 - e) : ℕ) : ℝ) * 2^k := by
    rw [hke]
    push_cast
    rw [mul_assoc, ← zpow_natCast, ← zpow_add₀ (by norm_num)]
    have : ((52 - e : ℕ) : ℤ) + ((e:ℤ) - 52) = 0 := by omega
    rw [this]; simp
  have e2 : b.val + p = ((m + p * 2^(52 - e) : ℕ) : ℤ) * (2:ℝ)^k := by
    rw [hk]; push_cast; push_cast at e1; linarith
  rw [e2]
  refine RN_dyadic _ _ ?_ hk1 ?_
  · rw [abs_of_nonneg (by positivity)]
    have : ((m + p * 2^(52 - e) : ℕ) : ℝ) * 2^k < 2^53 * 2^k := by
      have h6 : (2:ℝ)^53 * 2^k = 2^(e+1) := by
        rw [hke, ← zpow_natCast, ← zpow_natCast, ← zpow_add₀ (by norm_num)]
        congr 1; push_cast; ring
      rw [h6]
      have : ((m + p * 2^(52 - e) : ℕ) : ℝ) * 2^k = b.val + p := by rw [e2]; push_cast; ring
      rw [this]; exact h3
    have h7 := lt_of_mul_lt_mul_right this z0.le
    have h8 : m + p * 2^(52 - e) < 2^53 := by exact_mod_cast h7
    exact_mod_cast h8.le
  · rw [← e2, abs_of_pos (by linarith)]
    have h9 : (2:ℝ)^(e+1) ≤ 2^21 := pow_le_pow_right₀ (by norm_num) (by omega)
    have := huge_big
    norm_num at *
    linarith

theorem Bin.step {b c : F64} {B : ℝ} (h : Bin b B) (p : ℕ) (hp : p ≤ 2) (hc : c.isFin = true) (hv : c.val = p) (hB : B + p ≤ 2^20) : Bin (b + c) (B + p) := by
  have hf := h.fin
  obtain ⟨e, he, h1, h2, h3⟩ := h
  have hs := (add_spec hf hc).2
  rw [hv] at hs
  have p1 : (1:ℝ) ≤ 2^e := one_le_pow₀ (by norm_num)
  have hpr : (p:ℝ) ≤ 2 := by exact_mod_cast hp
  have hp0 : (0:ℝ) ≤ p := Nat.cast_nonneg p
  have hmono : b.val ≤ RN (b.val + p) := by
    have := RN_mono (show b.val ≤ b.val + p by linarith)
    rwa [RN_val (isFin_notNaN hf)] at this
  rcases lt_or_ge (b.val + p) (2^(e+1)) with hlt | hge
  · rw [exact_add he h1 p hlt] at hs
    refine ⟨e, he, by rw [hs]; linarith, by rw [hs]; exact hlt.le, ?_⟩
    rw [hs, show b.val + p - (B + p) = b.val - B by ring]; exact h3
  · have p2 : (2:ℝ)^(e+1) = 2 * 2^e := by rw [pow_succ]; ring
    have p3 : (2:ℝ)^(e+1+1) = 4 * 2^e := by rw [pow_succ, p2]; ring
    have he2 : e + 1 ≤ 20 := by
      by_contra hc'
      have he20 : e = 20 := by omega
      subst he20
      obtain ⟨g1, g2⟩ := abs_le.1 h3
      norm_num at *
      linarith
    have hup : |b.val + p| ≤ 2 * 2^e + 2 := by rw [abs_of_pos (by linarith)]; linarith
    have hq : (2:ℝ)^e ≤ 2^20 := pow_le_pow_right₀ (by norm_num) he
    have hr := (rn_mod hup (by norm_num at *; linarith)).2
    refine ⟨e + 1, he2, ?_, ?_, ?_⟩
    · rw [hs]
      have h4 := RN_mono hge
      have h5 : RN ((2:ℝ)^(e+1)) = 2^(e+1) := RN_pow2 (by omega)
      rwa [h5] at h4
    · rw [hs]
      have h4 : b.val + p ≤ (2:ℝ)^(e+1+1) := by rw [p3]; linarith
      have h5 : RN ((2:ℝ)^(e+1+1)) = 2^(e+1+1) := RN_pow2 (by omega)
      have h6 := RN_mono h4
      rwa [h5] at h6
    · rw [hs, p2]
      rw [show RN (b.val + p) - (B + p) = (RN (b.val + p) - (b.val + p)) + (b.val - B) by ring]
      refine (abs_add_le _ _).trans ?_
      refine (add_le_add hr h3).trans ?_
      generalize (2:ℝ)^e = q at *
      norm_num
      linarith

end Gcf
end Verif
