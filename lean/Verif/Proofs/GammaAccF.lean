import Verif.Proofs.GammaAcc
import Verif.Props.Gamma

/-! # The loops of `gamma` in binary64 -/

namespace Verif
open F64

/-- a rounded result near `A`; `η` covers the absolute error of subnormal numbers -/
theorem round_rel {a : F64} {x A r η : ℝ} (hv : a.val = RN x) (hx : |x - A| ≤ r * |A|) (hr : 0 ≤ r) (hr1 : r ≤ 8e-13) (h1 : η ≤ 1/2^49)
    (lo : 1 / 2^1075 ≤ η * |A|) (hi : |A| ≤ HUGE * (1 - 1e-12)) : a.isFin = true ∧ |a.val - A| ≤ (r + 1/2^52 + η) * |A| := by
  have hH : (0:ℝ) < HUGE := HUGE_pos
  have hA := abs_nonneg A
  have hx1 : |x| ≤ (1 + r) * |A| := by
    have : |x| ≤ |x - A| + |A| := by have := abs_add_le (x - A) A; simpa using this
    linarith
  have hxH : |x| < HUGE := by
    refine lt_of_le_of_lt hx1 ?_
    nlinarith
  have he := RN_err' hxH
  generalize (1:ℝ) / 2^1075 = t at *
  have h3 : |RN x - A| ≤ |RN x - x| + |x - A| := abs_sub_le _ _ _
  have h4 : |x| / 2^53 ≤ |A| * (1 / 2^52) := by
    rw [div_le_iff₀ (by norm_num)]
    have : (1 + r) * |A| ≤ |A| * 2 := by nlinarith
    linarith
  have h5 : |a.val - A| ≤ (r + 1/2^52 + η) * |A| := by
    rw [hv]
    nlinarith
  refine ⟨?_, h5⟩
  rw [isFin_iff_val]
  have h6 : |a.val| ≤ |a.val - A| + |A| := by have := abs_add_le (a.val - A) A; simpa using this
  have h7 : (r + 1/2^52 + η) ≤ 9e-13 := by
    have : (1:ℝ)/2^52 + 1/2^49 ≤ 1e-13 := by norm_num
    linarith
  have h8 : |a.val| ≤ (1 + 9e-13) * |A| := by nlinarith
  refine lt_of_le_of_lt h8 ?_
  nlinarith

theorem mul_rel2 {f z : F64} {F Z r s η : ℝ} (hf : f.isFin = true) (hz : z.isFin = true) (hF : |f.val - F| ≤ r * |F|) (hZ : |z.val - Z| ≤ s * |Z|)
    (hr : 0 ≤ r) (hs : 0 ≤ s) (hrs : r + s ≤ 7e-13) (h1 : η ≤ 1/2^49)
    (lo : 1 / 2^1075 ≤ η * |F * Z|) (hi : |F * Z| ≤ HUGE * (1 - 1e-12)) :
    (f * z).isFin = true ∧ |(f * z).val - F * Z| ≤ (r + s + 1/2^51 + η) * |F * Z| := by
  obtain ⟨-, m, -⟩ := mul_spec hf hz
  have hx : |f.val * z.val - F * Z| ≤ (r + s + r * s) * |F * Z| := by
    have e : f.val * z.val - F * Z = (f.val - F) * (z.val - Z) + (f.val - F) * Z + F * (z.val - Z) := by ring
    have a1 : |(f.val - F) * (z.val - Z)| ≤ (r * |F|) * (s * |Z|) := by rw [abs_mul]; gcongr
    have a2 : |(f.val - F) * Z| ≤ (r * |F|) * |Z| := by rw [abs_mul]; gcongr
    have a3 : |F * (z.val - Z)| ≤ |F| * (s * |Z|) := by rw [abs_mul]; gcongr
    have b1 := abs_add_le ((f.val - F) * (z.val - Z) + (f.val - F) * Z) (F * (z.val - Z))
    have b2 := abs_add_le ((f.val - F) * (z.val - Z)) ((f.val - F) * Z)
    rw [e, abs_mul F Z]
    nlinarith
  have hp : r * s ≤ 1/2^53 := by
    have h1' : r ≤ 7e-13 := by linarith
    have h2' : s ≤ 7e-13 := by linarith
    have : r * s ≤ 7e-13 * 7e-13 := by gcongr
    refine this.trans (by norm_num)
  obtain ⟨k1, k2⟩ := round_rel m hx (by positivity) (by norm_num at hp hrs ⊢; linarith) h1 lo hi
  refine ⟨k1, k2.trans (mul_le_mul_of_nonneg_right ?_ (abs_nonneg _))⟩
  norm_num at hp ⊢
  linarith

theorem tiny_le_gam {c : ℝ} {k : ℕ} (hk : k ≤ 1075) (h : 1 / 2^k ≤ c) : (1:ℝ) / 2^1075 ≤ 1 / 2^(1075 - k) * c := by
  have e : (1:ℝ) / 2^1075 = 1 / 2^(1075 - k) * (1 / 2^k) := by
    rw [div_mul_div_comm, one_mul, ← pow_add, Nat.sub_add_cancel hk]
  rw [e]
  exact mul_le_mul_of_nonneg_left h (by positivity)

/-! ## Descending -/

theorem down_acc (n : Nat) : ∀ (fuel : Nat) (z f : F64) (F g r : ℝ), n + 1 ≤ fuel → n ≤ 170 → (5:ℝ)/2 ≤ z.val → z.val < 7/2 + n →
    f.isFin = true → 1 ≤ F → |f.val - F| ≤ r * F → 0 ≤ r → r + n / 2^50 ≤ 3e-13 → Real.Gamma z.val * F = g → g ≤ HUGE * (1 - 1e-12) →
    ∃ z' f' F', gammaDown fuel z f = .ok (z', f') ∧ (5:ℝ)/2 ≤ z'.val ∧ z'.val ≤ 7/2 ∧ f'.isFin = true ∧ 1 ≤ F' ∧
      |f'.val - F'| ≤ (r + n / 2^50) * F' ∧ Real.Gamma z'.val * F' = g := by
  induction n with
  | zero =>
    intro fuel z f F g r hf _ h1 h2 h3 h4 h5 h6 h7 h8 h9
    obtain ⟨m, rfl⟩ : ∃ m, fuel = m + 1 := ⟨fuel - 1, by omega⟩
    have hlt : z.val < 7/2 := by simpa using h2
    have hz : z.isFin = true := isFin_of_abs (b := 4) (by rw [abs_le]; constructor <;> linarith) (by norm_num)
    unfold gammaDown
    have : F64.le 3.5 z = false := by
      rw [le_false_iff lit35_nn (isFin_notNaN hz), lit35_val]; exact hlt
    rw [ar_le, this]
    exact ⟨z, f, F, rfl, h1, hlt.le, h3, h4, by simpa using h5, h8⟩
  | succ n ih =>
    intro fuel z f F g r hf hn h1 h2 h3 h4 h5 h6 h7 h8 h9
    obtain ⟨m, rfl⟩ : ∃ m, fuel = m + 1 := ⟨fuel - 1, by omega⟩
    have hn' : (n:ℝ) ≤ 170 := by exact_mod_cast (by omega : n ≤ 170)
    push_cast at h2 h7 ⊢
    have hz : z.isFin = true := isFin_of_abs (b := 200) (by rw [abs_le]; constructor <;> linarith) (by norm_num)
    rcases lt_or_ge z.val (7/2) with hlt | hge
    · unfold gammaDown
      have : F64.le 3.5 z = false := by
        rw [le_false_iff lit35_nn (isFin_notNaN hz), lit35_val]; exact hlt
      rw [ar_le, this]
      refine ⟨z, f, F, rfl, h1, hlt.le, h3, h4, h5.trans (mul_le_mul_of_nonneg_right ?_ (by linarith)), h8⟩
      have : (0:ℝ) ≤ ((n:ℝ) + 1) / 2^50 := by positivity
      linarith
    · have : F64.le 3.5 z = true := by
        rw [le_iff, lit35_val]; exact ⟨lit35_nn, isFin_notNaN hz, hge⟩
      unfold gammaDown
      rw [ar_le, this]
      simp only [if_true]
      obtain ⟨s1, s2⟩ := sub_one_f64 (z := z) (by linarith) (by norm_num; linarith)
      have eG := Real.Gamma_add_one (s := z.val - 1) (by linarith)
      rw [sub_add_cancel] at eG
      have hG := Gam_ge_one (a := z.val - 1) (by linarith)
      have hF' : 1 ≤ F * (z.val - 1) := by nlinarith
      have eg : Real.Gamma (z.val - 1) * (F * (z.val - 1)) = g := by rw [← h8, eG]; ring
      have hgF : F * (z.val - 1) ≤ g := by rw [← eg]; nlinarith
      have h50 : (0:ℝ) ≤ (n:ℝ) / 2^50 := by positivity
      have hd : ((n:ℝ) + 1) / 2^50 = n / 2^50 + 1 / 2^50 := by ring
      rw [hd] at h7 ⊢
      have hab : |F * (z.val - 1)| = F * (z.val - 1) := abs_of_pos (by linarith)
      have t := tiny_le_gam (c := |F * (z.val - 1)|) (k := 0) (by norm_num) (by rw [hab]; simpa using hF')
      have t2 : (1:ℝ) / 2^(1075 - 0) ≤ 1/2^60 := one_div_le_one_div_of_le (by positivity) (pow_le_pow_right₀ (by norm_num) (by norm_num))
      have hmul := mul_rel2 (f := f) (z := z - 1.0) (F := F) (Z := z.val - 1) (r := r) (s := 0) (η := 1/2^60) h3 s1
        (by rw [abs_of_pos (by linarith : 0 < F)]; exact h5) (by rw [s2]; simp) h6 (le_refl 0) (by norm_num at h7 ⊢; linarith) (by norm_num)
        (t.trans (mul_le_mul_of_nonneg_right t2 (abs_nonneg _))) (by rw [hab]; linarith)
      rw [hab] at hmul
      have hc : r + 0 + 1/2^51 + 1/2^60 ≤ r + 1/2^50 := by norm_num; linarith
      obtain ⟨z', f', F', e1, e2, e3, e4, e5, e6, e7⟩ := ih m (z - 1.0) (f * (z - 1.0)) (F * (z.val - 1)) g (r + 1/2^50) (by omega) (by omega)
        (by rw [s2]; linarith) (by rw [s2]; linarith) hmul.1 hF' (hmul.2.trans (mul_le_mul_of_nonneg_right hc (by linarith))) (by positivity)
        (by linarith) (by rw [s2]; exact eg) h9
      refine ⟨z', f', F', e1, e2, e3, e4, e5, ?_, e7⟩
      rw [show r + (n / 2^50 + 1 / 2^50) = r + 1/2^50 + n / 2^50 by ring]
      exact e6

/-! ## Ascending -/

theorem HUGE_inv {g : ℝ} {c : ℝ} (h : 1/2 ≤ c * g) (h0 : 0 < g) (hg : g ≤ HUGE) : (1:ℝ) / 2^1025 ≤ c := by
  rw [HUGE_eq] at hg
  have e : (1:ℝ) / 2^1025 = 1 / 2 / 2^1024 := by rw [div_div, ← pow_succ']
  rw [e, div_le_iff₀ (by positivity)]
  have hc : 0 < c := by
    by_contra hc
    have : c * g ≤ 0 := mul_nonpos_of_nonpos_of_nonneg (by linarith) h0.le
    linarith
  exact h.trans (mul_le_mul_of_nonneg_left hg hc.le)

theorem up_pos (n : Nat) : ∀ (e fuel : Nat) (z f : F64) (Z F g r : ℝ), n + 1 ≤ fuel → e + n ≤ 4 → 3 - (n:ℝ) ≤ z.val → z.val ≤ 7/2 →
    -(1/2) < Z → |z.val - Z| ≤ e / 2^51 → (e = 0 ∨ 1/2 ≤ Z) → Z ≠ 0 → f.isFin = true → |f.val - F| ≤ r * |F| → 0 ≤ r → r + n / 2^47 ≤ 3e-13 →
    Real.Gamma Z = F * g → 0 < |g| → |g| ≤ HUGE → 7 ≤ HUGE * |g| →
    ∃ z' f' Z' F', gammaUp fuel z f = .ok (some (z', f')) ∧ (5:ℝ)/2 ≤ z'.val ∧ z'.val ≤ 7/2 ∧ |z'.val - Z'| ≤ 4 / 2^51 ∧ f'.isFin = true ∧
      |f'.val - F'| ≤ (r + n / 2^47) * |F'| ∧ Real.Gamma Z' = F' * g := by
  induction n with
  | zero =>
    intro e fuel z f Z F g r hf hen h1 h2 h3 h4 h5 h6 h7 h8 h9 h10 h11 h12 h13 h14
    obtain ⟨m, rfl⟩ : ∃ m, fuel = m + 1 := ⟨fuel - 1, by omega⟩
    have hz3 : 3 ≤ z.val := by simpa using h1
    have hz : z.isFin = true := isFin_of_abs (b := 4) (by rw [abs_le]; constructor <;> linarith) (by norm_num)
    unfold gammaUp
    have : F64.le z 2.5 = false := by
      rw [le_false_iff (isFin_notNaN hz) lit25_nn, lit25_val]; linarith
    rw [ar_le, this]
    have he : (e:ℝ) ≤ 4 := by exact_mod_cast (by omega : e ≤ 4)
    exact ⟨z, f, Z, F, rfl, by linarith, h2, h4.trans (by gcongr), h7, by simpa using h8, h11⟩
  | succ n ih =>
    intro e fuel z f Z F g r hf hen h1 h2 h3 h4 h5 h6 h7 h8 h9 h10 h11 h12 h13 h14
    obtain ⟨m, rfl⟩ : ∃ m, fuel = m + 1 := ⟨fuel - 1, by omega⟩
    have he : (e:ℝ) ≤ 4 := by exact_mod_cast (by omega : e ≤ 4)
    have hn4 : (n:ℝ) ≤ 3 := by exact_mod_cast (by omega : n ≤ 3)
    push_cast at h1 h10 ⊢
    have hz : z.isFin = true := isFin_of_abs (b := 4) (by rw [abs_le]; constructor <;> linarith) (by norm_num)
    unfold gammaUp
    rcases lt_or_ge (5/2) z.val with hgt | hle
    · have : F64.le z 2.5 = false := by
        rw [le_false_iff (isFin_notNaN hz) lit25_nn, lit25_val]; exact hgt
      rw [ar_le, this]
      refine ⟨z, f, Z, F, rfl, hgt.le, h2, h4.trans (by gcongr), h7, h8.trans (mul_le_mul_of_nonneg_right ?_ (abs_nonneg _)), h11⟩
      have : (0:ℝ) ≤ ((n:ℝ) + 1) / 2^47 := by positivity
      linarith
    · have : F64.le z 2.5 = true := by
        rw [le_iff, lit25_val]; exact ⟨isFin_notNaN hz, lit25_nn, hle⟩
      rw [ar_le, this]
      simp only [if_true]
      rw [ar_isInf]
      have he51 : (e:ℝ) / 2^51 ≤ 4 / 2^51 := by gcongr
      have hZ4 := abs_le.1 (h4.trans he51)
      have hs51 : (4:ℝ) / 2^51 ≤ 1/4 := by norm_num
      have hZu : Z ≤ 3 := by linarith
      have eG := Real.Gamma_add_one h6
      have eG2 : Real.Gamma (Z + 1) = F * Z * g := by rw [eG, h11]; ring
      have hGl := Gam_half (a := Z + 1) (by linarith)
      have hGu := Gam_six (a := Z + 1) (by linarith) (by linarith)
      have eab : Real.Gamma (Z + 1) = |F * Z| * |g| := by
        rw [← abs_mul, ← eG2, abs_of_pos (by linarith)]
      have hlo := HUGE_inv (c := |F * Z|) (g := |g|) (by linarith) h12 h13
      have hhi : |F * Z| ≤ HUGE * (1 - 1e-12) := by
        have : |F * Z| * |g| ≤ (HUGE * (6/7)) * |g| := by linarith
        have := le_of_mul_le_mul_right this h12
        have hH := HUGE_pos
        refine this.trans ?_
        nlinarith
      have hsZ : |z.val - Z| ≤ 1/2^48 * |Z| := by
        rcases h5 with h5 | h5
        · subst h5
          simp only [Nat.cast_zero, zero_div] at h4
          exact h4.trans (by positivity)
        · have : (4:ℝ)/2^51 = 1/2^48 * (1/2) := by norm_num
          rw [this] at he51
          refine h4.trans (he51.trans ?_)
          have : 1/2 ≤ |Z| := h5.trans (le_abs_self _)
          gcongr
      have h50 : (0:ℝ) ≤ (n:ℝ) / 2^47 := by positivity
      have hd : ((n:ℝ) + 1) / 2^47 = n / 2^47 + 1 / 2^47 := by ring
      rw [hd] at h10 ⊢
      have hmul := mul_rel2 (f := f) (z := z) (F := F) (Z := Z) (r := r) (s := 1/2^48) (η := 1/2^(1075-1025)) h7 hz h8 hsZ h9 (by positivity)
        (by norm_num at h10 ⊢; linarith) (by norm_num) (tiny_le_gam (by norm_num) hlo) hhi
      have hc : r + 1/2^48 + 1/2^51 + 1/2^(1075-1025) ≤ r + 1/2^47 := by norm_num; linarith
      rw [isFin_notInf hmul.1]
      simp only [Bool.false_eq_true, if_false]
      obtain ⟨a1, a2⟩ := add_one_f64 hz
      have b1 : 3 - (n:ℝ) ≤ (z + 1.0).val := by
        rw [a2]
        have e : (3:ℝ) - n = ((3 - n : ℤ) : ℝ) := by push_cast; ring
        rw [e, ← RN_int (3 - (n:ℤ)) (by rw [abs_le]; constructor <;> omega)]
        apply RN_mono
        push_cast at h1 ⊢; linarith
      have b3 : (z + 1.0).val ≤ 7/2 := by
        rw [a2]
        have := RN_mono (show z.val + 1 ≤ ((7:ℤ):ℝ)/2 by push_cast; linarith)
        rw [RN_half 7 (by norm_num)] at this; push_cast at this; linarith
      have b4 : |(z + 1.0).val - (Z + 1)| ≤ ((e + 1 : ℕ) : ℝ) / 2^51 := by
        have hab : |z.val + 1| ≤ 7/2 := by rw [abs_le]; constructor <;> linarith
        have r1 := RN_err' (x := z.val + 1) (lt_of_le_of_lt hab (lt_of_lt_of_le (by norm_num) HUGE_ge))
        rw [← a2] at r1
        have r2 : |z.val + 1| / 2^53 ≤ 7/2/2^53 := by gcongr
        have r3 : (1:ℝ)/2^1075 ≤ 1/2^60 := one_div_le_one_div_of_le (by positivity) (pow_le_pow_right₀ (by norm_num) (by norm_num))
        generalize (1:ℝ)/2^1075 = t at *
        have r4 := abs_sub_le (z + 1.0).val (z.val + 1) (Z + 1)
        rw [show z.val + 1 - (Z + 1) = z.val - Z by ring] at r4
        push_cast
        rw [add_div]
        have r5 : (7:ℝ)/2/2^53 + 1/2^60 ≤ 1/2^51 := by norm_num
        linarith
      obtain ⟨z', f', Z', F', e1, e2, e3, e4, e5, e6, e7⟩ := ih (e+1) m (z + 1.0) (f * z) (Z + 1) (F * Z) g (r + 1/2^47) (by omega) (by omega)
        b1 b3 (by linarith) b4 (Or.inr (by linarith)) (by linarith) hmul.1 (hmul.2.trans (mul_le_mul_of_nonneg_right hc (abs_nonneg _)))
        (by positivity) (by linarith) eG2 h12 h13 h14
      refine ⟨z', f', Z', F', e1, e2, e3, e4, e5, ?_, e7⟩
      rw [show r + (n / 2^47 + 1 / 2^47) = r + 1/2^47 + n / 2^47 by ring]
      exact e6

/-- `|Γ(z)|·k! ≥ 1/2` for `-k < z` -/
theorem Gam_neg_lower (k : ℕ) : ∀ z : ℝ, -(k:ℝ) < z → (¬ ∃ i : ℕ, z = -i) → 1/2 ≤ |Real.Gamma z| * k.factorial := by
  induction k with
  | zero =>
    intro z h _
    have h' : 0 < z := by simpa using h
    have := Gam_half h'
    rw [abs_of_pos (by linarith)]; simpa using this
  | succ k ih =>
    intro z h hp
    rcases lt_or_ge 0 z with h0 | h0
    · have := Gam_half h0
      rw [abs_of_pos (by linarith)]
      have h1 : (1:ℝ) ≤ ((k+1).factorial : ℝ) := by exact_mod_cast Nat.one_le_iff_ne_zero.2 (Nat.factorial_ne_zero _)
      nlinarith
    · have hz0 : z ≠ 0 := fun e => hp ⟨0, by rw [e]; simp⟩
      push_cast at h
      have := ih (z + 1) (by linarith) (by rintro ⟨i, hi⟩; exact hp ⟨i + 1, by push_cast; linarith⟩)
      rw [Real.Gamma_add_one hz0, abs_mul] at this
      have hz1 : |z| ≤ k + 1 := by rw [abs_of_nonpos h0]; linarith
      rw [Nat.factorial_succ, Nat.cast_mul]
      push_cast
      have hq : 0 ≤ |Real.Gamma z| * (k.factorial : ℝ) := by positivity
      nlinarith

theorem fact170 : ((170).factorial : ℝ) * 16 ≤ HUGE := by
  rw [HUGE_eq]
  have : (170).factorial * 16 ≤ 2^1024 := by decide +kernel
  exact_mod_cast this

theorem RN_add_one' {a : F64} (h1 : a.val ≤ -(1/2)) (h2 : -2^53 < a.val) : RN (a.val + 1) = a.val + 1 := by
  rcases le_or_gt a.val (-1) with h | h
  · exact RN_add_one h h2
  obtain ⟨m, e, hm, hm1, he, hn⟩ := val_decomp a
  rw [abs_of_neg (by linarith)] at hm
  have hv : a.val = -((m:ℝ) * 2^e) := by linarith
  rw [hv] at h1 h ⊢
  have hm53 : (m:ℝ) < 2^53 := by exact_mod_cast hm1
  have he' : -53 ≤ e := by
    by_contra hc
    have : (2:ℝ)^e ≤ 2^(-54:ℤ) := zpow_le_zpow_right₀ (by norm_num) (by omega)
    have h3 : (m:ℝ) * 2^e ≤ 2^53 * 2^(-54:ℤ) := mul_le_mul hm53.le this (by positivity) (by positivity)
    have h4 : (m:ℝ) * 2^e < 2^53 * 2^(-54:ℤ) := by
      refine lt_of_le_of_lt (mul_le_mul_of_nonneg_left this (by positivity)) ?_
      exact mul_lt_mul_of_pos_right hm53 (by positivity)
    norm_num at h4 h1
    linarith
  have hm52 : 2^52 ≤ m := by rcases hn with hn | hn <;> omega
  have hm52' : (2:ℝ)^52 ≤ m := by exact_mod_cast hm52
  have he2 : e ≤ -53 := by
    by_contra hc
    have h3 : (2:ℝ)^(-52:ℤ) ≤ 2^e := zpow_le_zpow_right₀ (by norm_num) (by omega)
    have h4 : (2:ℝ)^52 * 2^(-52:ℤ) ≤ (m:ℝ) * 2^e := mul_le_mul hm52' h3 (by positivity) (by positivity)
    norm_num at h4
    linarith
  obtain rfl : e = -53 := by omega
  have e2 : -((m:ℝ) * 2^(-53:ℤ)) + 1 = ((2^53 - m : ℤ) : ℝ) * 2^(-53:ℤ) := by
    push_cast
    have : (2:ℝ)^53 * 2^(-53:ℤ) = 1 := by norm_num
    linear_combination -this
  rw [e2]
  refine RN_dyadic _ _ (by rw [abs_le]; constructor <;> omega) (by norm_num) ?_
  rw [← e2, abs_of_nonneg (by linarith)]
  have := HUGE_ge
  clear e2 hm52' hm53 hv
  generalize (m:ℝ) * 2^(-53:ℤ) = t at *
  have h5 : (1:ℝ) ≤ 10^200 := by norm_num
  linarith

theorem up_acc {Q : ℝ} (hQ : Q * 16 ≤ HUGE) (k : Nat) : ∀ (fuel : Nat) (z f : F64) (F g r : ℝ), k + 6 ≤ fuel → k ≤ 170 → -(k:ℝ) < z.val → z.val ≤ 5/2 →
    (¬ ∃ i : ℤ, z.val = i) → f.isFin = true → |f.val - F| ≤ r * |F| → 0 ≤ r → r + k / 2^50 ≤ 2e-13 → 1 ≤ |F| →
    |F| * k.factorial ≤ Q →
    Real.Gamma z.val = F * g → 0 < |g| → |g| ≤ HUGE → 7 ≤ HUGE * |g| →
    ∃ z' f' Z' F', gammaUp fuel z f = .ok (some (z', f')) ∧ (5:ℝ)/2 ≤ z'.val ∧ z'.val ≤ 7/2 ∧ |z'.val - Z'| ≤ 4 / 2^51 ∧ f'.isFin = true ∧
      |f'.val - F'| ≤ (r + k / 2^50 + 1 / 2^45) * |F'| ∧ Real.Gamma Z' = F' * g := by
  have base : ∀ (fuel : Nat) (z f : F64) (F g r q : ℝ), 5 ≤ fuel → -(1/2) < z.val → z.val ≤ 5/2 →
    (¬ ∃ i : ℤ, z.val = i) → f.isFin = true → |f.val - F| ≤ r * |F| → 0 ≤ r → 0 ≤ q → r + q ≤ 2e-13 →
    Real.Gamma z.val = F * g → 0 < |g| → |g| ≤ HUGE → 7 ≤ HUGE * |g| →
    ∃ z' f' Z' F', gammaUp fuel z f = .ok (some (z', f')) ∧ (5:ℝ)/2 ≤ z'.val ∧ z'.val ≤ 7/2 ∧ |z'.val - Z'| ≤ 4 / 2^51 ∧ f'.isFin = true ∧
      |f'.val - F'| ≤ (r + q + 1 / 2^45) * |F'| ∧ Real.Gamma Z' = F' * g := by
    intro fuel z f F g r q a1 a2 a3 a4 a5 a6 a7 a8 a9 a10 a11 a12 a13
    obtain ⟨z', f', Z', F', e1, e2, e3, e4, e5, e6, e7⟩ := up_pos 4 0 fuel z f z.val F g r a1 (by norm_num) (by push_cast; linarith) (by linarith) a2
      (by simp) (Or.inl rfl) (fun e => a4 ⟨0, by rw [e]; simp⟩) a5 a6 a7 (by norm_num at a9 ⊢; linarith) a10 a11 a12 a13
    refine ⟨z', f', Z', F', e1, e2, e3, e4, e5, e6.trans (mul_le_mul_of_nonneg_right ?_ (abs_nonneg _)), e7⟩
    have : (((4:ℕ):ℝ) / 2^47) = 1/2^45 := by norm_num
    rw [this]; linarith
  induction k with
  | zero =>
    intro fuel z f F g r h1 _ h2 h3 h4 h5 h6 h7 h8 _ _ h11 h12 h13 h14
    have h2' : 0 < z.val := by simpa using h2
    exact base fuel z f F g r _ (by omega) (by linarith) h3 h4 h5 h6 h7 (by positivity) h8 h11 h12 h13 h14
  | succ k ih =>
    intro fuel z f F g r h1 hk h2 h3 h4 h5 h6 h7 h8 h9 h10 h11 h12 h13 h14
    rcases lt_or_ge (-(1/2)) z.val with h0 | h0
    · exact base fuel z f F g r _ (by omega) h0 h3 h4 h5 h6 h7 (by positivity) h8 h11 h12 h13 h14
    obtain ⟨m, rfl⟩ : ∃ m, fuel = m + 1 := ⟨fuel - 1, by omega⟩
    have hk' : (k:ℝ) ≤ 170 := by exact_mod_cast (by omega : k ≤ 170)
    push_cast at h2 h8 ⊢
    have hz : z.isFin = true := isFin_of_abs (b := 200) (by rw [abs_le]; constructor <;> linarith) (by norm_num)
    unfold gammaUp
    have : F64.le z 2.5 = true := by
      rw [le_iff, lit25_val]; exact ⟨isFin_notNaN hz, lit25_nn, by linarith⟩
    rw [ar_le, this]
    simp only [if_true]
    rw [ar_isInf]
    have hz0 : z.val ≠ 0 := by linarith
    have habz : |z.val| = -z.val := abs_of_neg (by linarith)
    have hFz : |F * z.val| = |F| * (-z.val) := by rw [abs_mul, habz]
    have hlo : 1/2 ≤ |F * z.val| := by rw [hFz]; nlinarith
    have hfac : |F * z.val| * k.factorial ≤ Q := by
      refine le_trans ?_ h10
      rw [Nat.factorial_succ, Nat.cast_mul, hFz]
      push_cast
      have hq : 0 ≤ |F| * (k.factorial : ℝ) := by positivity
      nlinarith
    have h1f : (1:ℝ) ≤ (k.factorial : ℝ) := by exact_mod_cast Nat.one_le_iff_ne_zero.2 (Nat.factorial_ne_zero _)
    have hhi : |F * z.val| ≤ HUGE * (1 - 1e-12) := by
      have hH := HUGE_pos
      have b : |F * z.val| ≤ Q := by nlinarith [abs_nonneg (F * z.val)]
      nlinarith
    have t := tiny_le_gam (c := |F * z.val|) (k := 1) (by norm_num) (by simpa using hlo)
    have t2 : (1:ℝ) / 2^(1075 - 1) ≤ 1/2^60 := one_div_le_one_div_of_le (by positivity) (pow_le_pow_right₀ (by norm_num) (by norm_num))
    have hd : ((k:ℝ) + 1) / 2^50 = k / 2^50 + 1 / 2^50 := by ring
    have h50 : (0:ℝ) ≤ (k:ℝ) / 2^50 := by positivity
    rw [hd] at h8 ⊢
    have hmul := mul_rel2 (f := f) (z := z) (F := F) (Z := z.val) (r := r) (s := 0) (η := 1/2^60) h5 hz h6 (by simp) h7 (le_refl 0)
      (by norm_num at h8 ⊢; linarith) (by norm_num) (t.trans (mul_le_mul_of_nonneg_right t2 (abs_nonneg _))) hhi
    have hc : r + 0 + 1/2^51 + 1/2^60 ≤ r + 1/2^50 := by norm_num; linarith
    rw [isFin_notInf hmul.1]
    simp only [Bool.false_eq_true, if_false]
    obtain ⟨a1, a2⟩ := add_one_f64 hz
    rw [RN_add_one' h0 (by norm_num; linarith)] at a2
    have eG : Real.Gamma (z.val + 1) = F * z.val * g := by rw [Real.Gamma_add_one hz0, h11]; ring
    have hni : ¬ ∃ i : ℤ, (z + 1.0).val = i := by
      rintro ⟨i, hi⟩
      exact h4 ⟨i - 1, by push_cast; rw [a2] at hi; linarith⟩
    have hr' := hmul.2.trans (mul_le_mul_of_nonneg_right hc (abs_nonneg _))
    have fin : ∀ z' f' Z' F', (gammaUp m (z + 1.0) (f * z) = .ok (some (z', f')) ∧ (5:ℝ)/2 ≤ z'.val ∧ z'.val ≤ 7/2 ∧ |z'.val - Z'| ≤ 4 / 2^51 ∧ f'.isFin = true ∧
      |f'.val - F'| ≤ (r + 1/2^50 + k / 2^50 + 1 / 2^45) * |F'| ∧ Real.Gamma Z' = F' * g) →
      (gammaUp m (z + 1.0) (f * z) = .ok (some (z', f')) ∧ (5:ℝ)/2 ≤ z'.val ∧ z'.val ≤ 7/2 ∧ |z'.val - Z'| ≤ 4 / 2^51 ∧ f'.isFin = true ∧
      |f'.val - F'| ≤ (r + (k / 2^50 + 1/2^50) + 1 / 2^45) * |F'| ∧ Real.Gamma Z' = F' * g) := by
      rintro z' f' Z' F' ⟨e1, e2, e3, e4, e5, e6, e7⟩
      refine ⟨e1, e2, e3, e4, e5, ?_, e7⟩
      rw [show r + (k / 2^50 + 1/2^50) + 1 / 2^45 = r + 1/2^50 + k / 2^50 + 1 / 2^45 by ring]
      exact e6
    rcases lt_or_ge (-(1/2)) (z.val + 1) with hq | hq
    · obtain ⟨z', f', Z', F', hh⟩ := base m (z + 1.0) (f * z) (F * z.val) g (r + 1/2^50) (k / 2^50) (by omega) (by rw [a2]; exact hq)
        (by rw [a2]; linarith) hni hmul.1 hr' (by positivity) h50 (by linarith) (by rw [a2]; exact eG) h12 h13 h14
      exact ⟨z', f', Z', F', fin _ _ _ _ hh⟩
    · obtain ⟨z', f', Z', F', hh⟩ := ih m (z + 1.0) (f * z) (F * z.val) g (r + 1/2^50) (by omega) (by omega) (by rw [a2]; linarith)
        (by rw [a2]; linarith) hni hmul.1 hr' (by positivity) (by linarith) (by rw [hFz]; nlinarith) hfac (by rw [a2]; exact eG) h12 h13 h14
      exact ⟨z', f', Z', F', fin _ _ _ _ hh⟩

variable [Cfg]

/-- the core in binary64 against `Γ` at a nearby point -/
theorem core_near {z : F64} {Z : ℝ} (h1 : (5:ℝ)/2 ≤ z.val) (h2 : z.val ≤ 7/2) (h : |z.val - Z| ≤ 4 / 2^51) :
    |(gammaCore z).val - Real.Gamma Z| ≤ 3.1e-13 * |Real.Gamma Z| ∧ 1 ≤ Real.Gamma Z ∧ Real.Gamma Z ≤ 6 := by
  have a := core_round h1 h2
  have b := gammaCore_exact h1 h2
  have hs : (4:ℝ)/2^51 ≤ 1/10^14 := by norm_num
  have hZ := abs_le.1 (h.trans hs)
  have hs2 : (1:ℝ)/10^14 ≤ 1/10 := by norm_num
  have c := Gam_near (a := z.val) (b := Z) (by linarith) (by linarith) (by linarith) (by linarith) h (by norm_num)
  have hG1 := Gam_ge_one (a := Z) (by linarith)
  have hG6 := Gam_six (a := Z) (by linarith) (by linarith)
  refine ⟨?_, hG1, hG6⟩
  rw [abs_of_pos (by linarith : 0 < Real.Gamma Z)]
  have t1 := abs_sub_le (gammaCore z).val (gammaCore z.val) (Real.Gamma Z)
  have t2 := abs_sub_le (gammaCore z.val) (Real.Gamma z.val) (Real.Gamma Z)
  have c' := (abs_le.1 c).2
  generalize Real.Gamma Z = G at *
  generalize Real.Gamma z.val = H at *
  norm_num at *
  nlinarith

end Verif
