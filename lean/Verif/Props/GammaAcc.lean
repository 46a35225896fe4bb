import Verif.Proofs.GammaAccF

/-!
# C69: `gamma` (src/gamma.rs) is accurate

`Real.Gamma` is Mathlib's gamma function, `HUGE = 2^1024` the overflow threshold of binary64.  Nothing is assumed about the
platform's `libm`: `gamma` uses only additions, products and one division.  Both settings of `cfg(target_feature = "fma")` are covered.
-/

namespace Verif
open F64
variable [Cfg]

/-- C69: in exact arithmetic the program is within a relative error of `2.9·10⁻¹³` of the gamma function, everywhere but at the poles. -/
theorem gamma_exact_accurate (z : ℝ) (h1 : -240 < z) (h2 : z ≤ 171) (hp : ¬ ∃ n : ℕ, z = -n) :
    ∃ g : ℝ, Returns (gamma z) g ∧ |g - Real.Gamma z| ≤ 2.9e-13 * |Real.Gamma z| :=
  gamma_exact_acc h1 h2 hp

theorem gamma_acc_up {z : F64} (hf : z.isFin = true) (hi : ¬ ∃ i : ℤ, z.val = i) (h1 : -170 < z.val) (h2 : z.val < 5/2)
    (h3 : |Real.Gamma z.val| ≤ HUGE * (1 - 1e-12)) :
    ∃ v : F64, gamma z = .ok v ∧ v.isFin = true ∧ |v.val - Real.Gamma z.val| ≤ 6e-13 * |Real.Gamma z.val| := by
  have hnn := isFin_notNaN hf
  rw [gamma_main hf (fun h => hi h.2) (by linarith [gmax_ge])]
  have c1 : F64.lt 3.5 z = false := by rw [lt_false_iff lit35_nn hnn, lit35_val]; linarith
  have c2 : F64.lt z 2.5 = true := by rw [lt_iff, lit25_val]; exact ⟨hnn, lit25_nn, h2⟩
  rw [c1, c2, if_neg (by decide), if_pos rfl]
  have hlow := Gam_neg_lower 170 z.val (by push_cast; linarith) (fun ⟨n, hn⟩ => hi ⟨-n, by push_cast; exact hn⟩)
  obtain ⟨Q, eQ⟩ : ∃ Q : ℝ, Q = ((170).factorial : ℝ) := ⟨_, rfl⟩
  have hQ := fact170
  have hup := up_acc hQ 170 gammaFuel z 1.0 1 (Real.Gamma z.val) 0 (by norm_num) (by norm_num) (by push_cast; linarith) (by linarith) hi one_fin
    (by rw [one_val]; simp) (le_refl 0) (by norm_num) (by simp) (by rw [abs_one, one_mul]) (by ring)
  rw [← eQ] at hlow hQ
  clear eQ
  have hH : 0 < HUGE := HUGE_pos
  have hg0 : 0 < |Real.Gamma z.val| := by
    by_contra hc
    have : |Real.Gamma z.val| = 0 := le_antisymm (not_lt.1 hc) (abs_nonneg _)
    rw [this] at hlow; norm_num at hlow
  generalize Real.Gamma z.val = g at *
  have hgH : 8 ≤ HUGE * |g| := by nlinarith
  obtain ⟨z', f', Z', F', e1, e2, e3, e4, e5, e6, e7⟩ := hup hg0 (by nlinarith) (by linarith)
  rw [e1]
  refine ⟨gammaCore z' * (1.0 / f'), rfl, ?_⟩
  obtain ⟨k1, k2, k3⟩ := core_near e2 e3 e4
  have hF0 : F' ≠ 0 := by rintro rfl; rw [zero_mul] at e7; linarith
  have hF0' : 0 < |F'| := abs_pos.2 hF0
  have hr : (0:ℝ) + ((170:ℕ):ℝ) / 2^50 + 1/2^45 ≤ 1.8e-13 := by norm_num
  have e6' := e6.trans (mul_le_mul_of_nonneg_right hr hF0'.le)
  have hfl : |F'| * (1 - 1.8e-13) ≤ |f'.val| := by
    have := abs_sub_abs_le_abs_sub F' f'.val
    rw [abs_sub_comm] at this
    linarith
  have hf0 : 0 < |f'.val| := lt_of_lt_of_le (by nlinarith) hfl
  have hfne : f'.val ≠ 0 := abs_pos.1 hf0
  have hx : |1 / f'.val - 1 / F'| ≤ 1.9e-13 * |1 / F'| := by
    have e : 1 / f'.val - 1 / F' = (F' - f'.val) / (f'.val * F') := by field_simp
    rw [e, abs_div, abs_mul, abs_div, abs_one, abs_sub_comm, div_le_iff₀ (by positivity)]
    have : 1.9e-13 * (1 / |F'|) * (|f'.val| * |F'|) = 1.9e-13 * |f'.val| := by field_simp
    rw [this]
    nlinarith
  have hA : |1 / F'| * Real.Gamma Z' = |g| := by
    rw [e7, abs_div, abs_one]
    have : F' * g = |F'| * |g| := by rw [← abs_mul, ← e7, abs_of_pos (by linarith)]
    rw [this]; field_simp
  have hG0 : 0 < Real.Gamma Z' := by linarith
  have hAlo : (1:ℝ) / 2^1024 ≤ |1 / F'| := by
    rw [div_le_iff₀ (by positivity), ← HUGE_eq]
    have : 8 ≤ HUGE * (|1 / F'| * 6) := by
      refine hgH.trans (mul_le_mul_of_nonneg_left ?_ hH.le)
      rw [← hA]; gcongr
    linarith
  have hglo : (1:ℝ) / 2^1024 ≤ |g| := by
    rw [div_le_iff₀ (by positivity), ← HUGE_eq]; linarith
  have hAhi : |1 / F'| ≤ |g| := by
    rw [← hA]
    have := abs_nonneg (1 / F')
    nlinarith
  obtain ⟨-, d2, -⟩ := div_spec one_fin e5 hfne
  rw [one_val] at d2
  have t1 := tiny_le_gam (k := 1024) (by norm_num) hAlo
  have t2 := tiny_le_gam (k := 1024) (by norm_num) hglo
  obtain ⟨w1, w2⟩ := round_rel d2 hx (by norm_num) (by norm_num) (by norm_num) t1 (hAhi.trans h3)
  have w3 : |(1.0 / f').val - 1 / F'| ≤ 2e-13 * |1 / F'| := w2.trans (mul_le_mul_of_nonneg_right (by norm_num) (abs_nonneg _))
  have hprod : Real.Gamma Z' * (1 / F') = g := by rw [e7]; field_simp
  have c := gammaCore_range e2 e3
  have fin := mul_rel2 (F := Real.Gamma Z') (Z := 1 / F') (η := 1 / 2^(1075-1024)) c.1 w1 k1 w3 (by norm_num) (by norm_num) (by norm_num)
    (by norm_num) (by rw [hprod]; exact t2) (by rw [hprod]; exact h3)
  rw [hprod] at fin
  exact ⟨fin.1, fin.2.trans (mul_le_mul_of_nonneg_right (by norm_num) (abs_nonneg _))⟩

theorem gamma_acc_down {z : F64} (hf : z.isFin = true) (hi : ¬ ∃ i : ℤ, z.val = i) (h1 : 5/2 ≤ z.val) (h2 : z.val ≤ (GAMMA_MAX_INPUT : F64).val)
    (h3 : Real.Gamma z.val ≤ HUGE * (1 - 1e-12)) :
    ∃ v : F64, gamma z = .ok v ∧ v.isFin = true ∧ |v.val - Real.Gamma z.val| ≤ 6e-13 * Real.Gamma z.val := by
  have hnn := isFin_notNaN hf
  have hmax := gmax_val_le
  rw [gamma_main hf (fun h => hi h.2) h2]
  have c2 : F64.lt z 2.5 = false := by rw [lt_false_iff hnn lit25_nn, lit25_val]; exact h1
  have hg1 := Gam_ge_one (a := z.val) (by linarith)
  have hgl : (1:ℝ) / 2^1075 ≤ 1/2^60 * |Real.Gamma z.val| := by
    rw [abs_of_pos (by linarith)]
    have : (1:ℝ) / 2^1075 ≤ 1/2^60 := one_div_le_one_div_of_le (by positivity) (pow_le_pow_right₀ (by norm_num) (by norm_num))
    refine this.trans ?_
    have : (0:ℝ) < 1/2^60 := by positivity
    nlinarith
  have hga : |Real.Gamma z.val| = Real.Gamma z.val := abs_of_pos (by linarith)
  rcases lt_or_ge (7/2) z.val with h | h
  · have c1 : F64.lt 3.5 z = true := by rw [lt_iff, lit35_val]; exact ⟨lit35_nn, hnn, h⟩
    rw [c1, if_pos rfl]
    obtain ⟨z', f', F', e1, e2, e3, e4, e5, e6, e7⟩ := down_acc 169 gammaFuel z 1.0 1 (Real.Gamma z.val) 0 (by norm_num) (by norm_num) h1
      (by push_cast; linarith) one_fin (le_refl 1) (by rw [one_val]; simp) (le_refl 0) (by norm_num) (by ring) h3
    rw [e1]
    refine ⟨gammaCore z' * f', rfl, ?_⟩
    obtain ⟨k1, k2, k3⟩ := core_near (z := z') (Z := z'.val) e2 e3 (by rw [sub_self, abs_zero]; positivity)
    have c := gammaCore_range e2 e3
    have hr : (0:ℝ) + ((169:ℕ):ℝ) / 2^50 ≤ 1.6e-13 := by norm_num
    have fin := mul_rel2 (F := Real.Gamma z'.val) (Z := F') (s := 1.6e-13) (η := 1/2^60) c.1 e4 k1
      (by rw [abs_of_pos (by linarith : 0 < F')]; exact e6.trans (mul_le_mul_of_nonneg_right hr (by linarith)))
      (by norm_num) (by norm_num) (by norm_num) (by norm_num) (by rw [e7]; exact hgl) (by rw [e7, hga]; exact h3)
    rw [e7] at fin
    rw [← hga]
    exact ⟨fin.1, by rw [hga] at fin ⊢; exact fin.2.trans (mul_le_mul_of_nonneg_right (by norm_num) (by linarith))⟩
  · have c1 : F64.lt 3.5 z = false := by rw [lt_false_iff lit35_nn hnn, lit35_val]; exact h
    rw [c1, c2, if_neg (by decide), if_neg (by decide)]
    refine ⟨gammaCore z * 1.0, rfl, ?_⟩
    obtain ⟨k1, k2, k3⟩ := core_near (z := z) (Z := z.val) h1 h (by rw [sub_self, abs_zero]; positivity)
    have c := gammaCore_range h1 h
    have fin := mul_rel2 (F := Real.Gamma z.val) (Z := 1) (s := 0) (η := 1/2^60) c.1 one_fin k1
      (by rw [one_val]; simp) (by norm_num) (by norm_num) (by norm_num) (by norm_num) (by rw [mul_one]; exact hgl) (by rw [mul_one, hga]; exact h3)
    rw [mul_one, hga] at fin
    exact ⟨fin.1, fin.2.trans (mul_le_mul_of_nonneg_right (by norm_num) (by linarith))⟩

/-- C69: in binary64, for every argument `z > -170` that is not a pole and not above `171.6243769563027`, and whose gamma value does not
overflow, `gamma z` returns a finite number within a relative error of `6·10⁻¹³` of the gamma function. -/
theorem gamma_accurate (z : F64) (hp : ¬ ∃ n : ℕ, z.val = -n) (h1 : -170 < z.val) (h2 : F64.le z 171.6243769563027 = true)
    (h3 : |Real.Gamma z.val| ≤ 2^1024 * (1 - 1e-12)) :
    ∃ v : F64, Returns (gamma z) v ∧ v.isFin = true ∧ |v.val - Real.Gamma z.val| ≤ 6e-13 * |Real.Gamma z.val| := by
  rw [← HUGE_eq] at h3
  have h2' : z.val ≤ (GAMMA_MAX_INPUT : F64).val := (le_iff.1 h2).2.2
  have hmax := gmax_val_le
  have hf : z.isFin = true := isFin_of_abs (b := 200) (by rw [abs_le]; constructor <;> linarith) (by norm_num)
  by_cases hi : ∃ i : ℤ, z.val = i
  · obtain ⟨i, hz⟩ := hi
    have hi0 : 0 < i := by
      by_contra hc
      refine hp ⟨(-i).toNat, ?_⟩
      have : (((-i).toNat : ℤ) : ℝ) = ((-i : ℤ) : ℝ) := by rw [Int.toNat_of_nonneg (by omega)]
      rw [Int.cast_natCast] at this
      rw [this, hz]; push_cast; ring
    obtain ⟨k, rfl⟩ := Int.eq_ofNat_of_zero_le hi0.le
    rw [Int.cast_natCast] at hz
    have hk : k ≤ 171 := by
      have : (k:ℝ) < 172 := by rw [← hz]; linarith
      have : k < 172 := by exact_mod_cast this
      omega
    obtain ⟨v, v1, v2⟩ := gamma_int_accurate k (by omega) hk z hz
    have eG : Real.Gamma z.val = (Nat.factorial (k-1) : ℝ) := by
      rw [hz]
      obtain ⟨j, rfl⟩ : ∃ j, k = j + 1 := ⟨k - 1, by omega⟩
      have := Real.Gamma_nat_eq_factorial j
      push_cast at this ⊢
      rw [this]
    rw [eG] at h3 ⊢
    have hpos : (0:ℝ) ≤ (Nat.factorial (k-1) : ℝ) := Nat.cast_nonneg _
    rw [abs_of_nonneg hpos] at h3 ⊢
    generalize ((Nat.factorial (k-1) : ℕ) : ℝ) = N at *
    have hc : (2:ℝ)^(-50:ℤ) ≤ 6e-13 := by norm_num
    have v3 : |v.val - N| ≤ 6e-13 * N := v2.trans (by rw [mul_comm]; exact mul_le_mul_of_nonneg_right hc hpos)
    refine ⟨v, v1, ?_, v3⟩
    rw [isFin_iff_val]
    have h6 : |v.val| ≤ |v.val - N| + |N| := by have := abs_add_le (v.val - N) N; simpa using this
    rw [abs_of_nonneg hpos] at h6
    have hH := HUGE_pos
    nlinarith
  · rcases lt_or_ge z.val (5/2) with h | h
    · exact gamma_acc_up hf hi h1 h h3
    · have hG := Real.Gamma_pos_of_pos (s := z.val) (by linarith)
      rw [abs_of_pos hG] at h3 ⊢
      exact gamma_acc_down hf hi h h2' h3

/-- C69 for positive arguments, without a condition on the gamma value. -/
theorem gamma_accurate_pos (z : F64) (h1 : 1 / 10^300 ≤ z.val) (h2 : z.val ≤ 171) :
    ∃ v : F64, Returns (gamma z) v ∧ v.isFin = true ∧ |v.val - Real.Gamma z.val| ≤ 6e-13 * Real.Gamma z.val := by
  have h0 : 0 < z.val := lt_of_lt_of_le (by positivity) h1
  have hG := Real.Gamma_pos_of_pos h0
  have hle : F64.le z 171.6243769563027 = true := by
    rw [le_iff]
    have hf : z.isFin = true := isFin_of_abs (b := 171) (by rw [abs_of_pos h0]; exact h2) (by norm_num)
    exact ⟨isFin_notNaN hf, gmax_nn, h2.trans gmax_ge.le⟩
  have hbig : (10:ℝ)^302 ≤ HUGE := by
    rw [HUGE_eq]; exact_mod_cast (by decide +kernel : (10:ℕ)^302 ≤ 2^1024)
  have key : Real.Gamma z.val ≤ HUGE * (1/10) := by
    rcases le_or_gt 2 z.val with h | h
    · have m := Gam_mono h h2
      have e := Real.Gamma_nat_eq_factorial 170
      rw [show ((170:ℕ):ℝ) + 1 = 171 by norm_num] at e
      have hQ := fact170
      rw [e] at m
      generalize ((170).factorial : ℝ) = Q at *
      have := HUGE_pos
      clear h1 hbig
      linarith
    rcases le_or_gt (1/2) z.val with h' | h'
    · have := Gam_six h' (by linarith)
      have h10 : (60:ℝ) ≤ 10^302 := by
        have : (60:ℕ) ≤ 10^302 := by decide +kernel
        exact_mod_cast this
      generalize (10:ℝ)^302 = t at *
      linarith
    · have e := Real.Gamma_add_one h0.ne'
      have g6 := Gam_six (a := z.val + 1) (by linarith) (by linarith)
      rw [e] at g6
      have e302 : (10:ℝ)^302 = 100 * 10^300 := by rw [show 302 = 2 + 300 by norm_num, pow_add]; norm_num
      rw [e302] at hbig
      have hp : (0:ℝ) < 10^300 := by positivity
      rw [div_le_iff₀ hp] at h1
      generalize (10:ℝ)^300 = t at *
      have h8 : Real.Gamma z.val ≤ 6 * t := by
        have : Real.Gamma z.val * 1 ≤ Real.Gamma z.val * (z.val * t) := mul_le_mul_of_nonneg_left h1 hG.le
        nlinarith
      linarith
  have := gamma_accurate z (by
    rintro ⟨n, hn⟩
    have : (0:ℝ) ≤ n := Nat.cast_nonneg n
    linarith) (by linarith) hle (by
      rw [← HUGE_eq, abs_of_pos hG]
      have := HUGE_pos
      clear h1 hbig
      linarith)
  rwa [abs_of_pos hG] at this

/-- the hypotheses hold, for example, at `0.5`, and at `-2.5` -/
example : 1 / 10^300 ≤ (0.5 : F64).val ∧ (0.5 : F64).val ≤ 171 := by
  rw [val_of_sv (x := (0.5 : F64)) 1 2 (by norm_num) (by decide +kernel)]
  refine ⟨?_, by norm_num⟩
  have : (1:ℝ) / 10^300 ≤ 1 / 10 := one_div_le_one_div_of_le (by norm_num) (le_self_pow₀ (by norm_num) (by norm_num))
  refine this.trans (by norm_num)
example : (¬ ∃ n : ℕ, (-2.5 : F64).val = -n) ∧ -170 < (-2.5 : F64).val ∧ F64.le (-2.5) 171.6243769563027 = true ∧
    |Real.Gamma (-2.5 : F64).val| ≤ 2^1024 * (1 - 1e-12) := by
  have h : (-2.5 : F64).val = -(5/2) := by rw [val_neg, lit25_val]
  rw [h]
  refine ⟨?_, by norm_num, by decide +kernel, ?_⟩
  · rintro ⟨n, hn⟩
    have h2 : (5:ℝ) = 2 * n := by linarith
    have h3 : (5:ℕ) = 2 * n := by exact_mod_cast h2
    omega
  · have e1 := Real.Gamma_add_one (s := -(5/2)) (by norm_num)
    have e2 := Real.Gamma_add_one (s := -(5/2)+1) (by norm_num)
    have e3 := Real.Gamma_add_one (s := -(5/2)+1+1) (by norm_num)
    have e4 := Gam_six (a := -(5/2)+1+1+1) (by norm_num) (by norm_num)
    have e5 := Gam_half (a := -(5/2)+1+1+1) (by norm_num)
    rw [← HUGE_eq]
    have hH := HUGE_ge
    have h10 : (100:ℝ) ≤ 10^200 := by norm_num
    generalize (10:ℝ)^200 = t at *
    norm_num at e1 e2 e3 e4 e5 ⊢
    rw [abs_le]
    constructor <;> nlinarith

/-- the argument of the next theorem, the float next to `-171` -/
def nearPole : F64 := -170.99999999999997

omit [Cfg] in
theorem Gam_neg_lower' (k : ℕ) : ∀ z : ℝ, -(k:ℝ) < z → z ≤ 1 - k → (¬ ∃ i : ℕ, z = -i) → Real.Gamma (z + k) ≤ |Real.Gamma z| * k.factorial := by
  induction k with
  | zero =>
    intro z h _ _
    have h' : 0 < z := by simpa using h
    rw [abs_of_pos (Real.Gamma_pos_of_pos h')]; simp
  | succ k ih =>
    intro z h h1 hp
    have hz0 : z ≠ 0 := fun e => hp ⟨0, by rw [e]; simp⟩
    push_cast at h h1
    have hk := Nat.cast_nonneg (α := ℝ) k
    have := ih (z + 1) (by linarith) (by linarith) (by rintro ⟨i, hi⟩; exact hp ⟨i + 1, by push_cast; linarith⟩)
    rw [Real.Gamma_add_one hz0, abs_mul] at this
    have hz1 : |z| ≤ k + 1 := by rw [abs_of_nonpos (by linarith)]; linarith
    rw [Nat.factorial_succ, Nat.cast_mul, show z + ((k+1 : ℕ):ℝ) = z + 1 + k by push_cast; ring]
    push_cast
    have hq : 0 ≤ |Real.Gamma z| * (k.factorial : ℝ) := by positivity
    refine this.trans ?_
    nlinarith

/-- Below `-170` relative accuracy can fail completely: at `-170.99999999999997` the program returns `0`, because the running product
overflows before the small last factor is reached, although the gamma value there is a normal number (above `10⁻²⁹⁷`). -/
theorem gamma_flush_to_zero : Returns (gamma nearPole) 0.0 ∧ 1 / 10^297 ≤ |Real.Gamma nearPole.val| := by
  have hv : nearPole.val = -(171 - 1/2^45) := by
    rw [val_of_sv (x := nearPole) (-(171*2^45-1)) (2^45) (by norm_num) (by decide +kernel)]; norm_num
  have hni : ¬ ∃ i : ℤ, nearPole.val = i := by
    rw [hv]
    rintro ⟨i, hi⟩
    have h2 : (1:ℝ) = (2^45) * (i + 171) := by rw [← hi]; norm_num
    have h3 : (1:ℤ) = (2^45) * (i + 171) := by exact_mod_cast h2
    omega
  constructor
  · have c1 : F64.lt 3.5 nearPole = false := by decide +kernel
    have c2 : F64.lt nearPole 2.5 = true := by decide +kernel
    unfold Returns
    rw [gamma_main (by decide +kernel) (fun h => hni h.2) (by rw [hv]; have := gmax_ge; norm_num; linarith), c1, c2, if_neg (by decide), if_pos rfl]
    have : gammaUp gammaFuel nearPole 1.0 = .ok none := by decide +kernel
    rw [this]; rfl
  · have h := Gam_neg_lower' 171 nearPole.val (by rw [hv]; norm_num) (by rw [hv]; norm_num) (fun ⟨n, hn⟩ => hni ⟨-n, by push_cast; exact hn⟩)
    have e : nearPole.val + ((171:ℕ):ℝ) = 1/2^45 := by rw [hv]; norm_num
    rw [e] at h
    have e1 := Real.Gamma_add_one (s := 1/2^45) (by positivity)
    have e2 := Gam_half (a := 1/2^45 + 1) (by positivity)
    rw [e1] at e2
    have hq : ((171).factorial : ℝ) ≤ 10^310 := by exact_mod_cast (by decide +kernel : (171).factorial ≤ 10^310)
    have e3 : (10:ℝ)^310 = 10^13 * 10^297 := by rw [← pow_add]
    rw [e3] at hq
    have hG0 := abs_nonneg (Real.Gamma nearPole.val)
    generalize ((171).factorial : ℝ) = Q at *
    generalize |Real.Gamma nearPole.val| = G at *
    generalize Real.Gamma (1/2^45) = H at *
    have hp : (0:ℝ) < 10^297 := by positivity
    generalize (10:ℝ)^297 = t at *
    rw [div_le_iff₀ hp]
    have hG : 0 ≤ G := hG0
    have h4 : H = 2^45 * (1/2^45 * H) := by ring
    have h5 : (2:ℝ)^44 ≤ H := by
      rw [h4]
      have : (2:ℝ)^44 = 2^45 * (1/2) := by norm_num
      rw [this]; gcongr
    have h6 : G * Q ≤ G * (10^13 * t) := mul_le_mul_of_nonneg_left hq hG
    have h7 : (10:ℝ)^13 ≤ 2^44 := by norm_num
    nlinarith
end Verif
