import Verif.Proofs.IncGamma5
import Verif.Model.Beta

/-!
# Helper lemmas for the beta functions
-/

namespace Verif
open F64

/-! ## nearest -/

theorem rndMag_nearest {y : ℝ} (h0 : 0 ≤ y) (h1 : y < iv INFMAG) (k : ℕ) : |(iv (rndMag y) : ℝ) - y| ≤ |(iv k : ℝ) - y| := by
  obtain ⟨n, hn, hl, hu⟩ := exists_bracket h0 h1
  have hb := rndMag_bracket hl hu hn
  have hk : (iv k : ℝ) ≤ iv n ∨ (iv (n+1) : ℝ) ≤ iv k := by
    rcases Nat.lt_or_ge n k with h | h
    · right; exact_mod_cast iv_strictMono.monotone h
    · left; exact_mod_cast iv_strictMono.monotone h
  generalize (iv k : ℝ) = K at *
  by_cases ha : Above n y
  · rw [hb.1 ha]
    have h2 : (iv n : ℝ) + iv (n+1) ≤ 2*y := by
      rcases ha with ha | ha
      · exact ha.le
      · exact ha.1.le
    generalize (iv n : ℝ) = A at *
    generalize (iv (n+1) : ℝ) = B at *
    rw [abs_of_pos (by linarith : 0 < B - y)]
    rcases hk with h | h
    · rw [abs_of_nonpos (by linarith)]; linarith
    · rw [abs_of_pos (by linarith)]; linarith
  · rw [hb.2 ha]
    have h2 : 2*y ≤ (iv n : ℝ) + iv (n+1) := by
      unfold Above at ha
      push Not at ha
      exact ha.1
    generalize (iv n : ℝ) = A at *
    generalize (iv (n+1) : ℝ) = B at *
    rw [abs_of_nonpos (by linarith : A - y ≤ 0)]
    rcases hk with h | h
    · rw [abs_of_nonpos (by linarith)]; linarith
    · rw [abs_of_pos (by linarith)]; linarith

/-- rounding returns a nearest float -/
theorem RN_nearest {r : ℝ} (h : |r| < HUGE) (b : F64) : |RN r - r| ≤ |b.val - r| := by
  have key : ∀ r : ℝ, 0 ≤ r → r < HUGE → ∀ b : F64, 0 ≤ b.val → |RN r - r| ≤ |b.val - r| := by
    intro r h0 h1 b hb
    have h2 : r * 2^1074 < iv INFMAG := by
      rw [iv_inf, Nat.cast_pow, Nat.cast_ofNat]
      calc r * 2^1074 < HUGE * 2^1074 := mul_lt_mul_of_pos_right h1 U_pos
        _ = 2^2098 := by rw [HUGE_eq, ← pow_add]
    have h3 := rndMag_nearest (mul_nonneg h0 U_pos.le) h2 b.mag
    have e : RN r = (iv (rndMag (r * 2^1074)) : ℝ) / 2^1074 := by unfold RN; rw [if_pos h0]; rfl
    have e2 : b.val = (iv b.mag : ℝ) / 2^1074 := by rw [← abs_val, abs_of_nonneg hb]
    rw [e, e2]
    have e3 : ∀ c : ℝ, c / 2^1074 - r = (c - r * 2^1074) / 2^1074 := fun c => by
      rw [sub_div, mul_div_assoc, div_self U_pos.ne', mul_one]
    rw [e3, e3, abs_div, abs_div]
    exact div_le_div_of_nonneg_right h3 (abs_nonneg _)
  have key2 : ∀ r : ℝ, 0 ≤ r → r < HUGE → ∀ b : F64, |RN r - r| ≤ |b.val - r| := by
    intro r h0 h1 b
    rcases le_total 0 b.val with hb | hb
    · exact key r h0 h1 b hb
    · have := key r h0 h1 (0.0 : F64) (by rw [zero_val])
      refine this.trans ?_
      rw [zero_val, zero_sub, abs_neg, abs_of_nonneg h0, abs_of_nonpos (by linarith)]
      linarith
  rcases le_total 0 r with h0 | h0
  · rw [abs_of_nonneg h0] at h; exact key2 r h0 h b
  · rw [abs_of_nonpos h0] at h
    have := key2 (-r) (by linarith) h (-b)
    rw [RN_neg, val_neg] at this
    rw [← abs_neg, ← abs_neg (b.val - r)]
    have e1 : -(RN r - r) = - RN r - -r := by ring
    have e2 : -(b.val - r) = - b.val - -r := by ring
    rw [e1, e2]; exact this

/-- below the midpoint of `p < g`, rounding stays below `g` -/
theorem RN_lt_of_mid {r : ℝ} (h : |r| < HUGE) {p : F64} {g : ℝ} (hpg : p.val < g) (hm : 2 * r < p.val + g) : RN r < g := by
  by_contra hc
  have hn := RN_nearest h p
  rw [abs_of_pos (by linarith [not_lt.1 hc])] at hn
  rcases le_total p.val r with h1 | h1
  · rw [abs_of_nonpos (by linarith)] at hn; linarith [not_lt.1 hc]
  · rw [abs_of_nonneg (by linarith)] at hn; linarith [not_lt.1 hc]

theorem RN_add_lt_one_aux {x : ℝ} {m m' : ℕ} {e e' : ℤ} (hx1 : x < 1) (hm : m < 2^53) (hm2 : 2^52 ≤ m) (hm' : m' < 2^53) (hm2' : 2^52 ≤ m')
    (he : -1074 ≤ e) (hf : 1 ≤ (m:ℝ) * 2^e) (hg : 1 + (m:ℝ)*2^e < (m':ℝ)*2^e') (hfin : (m':ℝ)*2^e' ≤ HUGE) (hx0 : 0 ≤ x)
    (hr : RN (x + (m:ℝ)*2^e) = (m':ℝ)*2^e') : False := by
  have mpos : (0:ℝ) < m := by
    have : 0 < m := lt_of_lt_of_le (by norm_num) hm2
    exact_mod_cast this
  have hmR : (m:ℝ) < 2^53 := by exact_mod_cast hm
  have hm2R : (2:ℝ)^52 ≤ m := by exact_mod_cast hm2
  have hmR' : (m':ℝ) < 2^53 := by exact_mod_cast hm'
  have hm2R' : (2:ℝ)^52 ≤ m' := by exact_mod_cast hm2'
  have vpos : (0:ℝ) < 2^e := by positivity
  have vpos' : (0:ℝ) < 2^e' := by positivity
  -- e' ≥ e
  have hee : e ≤ e' := by
    by_contra hc
    have h1 : (2:ℝ)^(e'+1) ≤ 2^e := zpow_le_zpow_right₀ (by norm_num) (by omega)
    rw [zpow_add₀ (by norm_num), zpow_one] at h1
    nlinarith
  obtain ⟨d, hd⟩ := Int.eq_ofNat_of_zero_le (by omega : 0 ≤ e' - e)
  have hev : (2:ℝ)^e' = 2^d * 2^e := by
    rw [← zpow_natCast, ← zpow_add₀ (by norm_num)]; congr 1; omega
  have he52 : -52 ≤ e := by
    by_contra hc
    have h1 : (2:ℝ)^e ≤ 2^(-53:ℤ) := zpow_le_zpow_right₀ (by norm_num) (by omega)
    have h2 : (2:ℝ)^(-53:ℤ) = 1/2^53 := by rw [zpow_neg]; norm_num
    rw [h2] at h1
    have h3 : (m:ℝ) * 2^e ≤ m * (1/2^53) := mul_le_mul_of_nonneg_left h1 mpos.le
    have h4 : (m:ℝ) * (1/2^53) < 1 := by rw [mul_one_div, div_lt_one (by positivity)]; exact hmR
    linarith
  have hrl : |x + (m:ℝ)*2^e| < HUGE := by rw [abs_of_pos (by nlinarith)]; linarith
  -- f as a float
  have fF : ∃ F : F64, F.val = (m:ℝ)*2^e := by
    obtain ⟨F, _, hF⟩ := RN_exists ((m:ℝ)*2^e)
    refine ⟨F, ?_⟩
    rw [hF]
    have := RN_dyadic (m:ℤ) e (by rw [abs_le]; constructor <;> omega) he (by push_cast; rw [abs_of_pos (by positivity)]; linarith)
    push_cast at this; exact this
  obtain ⟨F, hF⟩ := fF
  have hnear := RN_nearest hrl F
  rw [hr, hF, abs_of_pos (by linarith), abs_of_nonpos (by linarith)] at hnear
  -- integers
  have hgI : (m':ℝ)*2^e' = ((m' * 2^d : ℕ):ℝ) * 2^e := by rw [hev]; push_cast; ring
  rcases le_or_gt 1 e with h1 | h1
  · have hv : (2:ℝ) ≤ 2^e := by
      have := zpow_le_zpow_right₀ (by norm_num : (1:ℝ) ≤ 2) h1
      rwa [zpow_one] at this
    have hlt : m < m' * 2^d := by
      have : (m:ℝ) * 2^e < ((m' * 2^d : ℕ):ℝ) * 2^e := by rw [← hgI]; linarith
      have := lt_of_mul_lt_mul_right this vpos.le
      exact_mod_cast this
    have h2 : ((m:ℝ) + 1) * 2^e ≤ ((m' * 2^d : ℕ):ℝ) * 2^e := by
      apply mul_le_mul_of_nonneg_right _ vpos.le
      exact_mod_cast hlt
    rw [← hgI] at h2
    linarith
  · obtain ⟨c, hc⟩ := Int.eq_ofNat_of_zero_le (by omega : 0 ≤ -e)
    have h1v : (1:ℝ) = ((2^c : ℕ):ℝ) * 2^e := by
      push_cast
      rw [← zpow_natCast, ← zpow_add₀ (by norm_num)]
      have : (c:ℤ) + e = 0 := by omega
      rw [this, zpow_zero]
    have hlt : 2^c + m < m' * 2^d := by
      have : (((2^c + m : ℕ):ℝ)) * 2^e < ((m' * 2^d : ℕ):ℝ) * 2^e := by
        rw [← hgI]; push_cast at h1v ⊢; rw [add_mul, ← h1v]; exact hg
      have := lt_of_mul_lt_mul_right this vpos.le
      exact_mod_cast this
    -- predecessor
    have hP : ∃ P : F64, P.isNaN = false ∧ P.val = ((m':ℝ)-1)*2^e' := by
      obtain ⟨P, hPn, hP⟩ := RN_exists (((m':ℝ)-1)*2^e')
      refine ⟨P, hPn, ?_⟩
      rw [hP]
      have h1 : (0:ℝ) ≤ (m':ℝ) - 1 := by linarith [show (1:ℝ) ≤ 2^52 by norm_num]
      have := RN_dyadic ((m':ℤ)-1) e' (by rw [abs_le]; constructor <;> omega) (by omega) (by
        push_cast; rw [abs_of_nonneg (by positivity)]; nlinarith)
      push_cast at this; exact this
    obtain ⟨P, hPn, hP⟩ := hP
    have hPg : P.val < (m':ℝ)*2^e' := by rw [hP]; nlinarith
    -- d ≤ 1
    have hd1 : d ≤ 1 := by
      by_contra hcd
      have h2 : (4:ℝ) ≤ 2^d := by
        have := pow_le_pow_right₀ (by norm_num : (1:ℝ) ≤ 2) (by omega : 2 ≤ d)
        linarith
      have h3 : (2:ℝ)^(-52:ℤ) ≤ 2^e := zpow_le_zpow_right₀ (by norm_num) he52
      have h4 : (2:ℝ)^(-52:ℤ) = 1/2^52 := by rw [zpow_neg]; norm_num
      rw [h4] at h3
      rw [hev] at hnear
      have h5 : (2:ℝ)^52 * (4 * 2^e) ≤ (m':ℝ) * (2^d * 2^e) :=
        mul_le_mul hm2R' (mul_le_mul_of_nonneg_right h2 vpos.le) (by positivity) (by positivity)
      have h6 : (m:ℝ) * 2^e ≤ 2^53 * 2^e := mul_le_mul_of_nonneg_right hmR.le vpos.le
      have h7 : (2:ℝ)^52 * (1/2^52) ≤ 2^52 * 2^e := mul_le_mul_of_nonneg_left h3 (by positivity)
      generalize (2:ℝ)^e = V at *
      norm_num at h5 h6 h7
      linarith
    apply absurd hr
    apply ne_of_lt
    apply RN_lt_of_mid hrl hPg
    have hdd : d = 0 ∨ d = 1 := by omega
    have h2 : 2 * (2^c + m) + 2^d ≤ 2 * (m' * 2^d) := by
      rcases hdd with h | h <;> subst h <;> omega
    have h3 : ((2 * (2^c + m) + 2^d : ℕ):ℝ) * 2^e ≤ ((2 * (m' * 2^d) : ℕ):ℝ) * 2^e :=
      mul_le_mul_of_nonneg_right (by exact_mod_cast h2) vpos.le
    rw [hP, hev]
    push_cast at h3 h1v
    have e4 : (2 * ((2:ℝ)^c + m) + 2^d) * 2^e = 2 * (2^c * 2^e) + 2 * (m * 2^e) + 2^d * 2^e := by ring
    rw [e4, ← h1v] at h3
    have e5 : ((m':ℝ) - 1) * (2^d * 2^e) + (m':ℝ) * (2^d * 2^e) = 2 * (m' * 2^d) * 2^e - 2^d*2^e := by ring
    rw [e5]
    linarith

/-- a float below one is at most `1 - 2^-53` -/
theorem lt_one_le {x : F64} (h : x.val < 1) : x.val ≤ 1 - 1/2^53 := by
  obtain ⟨F, hn, hF⟩ := RN_exists (1 - 1/2^53)
  have e : RN (1 - 1/2^53) = 1 - 1/2^53 := by
    have := RN_dyadic (2^53 - 1) (-53) (by norm_num) (by norm_num) (by
      rw [abs_of_pos (by norm_num)]
      have := HUGE_ge
      have h2 : (1:ℝ) ≤ 10^200 := by norm_num
      have h3 : (((2:ℤ)^53 - 1 : ℤ):ℝ) * 2^(-53:ℤ) ≤ 1 := by norm_num
      linarith)
    have e2 : (((2:ℤ)^53 - 1 : ℤ):ℝ) * 2^(-53:ℤ) = 1 - 1/2^53 := by norm_num
    rwa [e2] at this
  rcases le_or_gt x.val 0 with h0 | h0
  · have : (0:ℝ) ≤ 1 - 1/2^53 := by norm_num
    linarith
  obtain ⟨m, k, h1, hm, hk, hmm⟩ := val_decomp x
  rw [abs_of_pos h0] at h1
  rw [h1] at h ⊢
  rcases le_or_gt (-53) k with h5 | h5
  · obtain ⟨c, hc⟩ := Int.eq_ofNat_of_zero_le (by omega : 0 ≤ k + 53)
    have hv : (2:ℝ)^k = 2^c * (1/2^53) := by
      have : k = (c:ℤ) + (-53) := by omega
      rw [this, zpow_add₀ (by norm_num), zpow_natCast]; norm_num
    rw [hv] at h ⊢
    have h6 : m * 2^c < 2^53 := by
      have : ((m * 2^c : ℕ):ℝ) < 2^53 := by push_cast; rw [← mul_assoc, mul_one_div, div_lt_one (by positivity)] at h; exact h
      exact_mod_cast this
    have h7 : ((m * 2^c : ℕ):ℝ) + 1 ≤ 2^53 := by exact_mod_cast h6
    push_cast at h7
    rw [← mul_assoc]
    generalize (m:ℝ) * 2^c = Q at *
    refine (mul_le_mul_of_nonneg_right (by linarith : Q ≤ 2^53 - 1) (by positivity)).trans ?_
    norm_num
  · have h6 : (2:ℝ)^k ≤ 2^(-54:ℤ) := zpow_le_zpow_right₀ (by norm_num) (by omega)
    have h7 : (2:ℝ)^(-54:ℤ) = 1/2^54 := by rw [zpow_neg]; norm_num
    rw [h7] at h6
    have h8 : (m:ℝ) ≤ 2^53 := by exact_mod_cast hm.le
    have h9 : (m:ℝ) * 2^k ≤ 2^53 * (1/2^54) := mul_le_mul h8 h6 (by positivity) (by positivity)
    refine h9.trans ?_; norm_num

theorem norm_of_ge_one {a : F64} (h : 1 ≤ a.val) : ∃ (m : ℕ) (e : ℤ), a.val = (m:ℝ) * 2^e ∧ m < 2^53 ∧ -1074 ≤ e ∧ 2^52 ≤ m := by
  obtain ⟨m, e, h1, h2, h3, h4⟩ := val_decomp a
  rw [abs_of_pos (by linarith)] at h1
  refine ⟨m, e, h1, h2, h3, ?_⟩
  rcases h4 with h4 | h4
  · exfalso
    rw [h1, h4] at h
    have h5 : (2:ℝ)^(-1074:ℤ) ≤ 2^(-53:ℤ) := zpow_le_zpow_right₀ (by norm_num) (by norm_num)
    have h6 : (2:ℝ)^(-53:ℤ) = 1/2^53 := by rw [zpow_neg]; norm_num
    rw [h6] at h5
    have h7 : (m:ℝ) < 2^53 := by exact_mod_cast h2
    have h8 : (m:ℝ) * 2^(-1074:ℤ) ≤ m * (1/2^53) := mul_le_mul_of_nonneg_left h5 (Nat.cast_nonneg _)
    have h9 : (m:ℝ) * (1/2^53) < 1 := by rw [mul_one_div, div_lt_one (by positivity)]; exact h7
    exact absurd (h.trans h8) (not_le.2 h9)
  · exact h4

/-- `fl(x + f) ≤ 1 + f` for floats `0 ≤ x < 1`, `f ≥ 0` -/
theorem RN_add_le_one {x f : F64} (hx0 : 0 ≤ x.val) (hx1 : x.val < 1) (hf0 : 0 ≤ f.val) (hf : f.isFin = true) : RN (x.val + f.val) ≤ 1 + f.val := by
  by_contra hc
  rw [not_le] at hc
  obtain ⟨G, hGn, hG⟩ := RN_exists (x.val + f.val)
  obtain ⟨m', e', g1, g2, g3, g4⟩ := norm_of_ge_one (a := G) (by rw [hG]; linarith)
  have gH : G.val ≤ HUGE := by rw [hG]; exact RN_le_inf _
  rcases le_or_gt 1 f.val with h1 | h1
  · obtain ⟨m, e, f1, f2, f3, f4⟩ := norm_of_ge_one h1
    rw [← hG, g1, f1] at hc
    rw [f1] at h1
    rw [g1] at gH
    exact RN_add_lt_one_aux hx1 f2 f4 g2 g4 f3 h1 hc gH hx0 (by rw [← f1, ← hG, g1])
  · have hx := lt_one_le hx1
    have g2' : G.val ≤ 2 := by
      rw [hG]
      have := RN_le_int (r := x.val + f.val) 2 (by norm_num) (by push_cast; linarith)
      push_cast at this; exact this
    have gge : 1 ≤ G.val := by rw [hG]; linarith
    rw [← hG] at hc
    have he : -52 ≤ e' := by
      by_contra h
      have h2 : (2:ℝ)^e' ≤ 2^(-53:ℤ) := zpow_le_zpow_right₀ (by norm_num) (by omega)
      have h3 : (2:ℝ)^(-53:ℤ) = 1/2^53 := by rw [zpow_neg]; norm_num
      rw [h3] at h2
      have h4 : (m':ℝ) * 2^e' ≤ m' * (1/2^53) := mul_le_mul_of_nonneg_left h2 (Nat.cast_nonneg _)
      have h5 : (m':ℝ) < 2^53 := by exact_mod_cast g2
      have h6 : (m':ℝ) * (1/2^53) < 1 := by rw [mul_one_div, div_lt_one (by positivity)]; exact h5
      rw [g1] at gge; linarith
    obtain ⟨c, hcc⟩ := Int.eq_ofNat_of_zero_le (by omega : 0 ≤ e' + 52)
    have hv : G.val = ((m' * 2^c : ℕ):ℝ) * 2^(-52:ℤ) := by
      rw [g1]
      have : e' = (c:ℤ) + (-52) := by omega
      rw [this, zpow_add₀ (by norm_num), zpow_natCast]; push_cast; ring
    have h52 : (2:ℝ)^(-52:ℤ) = 1/2^52 := by rw [zpow_neg]; norm_num
    generalize m' * 2^c = n at hv
    have hn : n ≤ 2^53 := by
      have : (n:ℝ) * (1/2^52) ≤ 2 := by rw [← h52, ← hv]; exact g2'
      rw [mul_one_div, div_le_iff₀ (by positivity)] at this
      have h3 : (n:ℝ) ≤ (2^53 : ℕ) := by push_cast; linarith
      exact_mod_cast h3
    obtain ⟨P, hPn, hP⟩ := RN_exists (G.val - 1/2^52)
    have hPv : P.val = G.val - 1/2^52 := by
      rw [hP]
      have e1 : G.val - 1/2^52 = (((n:ℤ) - 1 : ℤ):ℝ) * 2^(-52:ℤ) := by rw [hv, h52]; push_cast; ring
      rw [e1]
      refine RN_dyadic _ _ (by rw [abs_le]; constructor <;> omega) (by norm_num) ?_
      rw [← e1]
      have := HUGE_ge
      have h2 : (4:ℝ) ≤ 10^200 := by norm_num
      have h3 : (1:ℝ)/2^52 ≤ 1 := by norm_num
      have h4 : (0:ℝ) ≤ 1/2^52 := by norm_num
      rw [abs_le]; constructor <;> linarith
    have hr : |x.val + f.val| < HUGE := by
      have := HUGE_ge
      have h2 : (4:ℝ) ≤ 10^200 := by norm_num
      rw [abs_of_nonneg (by linarith)]; linarith
    have hpp : (0:ℝ) < 1/2^52 := by norm_num
    have h2 : (1:ℝ)/2^53 = 1/2^52/2 := by norm_num
    have := RN_lt_of_mid hr (p := P) (g := G.val) (by rw [hPv]; linarith) (by rw [hPv]; rw [h2] at hx; linarith)
    rw [hG] at this; exact lt_irrefl _ this

/-- `fl(x - t) + t ≤ 2x` for floats `x ≥ 0`, `t` -/
theorem RN_sub_add_le {x t : F64} (hx0 : 0 ≤ x.val) (h : |x.val - t.val| < HUGE) : RN (x.val - t.val) + t.val ≤ 2 * x.val := by
  have := RN_nearest h (-t)
  rw [val_neg] at this
  have e : -t.val - (x.val - t.val) = -x.val := by ring
  rw [e, abs_neg, abs_of_nonneg hx0] at this
  have := (abs_le.1 this).2
  linarith

theorem RN_double {x : F64} (hx0 : 0 ≤ x.val) (hx1 : x.val ≤ 1) : RN (2 * x.val) = 2 * x.val := by
  obtain ⟨m, e, h1, h2, h3, h4⟩ := val_decomp x
  rw [abs_of_nonneg hx0] at h1
  have e1 : 2 * x.val = ((m:ℤ):ℝ) * 2^(e+1) := by rw [h1, zpow_add₀ (by norm_num)]; push_cast; rw [zpow_one]; ring
  rw [e1]
  refine RN_dyadic _ _ (by rw [abs_le]; constructor <;> omega) (by omega) ?_
  rw [← e1, abs_of_nonneg (by linarith)]
  have := HUGE_ge
  have h2 : (4:ℝ) ≤ 10^200 := by norm_num
  linarith

theorem half_val : (0.5 : F64).val = 1/2 := by
  have := val_of_sv (x := (0.5 : F64)) 1 2 (by norm_num) (by decide +kernel); rw [this]; norm_num

theorem nn_zero : (0.0 : F64).isNaN = false := by decide +kernel
theorem nn_one : (1.0 : F64).isNaN = false := by decide +kernel

theorem le_false_of_lt {a b : F64} (h : b.val < a.val) : F64.le a b = false := by
  rw [Bool.eq_false_iff]; intro hc; have := (le_iff.1 hc).2.2; linarith

/-- the update of `invbetai` keeps the iterate in `[0,1]`, or makes it NaN -/
theorem invbetai_step {x t : F64} (hxn : x.isNaN = false) (hx0 : 0 < x.val) (hx1 : x.val < 1) :
    ∀ y z w : F64, y = x - t → z = (if F64.le y 0.0 then 0.5 * (y + t) else y) → w = (if F64.le 1.0 z then 0.5 * (z + t + 1.0) else z) →
    w.isNaN = true ∨ (0 ≤ w.val ∧ w.val ≤ 1) := by
  intro y z w hy hz hw
  have fx : x.isFin = true := abs_fin (b := 1) (by linarith) hx1.le (by norm_num)
  have one_le : (1:ℝ) ≤ 10^200 := by norm_num
  have HG := HUGE_ge
  rcases cases3 t with ht | ht | ht
  · have e1 : y = nan := by rw [hy]; exact sub_nan_right ht
    have nl : F64.le nan 0.0 = false := by decide +kernel
    have nr : F64.le 1.0 nan = false := by decide +kernel
    have e2 : z = nan := by rw [hz, e1, nl, if_neg Bool.false_ne_true]
    left; rw [hw, e2, nr, if_neg Bool.false_ne_true]; decide
  · have hty : y = -t := by
      rw [hy]; show x + -t = -t
      exact add_inf_right fx (by rw [isInf_iff] at ht ⊢; exact ht)
    have ei := isInf_cases ht
    rcases hn : t.neg with _ | _
    · rw [hn] at ei
      have e1 : z = nan := by rw [hz, hty, ei]; decide +kernel
      left; rw [hw, e1, ei]; decide +kernel
    · rw [hn] at ei
      have e1 : z = inf := by rw [hz, hty, ei]; decide +kernel
      left; rw [hw, e1, ei]; decide +kernel
  · obtain ⟨yn, yv⟩ := sub_spec fx ht
    rw [← hy] at yn yv
    have tH := isFin_iff_val.1 ht
    rcases c1 : F64.le y 0.0 with _ | _
    · rw [c1, if_neg Bool.false_ne_true] at hz
      subst hz
      have y0 : 0 < z.val := by rw [le_false_iff yn nn_zero, zero_val] at c1; exact c1
      rcases c2 : F64.le 1.0 z with _ | _
      · rw [c2, if_neg Bool.false_ne_true] at hw
        rw [le_false_iff nn_one yn, one_val] at c2
        right; rw [hw]; exact ⟨y0.le, c2.le⟩
      · rw [c2, if_pos rfl] at hw
        have y1 : 1 ≤ z.val := by have := (le_iff.1 c2).2.2; rwa [one_val] at this
        -- t is negative
        have t0 : t.val ≤ 0 := by
          by_contra h
          have : RN (x.val - t.val) ≤ x.val := RN_le_of_le hxn (by linarith [not_le.1 h])
          rw [← yv] at this; linarith
        have k1 := RN_add_le_one (x := x) (f := -t) hx0.le hx1 (by rw [val_neg]; linarith) (by rw [isFin_iff] at ht ⊢; exact ht)
        rw [val_neg, ← sub_eq_add_neg, ← yv] at k1
        have k2 : -t.val ≤ z.val := by
          rw [yv, ← val_neg]; exact le_RN_of_le (val_of_neg (isFin_notNaN ht)) (by rw [val_neg]; linarith)
        have fz : z.isFin = true := by
          rcases fin_or_inf yn with h | h
          · exact h
          · exfalso
            have h3 := isInf_iff_val.1 h
            rw [abs_of_pos (by linarith)] at h3
            have h4 := fin_le_MAXF ht
            rw [abs_of_nonpos t0] at h4
            have h5 : (1:ℝ) + MAXF < HUGE := by
              rw [MAXF_X, HUGE_X]
              have := X_ge
              generalize (2:ℝ)^918 = X at *
              norm_num; linarith
            linarith
        obtain ⟨an, av⟩ := add_spec fz ht
        have a0 : 0 ≤ (z + t).val := by rw [av]; exact RN_nonneg (by linarith)
        have a1 : (z + t).val ≤ 1 := by
          rw [av]
          have := RN_le_int (r := z.val + t.val) 1 (by norm_num) (by push_cast; linarith)
          push_cast at this; exact this
        have fa : (z + t).isFin = true := abs_fin (b := 1) (by linarith) a1 (by norm_num)
        generalize z + t = v at *
        obtain ⟨bn, bv⟩ := add_spec fa one_fin
        rw [one_val] at bv
        have b0 : 0 ≤ (v + 1.0).val := by rw [bv]; exact RN_nonneg (by linarith)
        have b1 : (v + 1.0).val ≤ 2 := by
          rw [bv]
          have := RN_le_int (r := v.val + 1) 2 (by norm_num) (by push_cast; linarith)
          push_cast at this; exact this
        have fb : (v + 1.0).isFin = true := abs_fin (b := 2) (by linarith) b1 (by norm_num)
        generalize v + 1.0 = u at *
        obtain ⟨cn, cv⟩ := Iv.mul_spec' (a := 0.5) (by decide +kernel) fb
        rw [half_val] at cv
        right
        rw [hw, cv]
        refine ⟨RN_nonneg (by linarith), ?_⟩
        have := RN_le_int (r := 1/2 * u.val) 1 (by norm_num) (by push_cast; linarith)
        push_cast at this; exact this
    · rw [c1, if_pos rfl] at hz
      have y0 : y.val ≤ 0 := by have := (le_iff.1 c1).2.2; rwa [zero_val] at this
      have t0 : 0 ≤ t.val := by
        by_contra h
        have : x.val ≤ RN (x.val - t.val) := le_RN_of_le hxn (by linarith [not_le.1 h])
        rw [← yv] at this; linarith
      rw [abs_of_nonneg t0] at tH
      have k1 := RN_sub_add_le (x := x) (t := t) hx0.le (by rw [abs_lt]; constructor <;> linarith)
      rw [← yv] at k1
      have k2 : -t.val ≤ y.val := by
        rw [yv, ← val_neg]; exact le_RN_of_le (val_of_neg (isFin_notNaN ht)) (by rw [val_neg]; linarith)
      have fy : y.isFin = true := by rw [isFin_iff_val, abs_lt]; constructor <;> linarith
      obtain ⟨an, av⟩ := add_spec fy ht
      have a0 : 0 ≤ (y + t).val := by rw [av]; exact RN_nonneg (by linarith)
      have a1 : (y + t).val ≤ 2 * x.val := by rw [av, ← RN_double hx0.le hx1.le]; exact RN_mono k1
      have fa : (y + t).isFin = true := abs_fin (b := 2) (by linarith) (by linarith) (by norm_num)
      generalize y + t = v at *
      obtain ⟨cn, cv⟩ := Iv.mul_spec' (a := 0.5) (by decide +kernel) fa
      rw [half_val] at cv
      have z0 : 0 ≤ z.val := by rw [hz, cv]; exact RN_nonneg (by linarith)
      have z1 : z.val ≤ x.val := by rw [hz, cv]; exact RN_le_of_le hxn (by linarith)
      rw [le_false_of_lt (by rw [one_val]; linarith), if_neg Bool.false_ne_true] at hw
      right; rw [hw]; exact ⟨z0, by linarith⟩

variable [Libm F64]

theorem betai_eq (a b x : F64) : betai a b x =
    if (F64.lt 0.0 a && F64.lt 0.0 b) = false then .error .panic
    else if (F64.le 0.0 x && F64.le x 1.0) = false then .error .panic
    else if (F64.eq x 0.0 || F64.eq x 1.0) = true then .ok x
    else if (F64.lt (F64.ofNat 3000) a && F64.lt (F64.ofNat 3000) b) = true then .ok (betaiapprox a b x)
    else
      let bt := Libm.exp (lnGamma (a + b) - lnGamma a - lnGamma b + a * Libm.ln x + b * Libm.ln (1.0 - x))
      if F64.lt x ((a + 1.0) / (a + b * 2.0)) = true then .ok (bt * betacf a b x / a)
      else .ok (1.0 - bt * betacf b a (1.0 - x) / b) := by
  unfold betai
  simp only [ar_lt, ar_le, ar_eq, ar_ofNat, Bool.not_eq_true']

theorem betai_valid {a b x v : F64} (h : betai a b x = .ok v) :
    (F64.lt 0.0 a && F64.lt 0.0 b) = true ∧ (F64.le 0.0 x && F64.le x 1.0) = true := by
  rw [betai_eq] at h
  rcases c1 : (F64.lt 0.0 a && F64.lt 0.0 b) with _ | _
  · rw [c1, if_pos rfl] at h; cases h
  · rcases c2 : (F64.le 0.0 x && F64.le x 1.0) with _ | _
    · rw [c1, c2, if_neg (by decide), if_pos rfl] at h; cases h
    · exact ⟨rfl, rfl⟩

theorem betai_total {a b x : F64} (h1 : (F64.lt 0.0 a && F64.lt 0.0 b) = true) (h2 : (F64.le 0.0 x && F64.le x 1.0) = true) :
    ∃ v, betai a b x = .ok v := by
  rw [betai_eq, h1, h2, if_neg (by decide), if_neg (by decide)]
  split
  · exact ⟨_, rfl⟩
  · split
    · exact ⟨_, rfl⟩
    · dsimp only
      split
      · exact ⟨_, rfl⟩
      · exact ⟨_, rfl⟩

theorem invbetaiLoop_range (p a b a1 b1 afac : F64) : ∀ (n j : Nat) (x v : F64),
    (n = 0 → x.isNaN = true ∨ (0 ≤ x.val ∧ x.val ≤ 1)) → invbetaiLoop p a b a1 b1 afac n j x = .ok v →
    v.isNaN = true ∨ (0 ≤ v.val ∧ v.val ≤ 1) := by
  intro n
  induction n with
  | zero => intro j x v h hv; cases hv; exact h rfl
  | succ n ih =>
    intro j x v _ hv
    unfold invbetaiLoop at hv
    simp only [ar_le, ar_lt, ar_abs, ar_max, ar_min, ar_eq] at hv
    rcases hx : (F64.eq x 0.0 || F64.eq x 1.0) with _ | _
    · rw [hx, if_neg Bool.false_ne_true] at hv
      rcases hg : betai a b x with e | g
      · rw [hg] at hv; cases hv
      · rw [hg] at hv
        have hval := (betai_valid hg).2
        rw [Bool.and_eq_true] at hval
        have x0 := le_iff.1 hval.1
        have x1 := le_iff.1 hval.2
        rw [zero_val] at x0
        rw [one_val] at x1
        rw [Bool.or_eq_false_iff] at hx
        have hx0 : 0 < x.val := by
          refine lt_of_le_of_ne x0.2.2 (fun h => ?_)
          have : F64.eq x 0.0 = true := eq_iff.2 ⟨x1.1, nn_zero, by rw [zero_val]; exact h.symm⟩
          rw [this] at hx; cases hx.1
        have hx1 : x.val < 1 := by
          refine lt_of_le_of_ne x1.2.2 (fun h => ?_)
          have : F64.eq x 1.0 = true := eq_iff.2 ⟨x1.1, nn_one, by rw [one_val]; exact h⟩
          rw [this] at hx; cases hx.2
        simp only [bind, Except.bind] at hv
        rcases ite_ok hv with h | h
        · rw [← h]; exact invbetai_step x1.1 hx0 hx1 _ _ _ rfl rfl rfl
        · exact ih _ _ _ (fun _ => invbetai_step x1.1 hx0 hx1 _ _ _ rfl rfl rfl) h
    · rw [hx, if_pos rfl] at hv
      cases hv
      right
      rw [Bool.or_eq_true] at hx
      rcases hx with h | h
      · have := (eq_iff.1 h).2.2; rw [zero_val] at this; rw [this]; norm_num
      · have := (eq_iff.1 h).2.2; rw [one_val] at this; rw [this]; norm_num

end Verif
