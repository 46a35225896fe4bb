import Verif.Proofs.Ab
import Verif.Proofs.LanczosReal
import Verif.Proofs.LnGamma

/-! # Rounding errors of `ln_gamma` -/

namespace Verif
open F64 ZPoly

/-- one term of the Lanczos sum -/
theorem lan_term {c u : F64} {C B J : ℝ} (hc : Ab c C (|C| / 2^52)) (hu : Ab u B (18 * J * B / 2^52)) (hC1 : 1 / 10^6 ≤ |C|) (hC2 : |C| ≤ 100)
    (hB1 : 1 / 10^12 ≤ B) (hB2 : B ≤ 2 * 10^300) (hJ1 : 1 ≤ J) (hJ2 : J ≤ 2 * 10^12) : Ab (c / u) (C / B) (54 * J / 2^52 * (|C| / B)) := by
  have hB : 0 < B := lt_of_lt_of_le (by norm_num) hB1
  have hC : 0 < |C| := lt_of_lt_of_le (by norm_num) hC1
  generalize hD : |C| = D at *
  have hq : 0 < D / B := by positivity
  have e1 : 18 * J * B / 2^52 / B = 18 * J / 2^52 := by field_simp
  have e2 : 2 * (D / 2^52 + D * (18 * J * B / 2^52 / B)) / B = (2 / 2^52 + 36 * J / 2^52) * (D / B) := by
    rw [e1]; field_simp; ring
  have hs : 2 / 2^52 + 36 * J / 2^52 ≤ 1 := by norm_num at hJ2 ⊢; linarith
  have h := ab_div (M := 2 * (D / B)) hc hu hB ?_ (by rw [hD, e2]; nlinarith) ?_
  · refine h.mono ?_
    rw [hD, e2]
    have : (2 / 2^52 + 36 * J / 2^52) * (D / B) + 2 * (D / B) / 2^52 = (2 / 2^52 + 36 * J / 2^52 + 2 / 2^52) * (D / B) := by ring
    rw [this]
    refine mul_le_mul_of_nonneg_right ?_ hq.le
    norm_num at hJ1 ⊢
    linarith
  · have : 18 * J / 2^52 ≤ 1 / 2 := by norm_num at hJ2 ⊢; linarith
    rw [div_le_iff₀ (by norm_num)] at this ⊢
    nlinarith
  · constructor
    · have h1 : (1:ℝ) / 2^1022 ≤ 1 / 10^306 := by
        apply one_div_le_one_div_of_le (by positivity)
        calc (10:ℝ)^306 = (10^3)^102 := by rw [← pow_mul]
          _ ≤ (2^10)^102 := pow_le_pow_left₀ (by norm_num) (by norm_num) _
          _ = 2^1020 := by rw [← pow_mul]
          _ ≤ _ := pow_le_pow_right₀ (by norm_num) (by norm_num)
      refine h1.trans ?_
      have h2 : (1:ℝ) / 10^306 = 2 * (1 / 10^6 / (2 * 10^300)) := by
        rw [show (10:ℝ)^306 = 10^6 * 10^300 by rw [← pow_add]]
        generalize (10:ℝ)^300 = y
        ring
      rw [h2]
      refine mul_le_mul_of_nonneg_left ?_ (by norm_num)
      exact div_le_div₀ hC.le hC1 hB hB2
    · have : D / B ≤ 100 / (1 / 10^12) := div_le_div₀ (by norm_num) hC2 (by norm_num) hB1
      calc 2 * (D / B) ≤ 2^200 := by norm_num at this ⊢; linarith
        _ ≤ _ := pow_le_pow_right₀ (by norm_num) (by norm_num)

/-- partial sums -/
theorem lan_sum {a b : F64} {A B T R τ ε : ℝ} {n : ℕ} (ha : Ab a A (R * τ + n * (2 * T) / 2^52)) (hb : Ab b B (R * ε)) (hA : |A| ≤ τ) (hB : |B| ≤ ε)
    (hT : τ + ε ≤ T) (hR : R ≤ 1/2) (hn : n ≤ 10) (hc : Cap (2 * T)) : Ab (a + b) (A + B) (R * (τ + ε) + (n + 1 : ℕ) * (2 * T) / 2^52) ∧ |A + B| ≤ τ + ε := by
  have hτ := (abs_nonneg _).trans hA
  have hε := (abs_nonneg _).trans hB
  have hab : |A + B| ≤ τ + ε := (abs_add_le _ _).trans (add_le_add hA hB)
  have hn' : (n:ℝ) ≤ 10 := by exact_mod_cast hn
  have hT0 : 0 ≤ T := by linarith
  have h1 : (n:ℝ) * (2 * T) / 2^52 ≤ T / 2 := by
    rw [div_le_iff₀ (by norm_num)]
    have := mul_le_mul_of_nonneg_right hn' hT0
    norm_num
    linarith
  have h2 : R * (τ + ε) ≤ T / 2 := by nlinarith
  have h := ab_add (M := 2 * T) ha hb (by linarith) hc
  refine ⟨h.mono (le_of_eq ?_), hab⟩
  push_cast
  ring

theorem ofNat_ab (n : ℕ) (hn : n ≤ 6) : Ab (F64.ofNat n) n 0 := by
  interval_cases n
  all_goals first
    | exact ab_int (by decide +kernel) (by have := val_of_int (x := F64.ofNat 0) 0 (by decide +kernel); rw [this]; simp)
    | exact ab_int (by decide +kernel) (by have := val_of_int (x := F64.ofNat 1) 1 (by decide +kernel); rw [this]; norm_num)
    | exact ab_int (by decide +kernel) (by have := val_of_int (x := F64.ofNat 2) 2 (by decide +kernel); rw [this]; norm_num)
    | exact ab_int (by decide +kernel) (by have := val_of_int (x := F64.ofNat 3) 3 (by decide +kernel); rw [this]; norm_num)
    | exact ab_int (by decide +kernel) (by have := val_of_int (x := F64.ofNat 4) 4 (by decide +kernel); rw [this]; norm_num)
    | exact ab_int (by decide +kernel) (by have := val_of_int (x := F64.ofNat 5) 5 (by decide +kernel); rw [this]; norm_num)
    | exact ab_int (by decide +kernel) (by have := val_of_int (x := F64.ofNat 6) 6 (by decide +kernel); rw [this]; norm_num)

/-- the setting: `v = x.val` -/
structure LanHyp (x : F64) : Prop where
  lo : 1 / 10^12 ≤ x.val
  hi : x.val ≤ 10^300

theorem LanHyp.fin {x : F64} (h : LanHyp x) : x.isFin = true := by
  rw [isFin_iff_val, abs_of_pos (lt_of_lt_of_le (by norm_num) h.lo)]
  refine lt_of_le_of_lt h.hi ?_
  rw [HUGE_eq]
  calc (10:ℝ)^300 = (10^3)^100 := by rw [← pow_mul]
    _ < (2^10)^100 := pow_lt_pow_left₀ (by norm_num) (by norm_num) (by norm_num)
    _ = 2^1000 := by rw [← pow_mul]
    _ ≤ _ := pow_le_pow_right₀ (by norm_num) (by norm_num)

theorem capw {v c : ℝ} (h0 : 0 < v) (h1 : v ≤ 10^300) (hc : 1 ≤ c) (hc2 : c ≤ 100) : Cap (c * (v + 6)) := by
  refine cap_of ?_ ?_
  · have : (1:ℝ) / 2^100 ≤ 1 := by norm_num
    nlinarith
  · have e : (10:ℝ)^303 = 1000 * 10^300 := by rw [show (303:ℕ) = 3 + 300 by norm_num, pow_add]; norm_num
    rw [e]
    have h6 : (6:ℝ) ≤ 10^300 := by
      calc (6:ℝ) ≤ 10^1 := by norm_num
        _ ≤ _ := pow_le_pow_right₀ (by norm_num) (by norm_num)
    clear e
    generalize (10:ℝ)^300 = y at *
    calc c * (v + 6) ≤ 100 * (y + y) := mul_le_mul hc2 (by linarith) (by linarith) (by norm_num)
      _ ≤ _ := by linarith

theorem zm_ab {x : F64} (h : LanHyp x) : Ab (x - 1.0) (x.val - 1) ((x.val + 6) / 2^52) := by
  have h0 : 0 < x.val := lt_of_lt_of_le (by norm_num) h.lo
  have := ab_sub (M := 1 * (x.val + 6)) (ab_self h.fin) (ab_int one_fin one_val) (by
    have : |x.val - 1| ≤ x.val + 1 := by rw [abs_le]; constructor <;> linarith
    linarith) (capw h0 h.hi (by norm_num) (by norm_num))
  exact this.mono (by rw [one_mul]; simp)

theorem zi_ab {x : F64} (h : LanHyp x) {c : F64} {k : ℝ} (hc : Ab c k 0) (k0 : 0 ≤ k) (k1 : k ≤ 6) : Ab (x - 1.0 + c) (x.val - 1 + k) (3 * (x.val + 6) / 2^52) := by
  have h0 : 0 < x.val := lt_of_lt_of_le (by norm_num) h.lo
  have := ab_add (M := 2 * (x.val + 6)) (zm_ab h) hc (by
    have : |x.val - 1 + k| ≤ x.val + 5 := by rw [abs_le]; constructor <;> linarith
    norm_num
    linarith) (capw h0 h.hi (by norm_num) (by norm_num))
  exact this.mono (by linarith)

theorem ui_ab {x : F64} (h : LanHyp x) {n : ℕ} (hn : n ≤ 6) (h1 : 1 ≤ n) :
    Ab (x - 1.0 + F64.ofNat n) (x.val + (n - 1)) (18 * (1 + 1 / x.val) * (x.val + (n - 1)) / 2^52) := by
  have h0 : 0 < x.val := lt_of_lt_of_le (by norm_num) h.lo
  have hn' : (n:ℝ) ≤ 6 := by exact_mod_cast hn
  have h1' : (1:ℝ) ≤ n := by exact_mod_cast h1
  have := zi_ab h (ofNat_ab n hn) (by linarith) hn'
  rw [show x.val - 1 + (n:ℝ) = x.val + (n - 1) by ring] at this
  refine this.mono (div_le_div_of_nonneg_right ?_ (by positivity))
  have e : (1 + 1 / x.val) * x.val = x.val + 1 := by field_simp
  have hJ : 1 ≤ 1 + 1 / x.val := by have : 0 < 1 / x.val := by positivity
                                    linarith
  nlinarith

theorem ab_lit' (m k : ℕ) (hm : 1 / 10^6 ≤ (m:ℝ) / 10^k) (hM : (m:ℝ) / 10^k ≤ 100) : Ab (OfScientific.ofScientific m true k : F64) ((m:ℝ) / 10^k) ((m:ℝ) / 10^k / 2^52) :=
  ab_lit m k (le_refl _) (cap_of (le_trans (by norm_num) hm) (hM.trans (by
    calc (100:ℝ) = 10^2 := by norm_num
      _ ≤ _ := pow_le_pow_right₀ (by norm_num) (by norm_num))))

/-- sum of the magnitudes of the terms -/
noncomputable def lanT (v : ℝ) : ℝ :=
  76.18009172948503 / v + 86.50532032927205 / (v + 1) + 24.01409824118972 / (v + 2) + 1.2317395783752254 / (v + 3)
    + 0.0012086577526594748 / (v + 4) + 0.00000539702438713199 / (v + 5) + 1.000000000189712

def lanA : List ℤ := [914161100753820360000000, 3286413544028186695141176, 3340199816678870774376230, 1431942231986152041268645,
  276575336184970186034270, 20293246393594475200679, 100000000018971200000]

theorem lanT_eq {v : ℝ} (hv : 0 < v) : lanT v = ev lanA v / ev lanP v := by
  rw [lanP_ev, eq_div_iff (by positivity)]
  unfold lanT
  simp only [lanA, ev]
  push_cast
  field_simp
  norm_num
  ring

theorem ev_le_ev {a b : List ℤ} {v : ℝ} (hv : 0 ≤ v) (h : nonneg (ZPoly.sub b a) = true) : ev a v ≤ ev b v := by
  have := ev_nonneg (ZPoly.sub b a) v h hv
  rw [ev_sub] at this
  linarith

/-- the exact Lanczos sum -/
noncomputable def lanS (v : ℝ) : ℝ := ev lanN v / ev lanP v

theorem lanT_le {v : ℝ} (hv : 0 < v) : lanT v ≤ 9 * lanS v := by
  have hp := lanP_pos hv
  rw [lanT_eq hv, lanS, ← mul_div_assoc]
  refine div_le_div_of_nonneg_right ?_ hp.le
  have := ev_le_ev (a := lanA) (b := smul 9 lanN) hv.le (by decide +kernel)
  rw [ev_smul] at this
  exact_mod_cast this

theorem one_le_lanS {v : ℝ} (hv : 0 < v) : 1 ≤ lanS v := by
  have hp := lanP_pos hv
  rw [lanS, le_div_iff₀ hp, one_mul]
  exact ev_le_ev hv.le (by decide +kernel)

theorem lanS_le {v : ℝ} (hv : 0 < v) : lanS v ≤ lanT v := by
  have hp := lanP_pos hv
  rw [lanT_eq hv, lanS]
  exact div_le_div_of_nonneg_right (ev_le_ev hv.le (by decide +kernel)) hp.le

theorem lanT_bound {v : ℝ} (hv : 0 < v) : lanT v ≤ 114 * (1 + 1 / v) := by
  have d : ∀ (c k : ℝ), 0 ≤ c → 1 ≤ k → c / (v + k) ≤ c := fun c k hc hk => div_le_self hc (by linarith)
  have d1 := d 86.50532032927205 1 (by norm_num) (by norm_num)
  have d2 := d 24.01409824118972 2 (by norm_num) (by norm_num)
  have d3 := d 1.2317395783752254 3 (by norm_num) (by norm_num)
  have d4 := d 0.0012086577526594748 4 (by norm_num) (by norm_num)
  have d5 := d 0.00000539702438713199 5 (by norm_num) (by norm_num)
  have e : (76.18009172948503:ℝ) / v = 76.18009172948503 * (1 / v) := by ring
  have hi : 0 < 1 / v := by positivity
  unfold lanT
  rw [e]
  generalize 1 / v = i at *
  norm_num at d1 d2 d3 d4 d5 ⊢
  linarith

theorem lanS_real {v : ℝ} (hv : 0 < v) : lanS v = 76.18009172948503 / v + -86.50532032927205 / (v + 1) + 24.01409824118972 / (v + 2)
    + -1.2317395783752254 / (v + 3) + 0.0012086577526594748 / (v + 4) + -0.00000539702438713199 / (v + 5) + 1.000000000189712 := by
  rw [lanS, lanP_ev, div_eq_iff (by positivity)]
  simp only [lanN, ev]
  push_cast
  field_simp
  norm_num
  ring

/-- the computed Lanczos sum -/
theorem lanS_ab {x : F64} (h : LanHyp x) : Ab (lanczosSum (x - 1.0) + lg5n7Head) (lanS x.val) (648 * (1 + 1 / x.val) / 2^52 * lanS x.val) := by
  have h0 : 0 < x.val := lt_of_lt_of_le (by norm_num) h.lo
  have hi0 : 0 < 1 / x.val := by positivity
  have hi1 : 1 / x.val ≤ 10^12 := by
    rw [div_le_iff₀ h0]; have := h.lo; rw [div_le_iff₀ (by norm_num)] at this; linarith
  have hJ1 : 1 ≤ 1 + 1 / x.val := by linarith
  have hJ2 : 1 + 1 / x.val ≤ 2 * 10^12 := by norm_num at hi1 ⊢; linarith
  have hB2 : ∀ k : ℝ, k ≤ 5 → x.val + k ≤ 2 * 10^300 := by
    intro k hk
    have h5 : (5:ℝ) ≤ 10^300 := by
      calc (5:ℝ) ≤ 10^1 := by norm_num
        _ ≤ _ := pow_le_pow_right₀ (by norm_num) (by norm_num)
    have := h.hi
    generalize (10:ℝ)^300 = y at *
    linarith
  have T : ∀ (m k n : ℕ), 1 ≤ n → n ≤ 6 → 1 / 10^6 ≤ (m:ℝ) / 10^k → (m:ℝ) / 10^k ≤ 100 →
      Ab ((OfScientific.ofScientific m true k : F64) / (x - 1.0 + F64.ofNat n)) ((m:ℝ) / 10^k / (x.val + (n - 1))) (54 * (1 + 1 / x.val) / 2^52 * ((m:ℝ) / 10^k / (x.val + (n - 1)))) := by
    intro m k n n1 n6 a b
    have n1' : (1:ℝ) ≤ n := by exact_mod_cast n1
    have n6' : (n:ℝ) ≤ 6 := by exact_mod_cast n6
    have hp : |(m:ℝ) / 10^k| = (m:ℝ) / 10^k := abs_of_nonneg (by positivity)
    have := lan_term (C := (m:ℝ) / 10^k) (by rw [hp]; exact ab_lit' m k a b) (ui_ab h n6 n1) (by rw [hp]; exact a) (by rw [hp]; exact b) (by linarith [h.lo]) (hB2 _ (by linarith)) hJ1 hJ2
    rwa [hp] at this
  have Tn : ∀ (m k n : ℕ), 1 ≤ n → n ≤ 6 → 1 / 10^6 ≤ (m:ℝ) / 10^k → (m:ℝ) / 10^k ≤ 100 →
      Ab (-(OfScientific.ofScientific m true k : F64) / (x - 1.0 + F64.ofNat n)) (-((m:ℝ) / 10^k) / (x.val + (n - 1))) (54 * (1 + 1 / x.val) / 2^52 * ((m:ℝ) / 10^k / (x.val + (n - 1)))) := by
    intro m k n n1 n6 a b
    have n1' : (1:ℝ) ≤ n := by exact_mod_cast n1
    have n6' : (n:ℝ) ≤ 6 := by exact_mod_cast n6
    have hp : |-((m:ℝ) / 10^k)| = (m:ℝ) / 10^k := by rw [abs_neg]; exact abs_of_nonneg (by positivity)
    have := lan_term (C := -((m:ℝ) / 10^k)) (by rw [hp]; exact ab_neg (ab_lit' m k a b)) (ui_ab h n6 n1) (by rw [hp]; exact a) (by rw [hp]; exact b) (by linarith [h.lo]) (hB2 _ (by linarith)) hJ1 hJ2
    rwa [hp] at this
  have t1 := T (nat_lit 7618009172948503) (nat_lit 14) 1 (by norm_num) (by norm_num) (by norm_num) (by norm_num)
  have t2 := Tn (nat_lit 8650532032927205) (nat_lit 14) 2 (by norm_num) (by norm_num) (by norm_num) (by norm_num)
  have t3 := T (nat_lit 2401409824118972) (nat_lit 14) 3 (by norm_num) (by norm_num) (by norm_num) (by norm_num)
  have t4 := Tn (nat_lit 12317395783752254) (nat_lit 16) 4 (by norm_num) (by norm_num) (by norm_num) (by norm_num)
  have t5 := T (nat_lit 12086577526594748) (nat_lit 19) 5 (by norm_num) (by norm_num) (by norm_num) (by norm_num)
  have t6 := Tn (nat_lit 539702438713199) (nat_lit 20) 6 (by norm_num) (by norm_num) (by norm_num) (by norm_num)
  have t7 := ab_lit' (nat_lit 1000000000189712) (nat_lit 15) (by norm_num) (by norm_num)
  have hT := lanT_bound h0
  have hT9 := lanT_le h0
  have hSr := lanS_real h0
  have hTu : lanT x.val = _ := rfl
  conv_rhs at hTu => unfold lanT
  have hS1 := one_le_lanS h0
  have hST := lanS_le h0
  rw [lanczos_eq]
  have f1 : (OfScientific.ofScientific (nat_lit 7618009172948503) true (nat_lit 14) : F64) = 76.18009172948503 := rfl
  have f2 : (OfScientific.ofScientific (nat_lit 8650532032927205) true (nat_lit 14) : F64) = 86.50532032927205 := rfl
  have f3 : (OfScientific.ofScientific (nat_lit 2401409824118972) true (nat_lit 14) : F64) = 24.01409824118972 := rfl
  have f4 : (OfScientific.ofScientific (nat_lit 12317395783752254) true (nat_lit 16) : F64) = 1.2317395783752254 := rfl
  have f5 : (OfScientific.ofScientific (nat_lit 12086577526594748) true (nat_lit 19) : F64) = 0.0012086577526594748 := rfl
  have f6 : (OfScientific.ofScientific (nat_lit 539702438713199) true (nat_lit 20) : F64) = 0.00000539702438713199 := rfl
  have f7 : (OfScientific.ofScientific (nat_lit 1000000000189712) true (nat_lit 15) : F64) = 1.000000000189712 := rfl
  rw [f1] at t1
  rw [f2] at t2
  rw [f3] at t3
  rw [f4] at t4
  rw [f5] at t5
  rw [f6] at t6
  rw [f7] at t7
  have e1 : ((nat_lit 7618009172948503:ℕ):ℝ) / 10^(nat_lit 14) / (x.val + ((1:ℕ) - 1)) = 76.18009172948503 / x.val := by norm_num
  have e2 : ((nat_lit 8650532032927205:ℕ):ℝ) / 10^(nat_lit 14) / (x.val + ((2:ℕ) - 1)) = 86.50532032927205 / (x.val + 1) := by norm_num
  have e2' : -(((nat_lit 8650532032927205:ℕ):ℝ) / 10^(nat_lit 14)) / (x.val + ((2:ℕ) - 1)) = -86.50532032927205 / (x.val + 1) := by norm_num
  have e3 : ((nat_lit 2401409824118972:ℕ):ℝ) / 10^(nat_lit 14) / (x.val + ((3:ℕ) - 1)) = 24.01409824118972 / (x.val + 2) := by norm_num
  have e4 : ((nat_lit 12317395783752254:ℕ):ℝ) / 10^(nat_lit 16) / (x.val + ((4:ℕ) - 1)) = 1.2317395783752254 / (x.val + 3) := by norm_num
  have e4' : -(((nat_lit 12317395783752254:ℕ):ℝ) / 10^(nat_lit 16)) / (x.val + ((4:ℕ) - 1)) = -1.2317395783752254 / (x.val + 3) := by norm_num
  have e5 : ((nat_lit 12086577526594748:ℕ):ℝ) / 10^(nat_lit 19) / (x.val + ((5:ℕ) - 1)) = 0.0012086577526594748 / (x.val + 4) := by norm_num
  have e6 : ((nat_lit 539702438713199:ℕ):ℝ) / 10^(nat_lit 20) / (x.val + ((6:ℕ) - 1)) = 0.00000539702438713199 / (x.val + 5) := by norm_num
  have e6' : -(((nat_lit 539702438713199:ℕ):ℝ) / 10^(nat_lit 20)) / (x.val + ((6:ℕ) - 1)) = -0.00000539702438713199 / (x.val + 5) := by norm_num
  have e7 : ((nat_lit 1000000000189712:ℕ):ℝ) / 10^(nat_lit 15) = 1.000000000189712 := by norm_num
  rw [e1] at t1
  rw [e2, e2'] at t2
  rw [e3] at t3
  rw [e4, e4'] at t4
  rw [e5] at t5
  rw [e6, e6'] at t6
  rw [e7] at t7
  have p1 : (0:ℝ) ≤ 76.18009172948503 / x.val := by positivity
  have p2 : (0:ℝ) ≤ 86.50532032927205 / (x.val + 1) := by positivity
  have p3 : (0:ℝ) ≤ 24.01409824118972 / (x.val + 2) := by positivity
  have p4 : (0:ℝ) ≤ 1.2317395783752254 / (x.val + 3) := by positivity
  have p5 : (0:ℝ) ≤ 0.0012086577526594748 / (x.val + 4) := by positivity
  have p6 : (0:ℝ) ≤ 0.00000539702438713199 / (x.val + 5) := by positivity
  have p7 : (0:ℝ) ≤ 1.000000000189712 := by norm_num
  simp only [neg_div] at hSr t2 t4 t6
  have hR : 54 * (1 + 1 / x.val) / 2^52 ≤ 1/2 := by norm_num at hJ2 ⊢; linarith
  have hR1 : (1.000000000189712:ℝ) / 2^52 ≤ 54 * (1 + 1 / x.val) / 2^52 * 1.000000000189712 := by
    generalize 1 + 1 / x.val = J at hJ1
    norm_num; linarith
  have t7 := t7.mono hR1
  have hTcap : Cap (2 * lanT x.val) := by
    refine cap_of ?_ ?_
    · have : (1:ℝ) / 2^100 ≤ 1 := by norm_num
      linarith
    · calc 2 * lanT x.val ≤ 10^20 := by norm_num at hJ2 ⊢; linarith
        _ ≤ _ := pow_le_pow_right₀ (by norm_num) (by norm_num)
  have hS0 : 0 < lanS x.val := by linarith
  clear T Tn
  generalize lanT x.val = T at *
  generalize lanS x.val = S at *
  generalize (76.18009172948503:ℝ) / x.val = τ1 at *
  generalize (86.50532032927205:ℝ) / (x.val + 1) = τ2 at *
  generalize (24.01409824118972:ℝ) / (x.val + 2) = τ3 at *
  generalize (1.2317395783752254:ℝ) / (x.val + 3) = τ4 at *
  generalize (0.0012086577526594748:ℝ) / (x.val + 4) = τ5 at *
  generalize (0.00000539702438713199:ℝ) / (x.val + 5) = τ6 at *
  generalize (1.000000000189712:ℝ) = τ7 at *
  have hRJ : 54 * (1 + 1 / x.val) / 2^52 * T + 14 * T / 2^52 ≤ 648 * (1 + 1 / x.val) / 2^52 * S := by
    have : (54 * (1 + 1 / x.val) + 14) * T ≤ (54 * (1 + 1 / x.val) + 14 * (1 + 1 / x.val)) * (9 * S) :=
      mul_le_mul (by linarith) hT9 (by linarith) (by linarith)
    calc _ = (54 * (1 + 1 / x.val) + 14) * T / 2^52 := by ring
      _ ≤ ((54 * (1 + 1 / x.val) + 14 * (1 + 1 / x.val)) * (9 * S)) / 2^52 := div_le_div_of_nonneg_right this (by positivity)
      _ = 612 * (1 + 1 / x.val) / 2^52 * S := by ring
      _ ≤ _ := by
        refine mul_le_mul_of_nonneg_right ?_ hS0.le
        refine div_le_div_of_nonneg_right ?_ (by positivity)
        linarith
  generalize 54 * (1 + 1 / x.val) / 2^52 = R at *
  have n1 : |(-τ2)| ≤ τ2 := by rw [abs_neg, abs_of_nonneg p2]
  have n2 : |(-τ4)| ≤ τ4 := by rw [abs_neg, abs_of_nonneg p4]
  have n3 : |(-τ6)| ≤ τ6 := by rw [abs_neg, abs_of_nonneg p6]
  have a0 : Ab (0.0 : F64) 0 (R * 0 + (0:ℕ) * (2 * T) / 2^52) := by
    refine (ab_int zero_fin Verif.zero_val).mono (by norm_num)
  have a1 := lan_sum a0 t1 (by simp) (abs_of_nonneg p1).le (by linarith) hR (by norm_num) hTcap
  have a2 := lan_sum a1.1 t2 a1.2 n1 (by linarith) hR (by norm_num) hTcap
  have a3 := lan_sum a2.1 t3 a2.2 (abs_of_nonneg p3).le (by linarith) hR (by norm_num) hTcap
  have a4 := lan_sum a3.1 t4 a3.2 n2 (by linarith) hR (by norm_num) hTcap
  have a5 := lan_sum a4.1 t5 a4.2 (abs_of_nonneg p5).le (by linarith) hR (by norm_num) hTcap
  have a6 := lan_sum a5.1 t6 a5.2 n3 (by linarith) hR (by norm_num) hTcap
  have a7 := lan_sum a6.1 t7 a6.2 (abs_of_nonneg p7).le (by linarith) hR (by norm_num) hTcap
  have hA : 0 + τ1 + -τ2 + τ3 + -τ4 + τ5 + -τ6 + τ7 = S := by rw [hSr]; ring
  have hb := a7.1
  rw [hA] at hb
  have hE : R * (0 + τ1 + τ2 + τ3 + τ4 + τ5 + τ6 + τ7) + ((0 + 1 + 1 + 1 + 1 + 1 + 1 + 1 : ℕ):ℝ) * (2 * T) / 2^52 = R * T + 14 * T / 2^52 := by
    rw [hTu]
    push_cast
    ring
  constructor
  · exact hb.fin
  · exact hb.err.trans ((le_of_eq hE).trans hRJ)

end Verif
