import Verif.Proofs.BetaSandF

/-!
# The continued fraction of the incomplete beta function in binary64, `b ≤ 1`: coefficients and one half step
-/

namespace Verif
namespace Bcf
open F64

/-- the setting: `X` is the exact argument -/
structure Ctx (a b x : F64) (X : ℝ) : Prop where
  a0 : 1 / 10^5 ≤ a.val
  a1 : a.val ≤ 1000
  b0 : 1 / 10^5 ≤ b.val
  b1 : b.val ≤ 1
  hx : SR x X 1
  x0 : 1 / 10^270 ≤ X
  x1 : X ≤ 999 / 1000

variable {a b x : F64} {X : ℝ}

theorem Ctx.ap (H : Ctx a b x X) : 0 < a.val := lt_of_lt_of_le (by norm_num) H.a0
theorem Ctx.bp (H : Ctx a b x X) : 0 < b.val := lt_of_lt_of_le (by norm_num) H.b0
theorem Ctx.Xpos (H : Ctx a b x X) : 0 < X := lt_of_lt_of_le (by positivity) H.x0
theorem Ctx.fa (H : Ctx a b x X) : a.isFin = true := isFin_of_abs (b := 1000) (by rw [abs_of_pos H.ap]; exact H.a1) (by norm_num)
theorem Ctx.fb (H : Ctx a b x X) : b.isFin = true := isFin_of_abs (b := 1) (by rw [abs_of_pos H.bp]; exact H.b1) (by norm_num)
theorem Ctx.neg (H : Ctx a b x X) : Neg a.val b.val := ⟨H.ap, H.bp, H.b1⟩

theorem ten300 : (1:ℝ) / 10^300 ≤ 1 / 10^100 := one_div_le_one_div_of_le (by positivity) (pow_le_pow_right₀ (by norm_num) (by norm_num))
theorem rng_n {A : ℝ} (h1 : 1 / 10^100 ≤ A) (h2 : A ≤ 10^100) : Rng A := rng_of (ten300.trans h1) h2

/-- products with the argument -/
theorem rng_x {q : ℝ} (h0 : 1 / 10^270 ≤ X) (h1 : X ≤ 1) (q0 : 1 / 10^30 ≤ q) (q1 : q ≤ 10^30) : Rng (q * X) := by
  have X0 : 0 < X := lt_of_lt_of_le (by positivity) h0
  have Q0 : 0 < q := lt_of_lt_of_le (by positivity) q0
  refine rng_of ?_ ?_
  · calc (1:ℝ) / 10^300 = 1 / 10^30 * (1 / 10^270) := by rw [show (10:ℝ)^300 = 10^30 * 10^270 by rw [← pow_add]]; rw [one_div_mul_one_div]
      _ ≤ q * X := mul_le_mul q0 h0 (by positivity) Q0.le
  · calc q * X ≤ 10^30 * 1 := mul_le_mul q1 h1 X0.le (by positivity)
      _ ≤ 10^100 := by norm_num

theorem nat_sr {m : ℕ} (hm : m ≤ 10000) : SR (F64.ofNat m) (m:ℝ) 0 := by
  have := ofNat_val (n := m) (by omega)
  exact sr_lit this.1 this.2

theorem two_sr : SR (2.0:F64) 2 0 := sr_lit (by decide +kernel) (by have := val_of_int (x := (2.0:F64)) 2 (by decide +kernel); rw [this]; norm_num)
theorem one_sr : SR (1.0:F64) 1 0 := sr_lit (by decide +kernel) one_val

theorem m2_sr {m : ℕ} (h1 : 1 ≤ m) (hm : m ≤ 10000) : SR (2.0 * F64.ofNat m) (2 * (m:ℝ)) 1 := by
  have c1 : (1:ℝ) ≤ m := by exact_mod_cast h1
  have c2 : (m:ℝ) ≤ 10000 := by exact_mod_cast hm
  have := sr_mul two_sr (nat_sr hm) (rng_n (by norm_num; linarith) (by norm_num; linarith)) le_rfl le_rfl (by norm_num) (by norm_num)
  exact this.mono (by norm_num)

/-- `b - m` -/
theorem bm_sr (H : Ctx a b x X) {m : ℕ} (h1 : 1 ≤ m) (hm : m ≤ 10000) : SR (b - F64.ofNat m) (b.val - m) 1 ∧ ((m:ℝ) - b.val = 0 ∨ 1 / 10^16 ≤ (m:ℝ) - b.val) := by
  have c1 : (1:ℝ) ≤ m := by exact_mod_cast h1
  have c2 : (m:ℝ) ≤ 10000 := by exact_mod_cast hm
  have g : (m:ℝ) - b.val = 0 ∨ 1 / 10^16 ≤ (m:ℝ) - b.val := by
    rcases lt_or_eq_of_le H.b1 with h | h
    · right
      have := lt_one_le h
      norm_num at this ⊢; linarith
    · rcases Nat.lt_or_ge m 2 with q | q
      · left
        have : m = 1 := by omega
        rw [this, h]; norm_num
      · right
        have : (2:ℝ) ≤ m := by exact_mod_cast q
        norm_num; linarith
  refine ⟨?_, g⟩
  have r : Rng (b.val - m) := by
    rw [show b.val - m = -((m:ℝ) - b.val) by ring]
    apply rng_neg
    rcases g with h | h
    · exact Or.inl h
    · exact rng_n (by norm_num at h ⊢; linarith) (by have := H.bp; norm_num; linarith)
  have n := nat_sr hm
  have nv : (F64.ofNat m).val = m := (ofNat_val (n := m) (by omega)).2
  have := sr_round (k := 0) (e := 0) (sub_spec H.fb n.fin).2 r le_rfl (by norm_num) (by norm_num) (by rw [nv]; simp)
  exact this.mono (by norm_num)

/-- `(a - 1) + 2 m` -/
theorem qam_sr (H : Ctx a b x X) {m : ℕ} (h1 : 1 ≤ m) (hm : m ≤ 10000) : SR ((a - 1.0) + 2.0 * F64.ofNat m) (a.val + 2 * m - 1) 4 := by
  have c1 : (1:ℝ) ≤ m := by exact_mod_cast h1
  have c2 : (m:ℝ) ≤ 10000 := by exact_mod_cast hm
  have ap := H.ap
  have a1 := H.a1
  have m2 := m2_sr h1 hm
  have s := (sub_spec H.fa (show (1.0:F64).isFin = true by decide +kernel)).2
  rw [one_val] at s
  have er := RN_err' (x := a.val - 1) (by
    have := HUGE_ge
    have : |a.val - 1| ≤ 1000 := by rw [abs_le]; constructor <;> linarith
    have h2 : (1000:ℝ) < 10^200 := by norm_num
    linarith)
  have t1075 : (1:ℝ) / 2^1075 ≤ 1 / 10^19 * (1/2) := le_trans (one_div_le_one_div_of_le (by positivity) (pow_le_pow_right₀ (by norm_num) (show 80 ≤ 1075 by norm_num))) (by norm_num)
  have ab1 : |a.val - 1| ≤ a.val + 1 := by rw [abs_le]; constructor <;> linarith
  have ug := uu_gap
  have q : |(a - 1.0).val - (a.val - 1)| ≤ uu * (a.val + 1) := by
    rw [s]
    have hm := mul_le_mul_of_nonneg_right ug (show 0 ≤ a.val + 1 by linarith)
    generalize (1:ℝ) / 2^1075 = t at er t1075
    refine er.trans ?_
    refine le_trans ?_ hm
    norm_num at ab1 t1075 ⊢
    nlinarith
  have ff : (a - 1.0).isFin = true := by
    refine isFin_of_abs (b := 2000) ?_ (by norm_num)
    have t := abs_add_le ((a - 1.0).val - (a.val - 1)) (a.val - 1)
    rw [sub_add_cancel] at t
    have : uu * (a.val + 1) ≤ 1 := by have := uu_le; have := uu_pos; norm_num at *; nlinarith
    linarith
  have me := m2.err
  rw [abs_of_nonneg (show 0 ≤ 2 * (m:ℝ) by linarith)] at me
  have := sr_round (A := a.val + 2 * m - 1) (k := 3) (e := 3 * uu) (add_spec ff m2.fin).2 (rng_n (by norm_num; linarith) (by norm_num; linarith)) (by norm_num) (by norm_num) (by norm_num) (by
    rw [abs_of_nonneg (show 0 ≤ a.val + 2 * (m:ℝ) - 1 by linarith)]
    rw [show (a - 1.0).val + (2.0 * F64.ofNat m : F64).val - (a.val + 2 * m - 1) = ((a - 1.0).val - (a.val - 1)) + ((2.0 * F64.ofNat m : F64).val - 2 * m) by ring]
    refine (abs_add_le _ _).trans ((add_le_add q me).trans ?_)
    have := uu_pos
    nlinarith)
  exact this.mono (by norm_num)

theorem even_sr (H : Ctx a b x X) {m : ℕ} (h1 : 1 ≤ m) (hm : m ≤ 10000) :
    SR (F64.ofNat m * (b - F64.ofNat m) * x / (((a - 1.0) + 2.0 * F64.ofNat m) * (a + 2.0 * F64.ofNat m)))
      (-pk a.val b.val X (2 * m - 1)) 12 ∧ (pk a.val b.val X (2 * m - 1) = 0 ∨ 1 / 10^296 ≤ pk a.val b.val X (2 * m - 1)) := by
  have c1 : (1:ℝ) ≤ m := by exact_mod_cast h1
  have c2 : (m:ℝ) ≤ 10000 := by exact_mod_cast hm
  have ap := H.ap
  have a1 := H.a1
  have bp := H.bp
  have X0 := H.Xpos
  have X1 : X ≤ 1 := H.x1.trans (by norm_num)
  obtain ⟨s1, g⟩ := bm_sr H h1 hm
  have e : -pk a.val b.val X (2 * m - 1) = m * (b.val - m) * X / ((a.val + 2 * m - 1) * (a.val + 2 * m)) := by
    rw [pk_eq ap, show 2 * m - 1 + 1 = 2 * m by omega, betaCoeff_even _ _ _ _ h1, neg_neg]
  have dp : 0 < (a.val + 2 * m - 1) * (a.val + 2 * m) := by
    have : 0 < a.val + 2 * (m:ℝ) - 1 := by linarith
    positivity
  have dl : (a.val + 2 * m - 1) * (a.val + 2 * m) ≤ 10^9 := by
    calc _ ≤ 21000 * (21000:ℝ) := mul_le_mul (by linarith) (by linarith) (by linarith) (by norm_num)
      _ ≤ _ := by norm_num
  have dg : 1 ≤ (a.val + 2 * m - 1) * (a.val + 2 * m) := by
    calc (1:ℝ) = 1 * 1 := by norm_num
      _ ≤ _ := mul_le_mul (by linarith) (by linarith) (by norm_num) (by linarith)
  have q2 : SR (((a - 1.0) + 2.0 * F64.ofNat m) * (a + 2.0 * F64.ofNat m)) ((a.val + 2 * m - 1) * (a.val + 2 * m)) 7 := by
    have r := sr_add ((sr_self H.fa).mono (show (0:ℝ) ≤ 1 by norm_num)) (m2_sr h1 hm) ap.le (by linarith) (rng_n (by norm_num; linarith) (by norm_num; linarith)) (by norm_num) (by norm_num)
    exact (sr_mul (qam_sr H h1 hm) r (rng_n (by norm_num at dg ⊢; linarith) (by norm_num at dl ⊢; linarith)) (by norm_num) (by norm_num) (by norm_num) (by norm_num)).mono (by norm_num)
  rw [e]
  have e2 : pk a.val b.val X (2 * m - 1) = (m * (m - b.val)) * X / ((a.val + 2 * m - 1) * (a.val + 2 * m)) := by
    rw [← neg_neg (pk _ _ _ _), e]; ring
  rcases g with g | g
  · have z : b.val - m = 0 := by linarith
    rw [z] at s1
    have z2 : m * (b.val - m) * X / ((a.val + 2 * m - 1) * (a.val + 2 * m)) = 0 := by rw [z]; simp
    have p1 := sr_mul (nat_sr hm) s1 (Or.inl (mul_zero _)) le_rfl (by norm_num) (by norm_num) (by norm_num)
    have p2 := sr_mul p1 H.hx (Or.inl (by rw [mul_zero, zero_mul])) (by norm_num) (by norm_num) (by norm_num) (by norm_num)
    have p3 := sr_div p2 q2 dp (Or.inl (by rw [mul_zero, zero_mul, zero_div])) (by norm_num) (by norm_num) (by norm_num) (by norm_num)
    rw [z]
    refine ⟨p3.mono (by norm_num), Or.inl ?_⟩
    rw [e2, g]; simp
  · have w1 : 1 / 10^16 ≤ m * (m - b.val) := by nlinarith
    have w2 : m * (m - b.val) ≤ 10^8 := by nlinarith
    have p1 := sr_mul (nat_sr hm) s1 (by
      rw [show (m:ℝ) * (b.val - m) = -(m * (m - b.val)) by ring]
      exact rng_neg (rng_n (by norm_num at w1 ⊢; linarith) (by norm_num at w2 ⊢; linarith))) le_rfl (by norm_num) (by norm_num) (by norm_num)
    have p2 := sr_mul p1 H.hx (by
      rw [show (m:ℝ) * (b.val - m) * X = -(m * (m - b.val) * X) by ring]
      exact rng_neg (rng_x H.x0 X1 (by norm_num at w1 ⊢; linarith) (by norm_num at w2 ⊢; linarith))) (by norm_num) (by norm_num) (by norm_num) (by norm_num)
    have v1 : 1 / 10^25 ≤ m * (m - b.val) / ((a.val + 2 * m - 1) * (a.val + 2 * m)) := by
      rw [le_div_iff₀ dp]; norm_num at w1 dl ⊢; linarith
    have v2 : m * (m - b.val) / ((a.val + 2 * m - 1) * (a.val + 2 * m)) ≤ 10^30 := by
      rw [div_le_iff₀ dp]; norm_num at w2 dg ⊢; linarith
    have p3 := sr_div p2 q2 dp (by
      rw [show (m:ℝ) * (b.val - m) * X / ((a.val + 2 * m - 1) * (a.val + 2 * m)) = -(m * (m - b.val) / ((a.val + 2 * m - 1) * (a.val + 2 * m)) * X) by ring]
      exact rng_neg (rng_x H.x0 X1 (by norm_num at v1 ⊢; linarith) v2)) (by norm_num) (by norm_num) (by norm_num) (by norm_num)
    refine ⟨p3.mono (by norm_num), Or.inr ?_⟩
    rw [e2, mul_div_right_comm]
    calc (1:ℝ) / 10^296 ≤ 1 / 10^25 * (1 / 10^270) := by
          rw [one_div_mul_one_div, ← pow_add]
          exact one_div_le_one_div_of_le (by positivity) (pow_le_pow_right₀ (by norm_num) (by norm_num))
      _ ≤ _ := mul_le_mul v1 H.x0 (by positivity) (by linarith [show (0:ℝ) ≤ 1 / 10^25 by norm_num])

theorem odd_sr (H : Ctx a b x X) {m : ℕ} (h1 : 1 ≤ m) (hm : m ≤ 10000) :
    SR (-(a + F64.ofNat m) * ((a + b) + F64.ofNat m) * x / ((a + 2.0 * F64.ofNat m) * ((a + 1.0) + 2.0 * F64.ofNat m)))
      (-pk a.val b.val X (2 * m)) 12 ∧ (pk a.val b.val X (2 * m) = 0 ∨ 1 / 10^296 ≤ pk a.val b.val X (2 * m)) := by
  have c1 : (1:ℝ) ≤ m := by exact_mod_cast h1
  have c2 : (m:ℝ) ≤ 10000 := by exact_mod_cast hm
  have ap := H.ap
  have a1 := H.a1
  have bp := H.bp
  have b1 := H.b1
  have X0 := H.Xpos
  have X1 : X ≤ 1 := H.x1.trans (by norm_num)
  have e2 : pk a.val b.val X (2 * m) = (a.val + m) * (a.val + b.val + m) * X / ((a.val + 2 * m) * (a.val + 1 + 2 * m)) := by
    rw [pk_eq ap, betaCoeff_odd, neg_neg]; congr 1; ring
  have sm : ∀ {A : ℝ}, 1 / 10^5 ≤ A → A ≤ 10^9 → Rng A := fun h1 h2 => rng_n (by norm_num at h1 ⊢; linarith) (by norm_num at h2 ⊢; linarith)
  have a0 := H.a0
  have b0 := H.b0
  have dp : 0 < (a.val + 2 * m) * (a.val + 1 + 2 * m) := by positivity
  have dl : (a.val + 2 * m) * (a.val + 1 + 2 * m) ≤ 10^9 := by
    calc _ ≤ 21001 * (21001:ℝ) := mul_le_mul (by linarith) (by linarith) (by linarith) (by norm_num)
      _ ≤ _ := by norm_num
  have dg : 1 ≤ (a.val + 2 * m) * (a.val + 1 + 2 * m) := by
    calc (1:ℝ) = 1 * 1 := by norm_num
      _ ≤ _ := mul_le_mul (by linarith) (by linarith) (by norm_num) (by linarith)
  have ng : 1 ≤ (a.val + m) * (a.val + b.val + m) := by
    calc (1:ℝ) = 1 * 1 := by norm_num
      _ ≤ _ := mul_le_mul (by linarith) (by linarith) (by norm_num) (by linarith)
  have nl : (a.val + m) * (a.val + b.val + m) ≤ 10^9 := by
    calc _ ≤ 11001 * (11001:ℝ) := mul_le_mul (by linarith) (by linarith) (by linarith) (by norm_num)
      _ ≤ _ := by norm_num
  have sa := sr_self H.fa
  have sb := sr_self H.fb
  have u1 := sr_add sa (nat_sr hm) ap.le (by linarith) (sm (by norm_num; linarith) (by norm_num; linarith)) le_rfl (by norm_num)
  have u2 := sr_add (sr_add sa sb ap.le bp.le (sm (by norm_num at a0 ⊢; linarith) (by norm_num; linarith)) le_rfl (by norm_num)) ((nat_sr hm).mono (show (0:ℝ) ≤ 0 + 1 by norm_num)) (by linarith) (by linarith) (sm (by norm_num; linarith) (by norm_num; linarith)) (by norm_num) (by norm_num)
  have p1 := sr_mul (sr_neg u1) u2 (by rw [neg_mul]; exact rng_neg (sm (by norm_num at ng ⊢; linarith) nl)) (by norm_num) (by norm_num) (by norm_num) (by norm_num)
  have p2 := sr_mul p1 H.hx (by rw [neg_mul, neg_mul]; exact rng_neg (rng_x H.x0 X1 (by norm_num at ng ⊢; linarith) (by norm_num at nl ⊢; linarith))) (by norm_num) (by norm_num) (by norm_num) (by norm_num)
  have v1 := sr_add (sa.mono (show (0:ℝ) ≤ 1 by norm_num)) (m2_sr h1 hm) ap.le (by linarith) (sm (by norm_num; linarith) (by norm_num; linarith)) (by norm_num) (by norm_num)
  have v2 := sr_add (sr_add sa one_sr ap.le (by norm_num) (sm (by norm_num; linarith) (by norm_num; linarith)) le_rfl (by norm_num)) ((m2_sr h1 hm).mono (show (1:ℝ) ≤ 0 + 1 by norm_num)) (by linarith) (by linarith) (sm (by norm_num; linarith) (by norm_num; linarith)) (by norm_num) (by norm_num)
  have p3 := sr_mul v1 v2 (sm (by norm_num at dg ⊢; linarith) dl) (by norm_num) (by norm_num) (by norm_num) (by norm_num)
  have w1 : 1 / 10^25 ≤ (a.val + m) * (a.val + b.val + m) / ((a.val + 2 * m) * (a.val + 1 + 2 * m)) := by
    rw [le_div_iff₀ dp]; norm_num at ng dl ⊢; linarith
  have w2 : (a.val + m) * (a.val + b.val + m) / ((a.val + 2 * m) * (a.val + 1 + 2 * m)) ≤ 10^30 := by
    rw [div_le_iff₀ dp]; norm_num at nl dg ⊢; linarith
  have ee : -(a.val + m) * (a.val + b.val + m) * X / ((a.val + 2 * m) * (a.val + 1 + 2 * m)) = -((a.val + m) * (a.val + b.val + m) / ((a.val + 2 * m) * (a.val + 1 + 2 * m)) * X) := by ring
  have p4 := sr_div p2 p3 dp (by rw [ee]; exact rng_neg (rng_x H.x0 X1 (by norm_num at w1 ⊢; linarith) w2)) (by norm_num) (by norm_num) (by norm_num) (by norm_num)
  rw [ee] at p4
  rw [e2, mul_div_right_comm]
  refine ⟨p4.mono (by norm_num), Or.inr ?_⟩
  calc (1:ℝ) / 10^296 ≤ 1 / 10^25 * (1 / 10^270) := by
        rw [one_div_mul_one_div, ← pow_add]
        exact one_div_le_one_div_of_le (by positivity) (pow_le_pow_right₀ (by norm_num) (by norm_num))
    _ ≤ _ := mul_le_mul w1 H.x0 (by positivity) (by linarith [show (0:ℝ) ≤ 1 / 10^25 by norm_num])

/-- the first denominator: `(a + b) x / (a + 1)` -/
theorem init_sr (H : Ctx a b x X) : SR ((a + b) * x / (a + 1.0)) (pk a.val b.val X 0) 5 := by
  have ap := H.ap
  have a1 := H.a1
  have bp := H.bp
  have b1 := H.b1
  have a0 := H.a0
  have b0 := H.b0
  have X1 : X ≤ 1 := H.x1.trans (by norm_num)
  have e : pk a.val b.val X 0 = (a.val + b.val) * X / (a.val + 1) := by
    have := betaCoeff_odd a.val b.val X 0
    rw [show 2 * 0 + 1 = 0 + 1 by rfl] at this
    rw [pk_eq ap, this]
    simp only [Nat.cast_zero, add_zero, mul_zero, neg_neg]
    field_simp
  have sm : ∀ {A : ℝ}, 1 / 10^5 ≤ A → A ≤ 10^9 → Rng A := fun h1 h2 => rng_n (by norm_num at h1 ⊢; linarith) (by norm_num at h2 ⊢; linarith)
  have u := sr_add (sr_self H.fa) (sr_self H.fb) ap.le bp.le (sm (by norm_num at a0 ⊢; linarith) (by norm_num; linarith)) le_rfl (by norm_num)
  have u1 := sr_mul u H.hx (rng_x H.x0 X1 (by norm_num at a0 ⊢; linarith) (by norm_num; linarith)) (by norm_num) (by norm_num) (by norm_num) (by norm_num)
  have v := sr_add (sr_self H.fa) one_sr ap.le (by norm_num) (sm (by norm_num; linarith) (by norm_num; linarith)) le_rfl (by norm_num)
  have dp : 0 < a.val + 1 := by linarith
  have p := sr_div u1 v dp (by
    rw [mul_div_right_comm]
    refine rng_x H.x0 X1 ?_ ?_
    · rw [le_div_iff₀ dp]; norm_num at a0 ⊢; linarith
    · rw [div_le_iff₀ dp]; norm_num; linarith) (by norm_num) (by norm_num) (by norm_num) (by norm_num)
  rw [e]
  exact p.mono (by norm_num)

theorem guard_id {d : F64} (hd : d.isFin = true) (h : 1 / 10^4 ≤ d.val) : guardTiny d = d := by
  unfold guardTiny
  have f : (FPMIN : F64).val ≤ 1 / 10^5 := by
    have := val_le_of_sv (x := (FPMIN : F64)) 1 (10^5) (by norm_num) (by decide +kernel)
    push_cast at this; norm_num at this ⊢; exact this
  have : F64.lt (F64.abs d) FPMIN = false := by
    rw [lt_false_iff (by exact isFin_notNaN hd) (isFin_notNaN FPMIN_small.1), val_abs, abs_of_nonneg (by norm_num at h; linarith)]
    norm_num at h f ⊢; linarith
  rw [ar_lt, ar_abs, this, if_neg Bool.false_ne_true]

end Bcf
end Verif
