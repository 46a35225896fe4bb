import Verif.Proofs.InvErfc2
import Verif.Proofs.ErfcReal

/-! `inverfc` in exact arithmetic. -/

namespace Verif
namespace InvErfc

/-- One step with a computed difference `e` and a computed denominator `D`. -/
theorem step_gen {x xs X h e D ε δ : ℝ} (hx : |x| ≤ X) (hd : |xs - x| ≤ h) (hXh : X * h ≤ 0.07) (hh : h ≤ 0.004) (hX : X ≤ 28)
    (hε : ε ≤ 1 / 10^5) (hδ : δ ≤ 1 / 10^5)
    (he : |e - (erfcR x - erfcR xs)| ≤ ε * (kap * Real.exp (-x^2))) (hD : |D - (kap * Real.exp (-x^2) - x * e)| ≤ δ * (kap * Real.exp (-x^2))) :
    0.9 * (kap * Real.exp (-x^2)) ≤ D ∧ |e| ≤ (1.1 * h + ε) * (kap * Real.exp (-x^2)) ∧ |x + e / D - xs| ≤ (2 * X^2 + 1) * h^3 + 1.2 * ε + 1.1 * δ * h := by
  set m : ℝ := kap * Real.exp (-x^2) with hm
  have hm0 : 0 < m := mul_pos kap_pos (Real.exp_pos _)
  have hQ : QQ x (xs - x) = (erfcR x - erfcR xs) / m := by
    unfold QQ
    rw [show x + (xs - x) = xs by ring, hm, Real.exp_neg]
    have := (Real.exp_pos (x^2)).ne'
    have := kap_pos.ne'
    field_simp
  set n : ℝ := (e - (erfcR x - erfcR xs)) / m with hn
  set θ : ℝ := (D - (m - x * e)) / m with hθ
  have hn1 : |n| ≤ ε := by rw [hn, abs_div, abs_of_pos hm0, div_le_iff₀ hm0]; exact he
  have hθ1 : |θ| ≤ δ := by rw [hθ, abs_div, abs_of_pos hm0, div_le_iff₀ hm0]; exact hD
  obtain ⟨k1, k2, k3⟩ := halley hx hd hXh hh hX (hn1.trans hε) (hθ1.trans hδ)
  have e1 : QQ x (xs - x) + n = e / m := by rw [hQ, hn]; field_simp; ring
  have e2 : 1 + θ - x * (e / m) = D / m := by rw [hθ]; field_simp; ring
  rw [e1] at k1 k2 k3
  rw [e2] at k1 k3
  have hD0 : 0.9 * m ≤ D := by rwa [le_div_iff₀ hm0] at k1
  have hDp : 0 < D := lt_of_lt_of_le (by positivity) hD0
  refine ⟨hD0, ?_, ?_⟩
  · rw [abs_div, abs_of_pos hm0, div_le_iff₀ hm0] at k2
    exact k2.trans (mul_le_mul_of_nonneg_right (by linarith) hm0.le)
  · rw [div_div_div_cancel_right₀ hm0.ne'] at k3
    rw [show x + e / D - xs = e / D - (xs - x) by ring]
    have hh0 : 0 ≤ h := (abs_nonneg _).trans hd
    have := mul_le_mul_of_nonneg_right hθ1 hh0
    refine k3.trans ?_
    nlinarith

/-- `p = 2 e^(-s²)` -/
theorem p_of_s {p : ℝ} (h0 : 0 < p) (h1 : p ≤ 1) : 2 * Real.exp (-(Real.sqrt (-Real.log (p / 2)))^2) = p := by
  have : Real.log (p / 2) ≤ 0 := Real.log_nonpos (by positivity) (by linarith)
  rw [Real.sq_sqrt (by linarith), neg_neg, Real.exp_log (by positivity)]
  ring

theorem s_low {p : ℝ} (h0 : 0 < p) (h1 : p ≤ 1) : 0.83251 ≤ Real.sqrt (-Real.log (p / 2)) := by
  refine Real.le_sqrt_of_sq_le ?_
  have h : Real.log (p / 2) ≤ Real.log (1 / 2) := Real.log_le_log (by positivity) (by linarith)
  rw [one_div, Real.log_inv] at h
  have := Real.log_two_gt_d9
  norm_num at this ⊢
  linarith

theorem s_high {p : ℝ} (h0 : 1 / 10^300 ≤ p) : Real.sqrt (-Real.log (p / 2)) ≤ 26.5 := by
  refine Real.sqrt_le_iff.2 ⟨by norm_num, ?_⟩
  have hp : 0 < p := lt_of_lt_of_le (by positivity) h0
  have h : Real.log (1 / 10^300) ≤ Real.log p := Real.log_le_log (by positivity) h0
  rw [one_div, Real.log_inv, Real.log_pow] at h
  rw [Real.log_div hp.ne' two_ne_zero]
  have h2 := Real.log_two_lt_d9
  have h10 : Real.log 10 ≤ 2.3027 := by
    have e : Real.log 10 = Real.log 2 + Real.log 5 := by rw [← Real.log_mul (by norm_num) (by norm_num)]; norm_num
    have h5 : Real.log 5 ≤ 1.6095 := by
      rw [Real.log_le_iff_le_exp (by norm_num)]
      have hh := Real.sum_le_exp_of_nonneg (x := 1.6095) (by norm_num) 14
      refine le_trans ?_ hh
      norm_num [Finset.sum_range_succ, Nat.factorial]
    norm_num at h2 h5 ⊢
    linarith
  push_cast at h
  norm_num at h2 h10 ⊢
  linarith

/-- the starting value lies within the first tier or the second -/
theorem start {p xs : ℝ} (h0 : 1 / 10^300 ≤ p) (h1 : p ≤ 1) (hx : erfcR xs = p) :
    (-0.004 ≤ Real.sqrt (-Real.log (p / 2)) - rho (Real.sqrt (-Real.log (p / 2)))) ∧
    ((|Real.sqrt (-Real.log (p / 2)) - rho (Real.sqrt (-Real.log (p / 2)))| ≤ 8 ∧ |xs - (Real.sqrt (-Real.log (p / 2)) - rho (Real.sqrt (-Real.log (p / 2))))| ≤ 0.0029994) ∨ (|Real.sqrt (-Real.log (p / 2)) - rho (Real.sqrt (-Real.log (p / 2)))| ≤ 26.5 ∧ |xs - (Real.sqrt (-Real.log (p / 2)) - rho (Real.sqrt (-Real.log (p / 2))))| ≤ 0.0023461)) := by
  set s := Real.sqrt (-Real.log (p / 2)) with hs_def
  have hp : 0 < p := lt_of_lt_of_le (by positivity) h0
  have hl : 0.83251 ≤ s := s_low hp h1
  have hu : s ≤ 26.5 := s_high h0
  have he : 2 * Real.exp (-s^2) = p := p_of_s hp h1
  have hrho : 0 ≤ rho s := by
    have : 0 ≤ s := le_trans (by norm_num) hl
    unfold rho
    positivity
  have hxs : 0 ≤ xs := by
    by_contra hc
    have := erfcR_anti (not_le.1 hc)
    rw [erfcR_zero, hx] at this
    linarith
  have fin : ∀ (H : ℕ), Near H s → |xs - (s - rho s)| ≤ H / 2^20 := by
    intro H hN
    obtain ⟨a, b⟩ := hN
    have b := b (by rw [he]; exact h1)
    rw [he, ← hx] at a b
    have a' := erfcR_anti.le_iff_ge.1 a
    have b' := erfcR_anti.le_iff_ge.1 b
    rw [abs_le]
    constructor <;> linarith
  have pos : ∀ {c X : ℝ}, |xs - (s - rho s)| ≤ c → c ≤ X → s ≤ X → |s - rho s| ≤ X ∧ -c ≤ s - rho s := by
    intro c X h1 h2 h3
    have k := abs_le.1 h1
    rw [abs_le]
    refine ⟨⟨?_, ?_⟩, ?_⟩ <;> linarith [k.1, k.2]
  rcases le_or_gt s 8 with h8 | h8
  · have f := (fin 3145 (near1 hl h8)).trans (show ((3145:ℕ):ℝ) / 2^20 ≤ 0.0029994 by norm_num)
    have q := pos f (X := 8) (by norm_num) h8
    exact ⟨by have := q.2; norm_num at this ⊢; linarith, .inl ⟨q.1, f⟩⟩
  · have f := (fin 2460 (near2 h8.le (by norm_num at hu ⊢; linarith))).trans (show ((2460:ℕ):ℝ) / 2^20 ≤ 0.0023461 by norm_num)
    have q := pos f (X := 26.5) (by norm_num) hu
    exact ⟨by have := q.2; norm_num at this ⊢; linarith, .inr ⟨q.1, f⟩⟩

/-- the code's formula for the starting value -/
theorem start_eq {p : ℝ} (h0 : 0 < p) (h1 : p ≤ 1) :
    -(1 / Real.sqrt 2) * ((2.30753 + Real.sqrt (-2.0 * Real.log (p / 2.0)) * 0.27061) /
      (1.0 + Real.sqrt (-2.0 * Real.log (p / 2.0)) * (0.99229 + Real.sqrt (-2.0 * Real.log (p / 2.0)) * 0.04481)) - Real.sqrt (-2.0 * Real.log (p / 2.0))) =
    Real.sqrt (-Real.log (p / 2)) - rho (Real.sqrt (-Real.log (p / 2))) := by
  have hl : 0 ≤ -Real.log (p / 2) := by
    have : Real.log (p / 2) ≤ 0 := Real.log_nonpos (by positivity) (by linarith)
    linarith
  have e : Real.sqrt (-2.0 * Real.log (p / 2.0)) = Real.sqrt 2 * Real.sqrt (-Real.log (p / 2)) := by
    rw [← Real.sqrt_mul two_pos.le]
    congr 1
    norm_num
  rw [e]
  have hs0 := Real.sqrt_nonneg (-Real.log (p / 2))
  generalize Real.sqrt (-Real.log (p / 2)) = s at *
  have h2 : (0:ℝ) < Real.sqrt 2 := Real.sqrt_pos.2 two_pos
  have h22 : Real.sqrt 2 ^ 2 = 2 := Real.sq_sqrt two_pos.le
  unfold rho
  generalize Real.sqrt 2 = c at *
  have hd : 1.0 + c * s * (0.99229 + c * s * 0.04481) = 1 + 0.99229 * c * s + 0.08962 * s^2 := by
    have : c * s * (c * s) = 2 * s^2 := by rw [← h22]; ring
    norm_num at this ⊢
    linarith
  rw [hd]
  have hdp : 0 < 1 + 0.99229 * c * s + 0.08962 * s^2 := by positivity
  generalize 1 + 0.99229 * c * s + 0.08962 * s^2 = d at *
  field_simp
  ring

/-- accuracy of `erfc` in exact arithmetic, slightly to the left of 0 too -/
theorem erfc_exact_neg {x : ℝ} : ∃ v, erfc x = .ok v ∧ |v - erfcR x| ≤ 6 / 10^14 * erfcR x := by
  rcases le_or_gt 0 x with h | h
  · exact ⟨_, erfc_real h, erfc_exact_acc h⟩
  · have h1 : erfccheb (-x) = .ok (Real.exp (-(-x)^2) * eG0 (-x)) := by
      have h2 := erfc_real (z := -x) (by linarith)
      have hle : (0.0 : ℝ) ≤ -x := by norm_num; linarith
      unfold erfc at h2
      exact ((if_pos (show ((0.0:ℝ) ≤ᶠ -x) = true from decide_eq_true hle)).symm.trans h2 :)
    refine ⟨2.0 - Real.exp (-(-x)^2) * eG0 (-x), ?_, ?_⟩
    · unfold erfc
      rw [if_neg (by rw [show ((0.0:ℝ) ≤ᶠ x) = decide ((0.0:ℝ) ≤ x) from rfl, decide_eq_true_eq]; norm_num; exact h), h1]
      rfl
    · have ha := erfc_exact_acc (z := -x) (by linarith)
      have hn := erfcR_neg (-x)
      rw [neg_neg] at hn
      have h2 : erfcR (-x) ≤ erfcR x := erfcR_anti.antitone (by linarith)
      rw [hn] at *
      rw [show (2.0:ℝ) = 2 by norm_num, show 2 - Real.exp (-(-x)^2) * eG0 (-x) - (2 - erfcR (-x)) = -(Real.exp (-(-x)^2) * eG0 (-x) - erfcR (-x)) by ring, abs_neg]
      exact ha.trans (mul_le_mul_of_nonneg_left h2 (by norm_num))

/-- `erfc` against the scale of its derivative -/
theorem erfcR_scale {x : ℝ} (h : -0.005 ≤ x) : erfcR x ≤ 2 * (kap * Real.exp (-x^2)) := by
  rw [erfcR_of_x]
  have h1 : erfcxR x ≤ erfcxR (-0.005) := erfcxR_anti h
  have h2 : erfcxR (-0.005) ≤ 2 * kap := by
    unfold erfcxR
    have hn := erfcR_neg (0.005)
    have hp := erfcR_pos 0.005
    have he : Real.exp ((-0.005:ℝ)^2) ≤ 1.001 := by
      have := Real.exp_bound_div_one_sub_of_interval (x := (-0.005:ℝ)^2) (by norm_num) (by norm_num)
      refine this.trans (by norm_num)
    have hk := kap_bounds.1
    have := mul_le_mul he (show erfcR (-0.005) ≤ 2 by linarith) (erfcR_pos _).le (by norm_num)
    norm_num at this hk ⊢
    linarith
  have := mul_le_mul_of_nonneg_left (h1.trans h2) (Real.exp_pos (-x^2)).le
  linarith

/-- one step of the code -/
theorem step_real {x xs X h : ℝ} (hx : |x| ≤ X) (hd : |xs - x| ≤ h) (hXh : X * h ≤ 0.07) (hh : h ≤ 0.004) (hX : X ≤ 28) (h0 : -0.005 ≤ x) :
    ∃ x', inverfcStep (erfcR xs) x = .ok x' ∧ |x' - xs| ≤ (2 * X^2 + 1) * h^3 + 2 / 10^13 := by
  obtain ⟨v, e, hv⟩ := erfc_exact_neg (x := x)
  refine ⟨x + (v - erfcR xs) / (kap * Real.exp (-x^2) - x * (v - erfcR xs)), ?_, ?_⟩
  · unfold inverfcStep
    rw [e]
    show Except.ok _ = _
    congr 3
    rw [sq]
    rfl
  · have hs := erfcR_scale h0
    have hm : 0 < kap * Real.exp (-x^2) := mul_pos kap_pos (Real.exp_pos _)
    have he : |v - erfcR xs - (erfcR x - erfcR xs)| ≤ 12 / 10^14 * (kap * Real.exp (-x^2)) := by
      rw [show v - erfcR xs - (erfcR x - erfcR xs) = v - erfcR x by ring]
      refine hv.trans ?_
      linarith
    obtain ⟨-, -, k⟩ := step_gen (D := kap * Real.exp (-x^2) - x * (v - erfcR xs)) (δ := 0) hx hd hXh hh hX (by norm_num) (by norm_num) he (by simp)
    refine k.trans ?_
    norm_num

/-- the two steps -/
theorem core_real {p xs : ℝ} (h0 : 1 / 10^300 ≤ p) (h1 : p ≤ 1) (hx : erfcR xs = p) : ∃ v, inverfcCore p = .ok v ∧ |v - xs| ≤ 2 / 10^11 := by
  have hp : 0 < p := lt_of_lt_of_le (by positivity) h0
  obtain ⟨hlow, hst⟩ := start h0 h1 hx
  have hxs : 0 ≤ xs := by
    by_contra hc
    have := erfcR_anti (not_le.1 hc)
    rw [erfcR_zero, hx] at this
    linarith
  have hse := start_eq hp h1
  generalize Real.sqrt (-Real.log (p / 2)) - rho (Real.sqrt (-Real.log (p / 2))) = x0 at *
  have first : ∃ x1, inverfcStep p x0 = .ok x1 ∧ |x1 - xs| ≤ 2 / 10^5 := by
    rcases hst with ⟨a, b⟩ | ⟨a, b⟩
    · obtain ⟨x1, e, k⟩ := step_real a b (by norm_num) (by norm_num) (by norm_num) (by norm_num at hlow ⊢; linarith)
      rw [hx] at e
      exact ⟨x1, e, k.trans (by norm_num)⟩
    · obtain ⟨x1, e, k⟩ := step_real a b (by norm_num) (by norm_num) (by norm_num) (by norm_num at hlow ⊢; linarith)
      rw [hx] at e
      exact ⟨x1, e, k.trans (by norm_num)⟩
  have hx26 : xs ≤ 26.51 := by
    rcases hst with ⟨a, b⟩ | ⟨a, b⟩ <;> · have := abs_le.1 a; have := abs_le.1 b; norm_num at *; linarith
  obtain ⟨x1, e1, k1⟩ := first
  have k1' := abs_le.1 k1
  obtain ⟨x2, e2, k2⟩ := step_real (x := x1) (xs := xs) (X := 26.52) (h := 2 / 10^5) (by rw [abs_le]; norm_num at *; constructor <;> linarith)
    (by rw [abs_sub_comm]; exact k1) (by norm_num) (by norm_num) (by norm_num) (by norm_num at *; linarith)
  rw [hx] at e2
  refine ⟨x2, ?_, k2.trans (by norm_num)⟩
  unfold inverfcCore
  show (inverfcStep p (-(1 / Real.sqrt 2) * _) >>= _) = _
  have : (Arith.sqrt (-2.0 * Libm.ln (p / 2.0)) : ℝ) = Real.sqrt (-2.0 * Real.log (p / 2.0)) := rfl
  rw [this, hse, e1]
  exact e2

end InvErfc
end Verif
