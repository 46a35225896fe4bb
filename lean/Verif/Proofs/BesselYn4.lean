import Verif.Proofs.BesselYn3

/-! Rounding errors in the upward recurrence for `Y_n` beyond the order `x`. -/

namespace Verif
namespace Bes
open Real

/-- `-Y_k/J_k` -/
noncomputable def qq (x : ℝ) (k : ℕ) : ℝ := -besselYR k x / besselJR k x
/-- `(πx/2) J_k J_{k+1}` -/
noncomputable def jj (x : ℝ) (k : ℕ) : ℝ := π * x / 2 * (besselJR k x * besselJR (k + 1) x)
/-- an increasing bound of `|qq|` from `K` on -/
noncomputable def QQb (x : ℝ) (K k : ℕ) : ℝ := qq x k + 2 * |qq x K|

section
variable {x : ℝ} {K : ℕ} (hx : 0 < x) (hK : x ≤ K + 1)
include hx hK

theorem J_pos2 {k : ℕ} (hk : K ≤ k) : 0 < besselJR k x := by
  have hk' : (K:ℝ) ≤ k := by exact_mod_cast hk
  have h := J_mono hx (j := k) (by linarith)
  exact lt_of_lt_of_le h.1 h.2

theorem J_dec2 {k : ℕ} (hk : K ≤ k) : besselJR (k + 1) x ≤ besselJR k x := by
  have hk' : (K:ℝ) ≤ k := by exact_mod_cast hk
  exact (J_mono hx (j := k) (by linarith)).2

theorem jj_pos {k : ℕ} (hk : K ≤ k) : 0 < jj x k := by
  have := J_pos2 hx hK hk
  have := J_pos2 hx hK (show K ≤ k + 1 by omega)
  unfold jj; positivity

theorem jj_dec {k : ℕ} (hk : K ≤ k) : jj x (k + 1) ≤ jj x k := by
  have h0 := J_pos2 hx hK hk
  have h1 := J_pos2 hx hK (show K ≤ k + 1 by omega)
  have d0 := J_dec2 hx hK hk
  have d1 := J_dec2 hx hK (show K ≤ k + 1 by omega)
  unfold jj
  refine mul_le_mul_of_nonneg_left ?_ (by positivity)
  rw [mul_comm (besselJR k x)]
  exact mul_le_mul_of_nonneg_left (d1.trans d0) h1.le

theorem qq_step {k : ℕ} (hk : K ≤ k) : (qq x (k + 1) - qq x k) * jj x k = 1 := by
  have h0 := J_pos2 hx hK hk
  have h1 := J_pos2 hx hK (show K ≤ k + 1 by omega)
  have c := cas_unit hx k
  unfold qq jj
  rw [div_sub_div _ _ h1.ne' h0.ne', div_mul_eq_mul_div, div_eq_iff (by positivity)]
  linear_combination (besselJR (k + 1) x * besselJR k x) * c

theorem qq_mono {k : ℕ} (hk : K ≤ k) : qq x k ≤ qq x (k + 1) := by
  have h := qq_step hx hK hk
  have j := jj_pos hx hK hk
  by_contra hc
  have : (qq x (k + 1) - qq x k) * jj x k < 0 := mul_neg_of_neg_of_pos (by linarith) j
  linarith

theorem qq_ge : ∀ {k : ℕ}, K ≤ k → qq x K ≤ qq x k := by
  intro k hk
  induction k, hk using Nat.le_induction with
  | base => exact le_rfl
  | succ k hk ih => exact ih.trans (qq_mono hx hK hk)

theorem QQb_abs {k : ℕ} (hk : K ≤ k) : |qq x k| ≤ QQb x K k := by
  have h := qq_ge hx hK hk
  have a := neg_abs_le (qq x K)
  have b := abs_nonneg (qq x K)
  unfold QQb
  rw [abs_le]
  constructor <;> linarith

theorem QQb_nonneg {k : ℕ} (hk : K ≤ k) : 0 ≤ QQb x K k := (abs_nonneg _).trans (QQb_abs hx hK hk)

theorem QQb_mono {k : ℕ} (hk : K ≤ k) : QQb x K k ≤ QQb x K (k + 1) := by
  have := qq_mono hx hK hk
  unfold QQb; linarith

theorem QQb_jj : ∀ m : ℕ, (1 + QQb x K (K + m)) * jj x (K + m) ≤ (1 + QQb x K K) * jj x K + m ∧
    (1 + QQb x K (K + m + 1)) * jj x (K + m) ≤ (1 + QQb x K K) * jj x K + m + 1 := by
  have nx : ∀ m : ℕ, (1 + QQb x K (K + m)) * jj x (K + m) ≤ (1 + QQb x K K) * jj x K + m →
      (1 + QQb x K (K + m + 1)) * jj x (K + m) ≤ (1 + QQb x K K) * jj x K + m + 1 := by
    intro m h
    have s := qq_step hx hK (show K ≤ K + m by omega)
    have e : (1 + QQb x K (K + m + 1)) * jj x (K + m) = (1 + QQb x K (K + m)) * jj x (K + m) + (qq x (K + m + 1) - qq x (K + m)) * jj x (K + m) := by
      unfold QQb; ring
    rw [e, s]; linarith
  intro m
  induction m with
  | zero => exact ⟨by simp, nx 0 (by simp)⟩
  | succ m ih =>
    have h : (1 + QQb x K (K + (m + 1))) * jj x (K + (m + 1)) ≤ (1 + QQb x K K) * jj x K + (m + 1 : ℕ) := by
      have q := QQb_nonneg hx hK (show K ≤ K + m + 1 by omega)
      have := mul_le_mul_of_nonneg_left (jj_dec hx hK (show K ≤ K + m by omega)) (by linarith : 0 ≤ 1 + QQb x K (K + m + 1))
      rw [show K + (m + 1) = K + m + 1 by ring]
      push_cast
      linarith [ih.2]
    exact ⟨h, nx (m + 1) h⟩

set_option maxHeartbeats 1000000 in
/-- orders beyond `x` -/
theorem phase2 {Ea Eb τ B Y D : ℝ} {f : ℕ → ℝ} {n : ℕ} (hf : RStep x f τ B n) (hD : (1 + QQb x K K) * jj x K ≤ D)
    (hY : ∀ j, j ≤ n → |besselYR j x| ≤ Y) (hB : 4 * (1 + Y + 2 * |qq x K|) ≤ B) (hτ : π * x / 2 * τ ≤ 0.2 / 2 ^ 53)
    (ha : |va x (fun i => f i - besselYR i x) K| ≤ Ea) (hb : |vb x (fun i => f i - besselYR i x) K| ≤ Eb)
    (hE : Ea ≤ 1 / 4) (hE' : Eb ≤ 1 / 4) (hn : 21 * n * (D + n) / 2 ^ 53 ≤ 1 / 4) :
    ∀ m : ℕ, K + m + 1 ≤ n → |va x (fun i => f i - besselYR i x) (K + m)| ≤ Ea + 21 * m * (D + m) / 2 ^ 53 * QQb x K (K + m) ∧
      |vb x (fun i => f i - besselYR i x) (K + m)| ≤ Eb + 21 * m * (D + m) / 2 ^ 53 := by
  have D0 : 0 ≤ D := le_trans (mul_nonneg (by linarith [QQb_nonneg hx hK le_rfl]) (jj_pos hx hK le_rfl).le) hD
  intro m
  induction m with
  | zero =>
    intro _
    constructor
    · simpa using ha
    · simpa using hb
  | succ m ih =>
    intro hmn
    obtain ⟨i1, i2⟩ := ih (by omega)
    obtain ⟨Q1, Q2⟩ := QQb_jj hx hK m
    obtain ⟨Q3, Q4⟩ := QQb_jj hx hK (m + 1)
    have hk0 : K ≤ K + m := by omega
    rw [show K + (m + 1) = K + m + 1 by ring] at *
    set k := K + m with hk
    set e : ℕ → ℝ := fun i => f i - besselYR i x with he
    set β := 21 * m * (D + m) / 2 ^ 53 with hβ
    have m0 : (0:ℝ) ≤ m := Nat.cast_nonneg m
    have β0 : 0 ≤ β := by rw [hβ]; positivity
    have mn : (m:ℝ) ≤ n := by exact_mod_cast (by omega : m ≤ n)
    have β1 : β ≤ 1 / 4 := by
      refine le_trans ?_ hn
      rw [hβ]; gcongr
    have q0 := QQb_nonneg hx hK hk0
    have q1 := QQb_nonneg hx hK (show K ≤ k + 1 by omega)
    have q2 := QQb_nonneg hx hK (show K ≤ k + 1 + 1 by omega)
    have qm0 := QQb_mono hx hK hk0
    have qm1 := QQb_mono hx hK (show K ≤ k + 1 by omega)
    have J0 := J_pos2 hx hK hk0
    have J1 := J_pos2 hx hK (show K ≤ k + 1 by omega)
    have J2 := J_pos2 hx hK (show K ≤ k + 1 + 1 by omega)
    have Yj : ∀ j, K ≤ j → |besselYR j x| ≤ QQb x K j * besselJR j x := by
      intro j hj
      have jp := J_pos2 hx hK hj
      have h := QQb_abs hx hK hj
      unfold qq at h
      rw [abs_div, abs_neg, abs_of_pos jp, div_le_iff₀ jp] at h
      exact h
    have Q0b : β * QQb x K k ≤ 1 / 4 * QQb x K k := mul_le_mul_of_nonneg_right β1 q0
    -- bounds of a combination `a J + (1 + b) Y`
    have comb : ∀ j, K ≤ j → QQb x K k ≤ QQb x K j → |va x e k| * besselJR j x + (1 + |vb x e k|) * |besselYR j x| ≤ 2 * ((1 + QQb x K j) * besselJR j x) := by
      intro j hj hq
      have jp := J_pos2 hx hK hj
      have y := Yj j hj
      have a1 : |va x e k| * besselJR j x ≤ (1 / 4 + 1 / 4 * QQb x K j) * besselJR j x := by
        refine mul_le_mul_of_nonneg_right ?_ jp.le
        linarith
      have a2 : (1 + |vb x e k|) * |besselYR j x| ≤ (3 / 2) * (QQb x K j * besselJR j x) :=
        mul_le_mul (by linarith) y (abs_nonneg _) (by norm_num)
      have : 0 ≤ QQb x K j * besselJR j x := le_trans (abs_nonneg _) y
      nlinarith
    have c0 := comb k hk0 le_rfl
    have c2 := comb (k + 2) (by omega) (by rw [show k + 2 = k + 1 + 1 by ring]; linarith)
    have c1 := comb (k + 1) (by omega) qm0
    have fj : ∀ j, K ≤ j → e j = va x e k * besselJR j x + vb x e k * besselYR j x → |f j| ≤ |va x e k| * besselJR j x + (1 + |vb x e k|) * |besselYR j x| := by
      intro j hj h
      have jp := J_pos2 hx hK hj
      have h1 : f j = va x e k * besselJR j x + (1 + vb x e k) * besselYR j x := by
        have : e j = f j - besselYR j x := rfl
        linarith
      rw [h1]
      refine le_trans (abs_add_le _ _) ?_
      rw [abs_mul, abs_mul, abs_of_pos jp]
      have : |1 + vb x e k| ≤ 1 + |vb x e k| := by
        have := abs_add_le 1 (vb x e k); rwa [abs_one] at this
      have := mul_le_mul_of_nonneg_right this (abs_nonneg (besselYR j x))
      linarith
    have f0 : |f k| ≤ 2 * ((1 + QQb x K k) * besselJR k x) := (fj k hk0 (v_fst hx e k)).trans c0
    have f1 : |f (k + 1)| ≤ 2 * ((1 + QQb x K (k + 1)) * besselJR (k + 1) x) := (fj (k + 1) (by omega) (v_snd hx e k)).trans c1
    have cf : |(k + 1 : ℕ) * (2 / x) * f (k + 1)| ≤ 2 * ((1 + QQb x K (k + 2)) * besselJR (k + 2) x) + 2 * ((1 + QQb x K k) * besselJR k x) := by
      have h1 : (k + 1 : ℕ) * (2 / x) * f (k + 1) = (va x e k * besselJR (k + 2) x + (1 + vb x e k) * besselYR (k + 2) x) +
          (va x e k * besselJR k x + (1 + vb x e k) * besselYR k x) := by
        have h := v_snd hx e k
        have h2 : e (k + 1) = f (k + 1) - besselYR (k + 1) x := rfl
        have h3 : f (k + 1) = va x e k * besselJR (k + 1) x + (1 + vb x e k) * besselYR (k + 1) x := by linarith
        rw [h3, J_rec k hx.ne', Y_rec k hx]; ring
      rw [h1]
      refine le_trans (abs_add_le _ _) (add_le_add (le_trans (abs_add_le _ _) (le_trans ?_ c2)) (le_trans (abs_add_le _ _) (le_trans ?_ c0)))
      · rw [abs_mul, abs_mul, abs_of_pos (show 0 < besselJR (k + 2) x from J2)]
        have : |1 + vb x e k| ≤ 1 + |vb x e k| := by
          have := abs_add_le 1 (vb x e k); rwa [abs_one] at this
        have := mul_le_mul_of_nonneg_right this (abs_nonneg (besselYR (k + 2) x))
        linarith
      · rw [abs_mul, abs_mul, abs_of_pos J0]
        have : |1 + vb x e k| ≤ 1 + |vb x e k| := by
          have := abs_add_le 1 (vb x e k); rwa [abs_one] at this
        have := mul_le_mul_of_nonneg_right this (abs_nonneg (besselYR k x))
        linarith
    -- magnitudes
    have mag : ∀ j, K ≤ j → j ≤ n → (1 + QQb x K j) * besselJR j x ≤ 1 + Y + 2 * |qq x K| := by
      intro j hj hjn
      have jp := J_pos2 hx hK hj
      have j1 : besselJR j x ≤ 1 := (le_abs_self _).trans (J_abs_le_one j x)
      have y := hY j hjn
      have e1 : (1 + QQb x K j) * besselJR j x = besselJR j x + -besselYR j x + 2 * |qq x K| * besselJR j x := by
        have : qq x j * besselJR j x = -besselYR j x := by unfold qq; exact div_mul_cancel₀ _ jp.ne'
        unfold QQb
        linear_combination this
      rw [e1]
      have := neg_le_abs (besselYR j x)
      have := mul_le_mul_of_nonneg_left j1 (by positivity : 0 ≤ 2 * |qq x K|)
      linarith
    have g0 := mag k hk0 (by omega)
    have g1 := mag (k + 1) (by omega) (by omega)
    have g2 := mag (k + 2) (by omega) (by omega)
    have hYn : 0 ≤ Y := le_trans (abs_nonneg _) (hY 0 (by omega))
    have hqn := abs_nonneg (qq x K)
    have hd := hf k (by omega) (by linarith) (by linarith) (by linarith)
    have hd' : |vd x e k| ≤ 10.4 / 2 ^ 53 * ((1 + QQb x K (k + 2)) * besselJR (k + 2) x + (1 + QQb x K k) * besselJR k x) + τ := by
      rw [he, vd_sub hx]
      refine hd.trans ?_
      have hp2 : 0 ≤ (1 + QQb x K (k + 2)) * besselJR (k + 2) x := mul_nonneg (by linarith [show 0 ≤ QQb x K (k + 2) from q2]) J2.le
      have hp0 : 0 ≤ (1 + QQb x K k) * besselJR k x := mul_nonneg (by linarith) J0.le
      refine add_le_add_left ?_ _
      rw [div_mul_eq_mul_div]
      refine div_le_div_of_nonneg_right ?_ (by positivity)
      linarith
    have inc : π * x / 2 * (|vd x e k| * besselJR (k + 1) x) ≤ 21 * (D + m + 1) / 2 ^ 53 := by
      have P : 0 < π * x / 2 := by positivity
      have j1 : besselJR (k + 1) x ≤ 1 := (le_abs_self _).trans (J_abs_le_one (k + 1) x)
      have h1 := mul_le_mul_of_nonneg_left (mul_le_mul_of_nonneg_right hd' J1.le) P.le
      have e1 : π * x / 2 * ((10.4 / 2 ^ 53 * ((1 + QQb x K (k + 2)) * besselJR (k + 2) x + (1 + QQb x K k) * besselJR k x) + τ) * besselJR (k + 1) x)
          = 10.4 / 2 ^ 53 * ((1 + QQb x K (k + 2)) * jj x (k + 1) + (1 + QQb x K k) * jj x k) + π * x / 2 * τ * besselJR (k + 1) x := by
        unfold jj; ring
      rw [e1] at h1
      have t : π * x / 2 * τ * besselJR (k + 1) x ≤ 0.2 / 2 ^ 53 := by
        refine (mul_le_mul_of_nonneg_right hτ J1.le).trans ?_
        exact mul_le_of_le_one_right (by positivity) j1
      push_cast at Q3 Q4
      have Q4' : (1 + QQb x K (k + 2)) * jj x (k + 1) ≤ D + (m + 1) + 1 := by
        have := Q4; rw [show k + 1 + 1 = k + 2 by ring] at this; linarith
      have s : 10.4 / 2 ^ 53 * ((1 + QQb x K (k + 2)) * jj x (k + 1) + (1 + QQb x K k) * jj x k) ≤ 10.4 / 2 ^ 53 * ((D + (m + 1) + 1) + (D + m)) := by
        refine mul_le_mul_of_nonneg_left ?_ (by positivity)
        linarith
      refine h1.trans ((add_le_add s t).trans ?_)
      have e2 : 10.4 / 2 ^ 53 * ((D + ((m:ℝ) + 1) + 1) + (D + m)) + 0.2 / 2 ^ 53 = (20.8 * (D + m + 1) + 0.2) / 2 ^ 53 := by ring
      rw [e2]
      refine div_le_div_of_nonneg_right ?_ (by positivity)
      linarith
    set Δ := π * x / 2 * (|vd x e k| * besselJR (k + 1) x) with hΔ
    have Δ0 : 0 ≤ Δ := by rw [hΔ]; positivity
    have sum : β + Δ ≤ 21 * (m + 1 : ℕ) * (D + (m + 1 : ℕ)) / 2 ^ 53 := by
      refine (add_le_add_right inc β).trans ?_
      rw [hβ, ← add_div]
      refine div_le_div_of_nonneg_right ?_ (by positivity)
      push_cast
      have e2 : 21 * ((m:ℝ) + 1) * (D + (m + 1)) = 21 * m * (D + m) + 21 * (D + m + 1) + 21 * m := by ring
      linarith only [e2, m0]
    constructor
    · rw [va_succ hx]
      refine (abs_add_le _ _).trans ?_
      have e1 : |π * x / 2 * (vd x e k * besselYR (k + 1) x)| ≤ Δ * QQb x K (k + 1) := by
        rw [abs_mul, abs_mul, abs_of_pos (by positivity : 0 < π * x / 2)]
        have := mul_le_mul_of_nonneg_left (mul_le_mul_of_nonneg_left (Yj (k + 1) (by omega)) (abs_nonneg (vd x e k))) (by positivity : 0 ≤ π * x / 2)
        refine this.trans (le_of_eq ?_)
        rw [hΔ]; ring
      have e2 : β * QQb x K k ≤ β * QQb x K (k + 1) := mul_le_mul_of_nonneg_left qm0 β0
      have e3 := mul_le_mul_of_nonneg_right sum q1
      rw [add_mul] at e3
      linarith
    · rw [vb_succ hx]
      refine (abs_sub _ _).trans ?_
      have e1 : |π * x / 2 * (vd x e k * besselJR (k + 1) x)| = Δ := by
        rw [abs_mul, abs_mul, abs_of_pos (by positivity : 0 < π * x / 2), abs_of_pos J1]
      rw [e1]
      linarith

/-- the error at order `n > K` -/
theorem phase2_err {Ea Eb β : ℝ} {e : ℕ → ℝ} {m : ℕ} (β0 : 0 ≤ β) (ha : |va x e (K + m)| ≤ Ea + β * QQb x K (K + m)) (hb : |vb x e (K + m)| ≤ Eb + β) :
    |e (K + m + 1)| ≤ (Eb + 2 * β) * |besselYR (K + m + 1) x| + (Ea + 2 * β * |qq x K|) * besselJR (K + m + 1) x := by
  have jp := J_pos2 hx hK (show K ≤ K + m + 1 by omega)
  have qm := QQb_mono hx hK (show K ≤ K + m by omega)
  rw [v_snd hx e (K + m)]
  refine (abs_add_le _ _).trans ?_
  rw [abs_mul, abs_mul, abs_of_pos jp]
  have h1 : |va x e (K + m)| * besselJR (K + m + 1) x ≤ (Ea + β * QQb x K (K + m + 1)) * besselJR (K + m + 1) x := by
    refine mul_le_mul_of_nonneg_right (ha.trans ?_) jp.le
    have := mul_le_mul_of_nonneg_left qm β0
    linarith
  have h2 : |vb x e (K + m)| * |besselYR (K + m + 1) x| ≤ (Eb + β) * |besselYR (K + m + 1) x| := mul_le_mul_of_nonneg_right hb (abs_nonneg _)
  have e1 : (Ea + β * QQb x K (K + m + 1)) * besselJR (K + m + 1) x = Ea * besselJR (K + m + 1) x + β * (-besselYR (K + m + 1) x) + 2 * β * |qq x K| * besselJR (K + m + 1) x := by
    unfold QQb
    rw [show qq x (K + m + 1) = -besselYR (K + m + 1) x / besselJR (K + m + 1) x from rfl]
    field_simp
    ring
  rw [e1] at h1
  have h3 := mul_le_mul_of_nonneg_left (neg_le_abs (besselYR (K + m + 1) x)) β0
  linarith

end

end Bes
end Verif
