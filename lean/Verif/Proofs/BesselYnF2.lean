import Verif.Proofs.BesselYnF
import Verif.Proofs.BesselYn2

/-! Amplitudes of `J_k`, `Y_k`, and the error of the whole upward recurrence for `Y_n`. -/

namespace Verif
namespace Bes
open Real

/-- solutions of the recurrence for orders up to `x` -/
theorem amp_le {x G : ℝ} {f : ℕ → ℝ} (hx : 0 < x) (hr : ∀ k, f (k + 2) = (k + 1 : ℕ) * (2 / x) * f (k + 1) - f k) (hG : 0 ≤ G)
    (h0 : f 0 ^ 2 + f 1 ^ 2 ≤ G ^ 2) : ∀ k : ℕ, (k:ℝ) ≤ x → |f k| ≤ (x + 1) / (x - k + 1) * G := by
  intro k hk
  have N : √(EQ x 0 (f 0) (f 1)) ≤ G := by
    rw [EQ_zero]; exact (Real.sqrt_le_sqrt h0).trans (by rw [Real.sqrt_sq hG])
  rcases Nat.eq_zero_or_pos k with rfl | h1
  · rw [Nat.cast_zero, sub_zero, div_self (by linarith), one_mul]
    exact abs_le_of_sq_le_sq (by nlinarith [sq_nonneg (f 1)]) hG
  · have h := up_error (e := f) hx h1 hk N le_rfl (fun j _ => by rw [hr j]; simp)
    simpa using h

theorem amp_le' {x G : ℝ} {k : ℕ} (hk : (k:ℝ) ≤ x) (hG : 0 ≤ G) : (x + 1) / (x - k + 1) * G ≤ (x + 1) * G := by
  have k0 : (0:ℝ) ≤ k := Nat.cast_nonneg k
  refine mul_le_mul_of_nonneg_right ?_ hG
  exact div_le_self (by linarith) (by linarith)

/-- `|Y_K|/J_K` at the turning point -/
theorem qK_le {x G g : ℝ} {K : ℕ} (hx : 0 < x) (hG : 0 ≤ G) (hg : x * G ^ 2 ≤ g) (h1 : 1 ≤ K) (hK : (K:ℝ) < x) (hK' : x ≤ K + 1)
    (hY : ∀ k : ℕ, (k:ℝ) ≤ x → |besselYR k x| ≤ (x + 1) / (x - k + 1) * G) : |qq x K| ≤ 4.72 * g * (x + 1) ^ 2 := by
  obtain ⟨L, rfl⟩ : ∃ L, K = L + 1 := ⟨K - 1, by omega⟩
  have jp := J_pos2 hx hK' le_rfl
  have jp2 := J_pos2 hx hK' (show L + 1 ≤ L + 1 + 1 by omega)
  have jd := J_dec2 hx hK' le_rfl
  have L0 : (0:ℝ) ≤ L := Nat.cast_nonneg L
  push_cast at hK hK'
  have Yk := (hY (L + 1) (by push_cast; linarith)).trans (amp_le' (by push_cast; linarith) hG)
  have Yl := (hY L (by linarith)).trans (amp_le' (by linarith) hG)
  set M := (x + 1) * G with hM
  have M0 : 0 ≤ M := by positivity
  have r := J_rec L hx.ne'
  push_cast at r
  set j := besselJR (L + 1) x with hj
  have c1 : (L + 1 : ℝ) * (2 / x) ≤ 2 := by
    rw [mul_div_assoc', div_le_iff₀ hx]; linarith
  have c2 : 1 ≤ (L + 1 : ℝ) * (2 / x) := by
    rw [mul_div_assoc', le_div_iff₀ hx]; linarith
  have e2 : besselJR (L + 1 + 1) x = besselJR (L + 2) x := rfl
  rw [e2] at jp2 jd
  have u1 : besselJR L x ≤ 2 * j := by nlinarith
  have u0 : 0 ≤ besselJR L x := by nlinarith
  have cu := cas_unit hx L
  have hp : π * x / 2 ≤ 1.5708 * x := by nlinarith [Real.pi_lt_d6]
  have b : j * besselYR L x - besselJR L x * besselYR (L + 1) x ≤ 3 * (j * M) := by
    have a1 := mul_le_mul_of_nonneg_left ((le_abs_self _).trans Yl) jp.le
    have a2 : -(besselJR L x * besselYR (L + 1) x) ≤ 2 * j * M := by
      calc -(besselJR L x * besselYR (L + 1) x) = besselJR L x * (-besselYR (L + 1) x) := by ring
        _ ≤ besselJR L x * |besselYR (L + 1) x| := mul_le_mul_of_nonneg_left (neg_le_abs _) u0
        _ ≤ 2 * j * M := mul_le_mul u1 Yk (abs_nonneg _) (by linarith)
    linarith
  have one : 1 ≤ 4.7124 * x * (j * M) := by
    have jm : 0 ≤ 3 * (j * M) := by positivity
    calc (1:ℝ) = π * x / 2 * (j * besselYR L x - besselJR L x * besselYR (L + 1) x) := cu.symm
      _ ≤ π * x / 2 * (3 * (j * M)) := mul_le_mul_of_nonneg_left b (by positivity)
      _ ≤ 1.5708 * x * (3 * (j * M)) := mul_le_mul_of_nonneg_right hp jm
      _ = _ := by ring
  unfold qq
  rw [abs_div, abs_neg, abs_of_pos jp, div_le_iff₀ jp]
  have gx : x * M ^ 2 ≤ g * (x + 1) ^ 2 := by
    rw [hM, mul_pow]
    have := mul_le_mul_of_nonneg_right hg (sq_nonneg (x + 1))
    linarith
  calc |besselYR (L + 1) x| ≤ M := Yk
    _ ≤ M * (4.7124 * x * (j * M)) := le_mul_of_one_le_right M0 one
    _ = 4.7124 * (x * M ^ 2) * j := by ring
    _ ≤ 4.7124 * (g * (x + 1) ^ 2) * j := by gcongr
    _ ≤ _ := by
      have g0 : 0 ≤ g * (x + 1) ^ 2 := le_trans (by positivity) gx
      refine mul_le_mul_of_nonneg_right ?_ jp.le
      linarith

theorem D_le {x M : ℝ} {K : ℕ} (hx : 0 < x) (hK' : x ≤ K + 1) (hJ : besselJR K x + 3 * |besselYR K x| ≤ M) (j1 : besselJR (K + 1) x ≤ 1) :
    (1 + QQb x K K) * jj x K ≤ 1.571 * x * M := by
  have jp := J_pos2 hx hK' le_rfl
  have jp2 := J_pos2 hx hK' (show K ≤ K + 1 by omega)
  have hp : π * x / 2 ≤ 1.571 * x := by nlinarith [Real.pi_lt_d6]
  have q : QQb x K K ≤ 3 * |qq x K| := by unfold QQb; linarith [le_abs_self (qq x K)]
  have e : |qq x K| * besselJR K x = |besselYR K x| := by
    unfold qq; rw [abs_div, abs_neg, abs_of_pos jp]; field_simp
  have s : (1 + QQb x K K) * besselJR K x ≤ M := by
    have := mul_le_mul_of_nonneg_right q jp.le
    nlinarith
  have s0 : 0 ≤ (1 + QQb x K K) * besselJR K x := mul_nonneg (by linarith [QQb_nonneg hx hK' le_rfl]) jp.le
  calc (1 + QQb x K K) * jj x K = π * x / 2 * (((1 + QQb x K K) * besselJR K x) * besselJR (K + 1) x) := by unfold jj; ring
    _ ≤ 1.571 * x * (((1 + QQb x K K) * besselJR K x) * besselJR (K + 1) x) := mul_le_mul_of_nonneg_right hp (by positivity)
    _ ≤ 1.571 * x * (M * 1) := by
      refine mul_le_mul_of_nonneg_left ?_ (by positivity)
      exact mul_le_mul s j1 jp2.le (s0.trans s)
    _ = _ := by ring

theorem two_le_B {a : ℝ} (h : a ≤ 2 ^ 1005) : a ≤ 2 ^ 1010 := h.trans (pow_le_pow_right₀ (by norm_num) (by norm_num))

theorem tau_le : (1:ℝ) / 2 ^ 1073 ≤ 1 / 2 ^ 200 := by
  apply one_div_le_one_div_of_le (by positivity)
  exact pow_le_pow_right₀ (by norm_num) (by norm_num)

/-- orders up to `x+1` -/
theorem yn_up {x G g E : ℝ} {f : ℕ → ℝ} {n : ℕ} (hx : 0 < x) (hf : RStep x f (1 / 2 ^ 1073) (2 ^ 1010) n)
    (hJ : besselJR 0 x ^ 2 + besselJR 1 x ^ 2 ≤ G ^ 2) (hY : besselYR 0 x ^ 2 + besselYR 1 x ^ 2 ≤ G ^ 2) (hG : 1 / 2 ^ 20 ≤ G)
    (hg : x * G ^ 2 ≤ g) (hB : (x + 1) * G ≤ 2 ^ 1000)
    (ha : |va x (fun i => f i - besselYR i x) 0| ≤ E) (hb : |vb x (fun i => f i - besselYR i x) 0| ≤ E)
    (hE : E + 59 * g * (x + 1) ^ 2 / 2 ^ 53 ≤ 1 / 2) {k : ℕ} (hk : k + 1 ≤ n) (hkx : (k:ℝ) ≤ x) :
    |va x (fun i => f i - besselYR i x) k| ≤ E + 59 * g * (x + 1) ^ 2 / 2 ^ 53 ∧
      |vb x (fun i => f i - besselYR i x) k| ≤ E + 59 * g * (x + 1) ^ 2 / 2 ^ 53 := by
  have G0 : 0 < G := lt_of_lt_of_le (by positivity) hG
  have g0 : 0 ≤ g := le_trans (by positivity) hg
  have h := phase1 hx hf (amp_le hx (fun k => J_rec k hx.ne') G0.le hJ) (amp_le hx (fun k => Y_rec k hx) G0.le hY) G0
    (tau_le.trans (by
      have := mul_le_mul_of_nonneg_left hG (by positivity : (0:ℝ) ≤ 0.1 / 2 ^ 53)
      refine le_trans ?_ this
      norm_num)) hg
    (by
      have e : (2:ℝ) ^ 1010 = 2 ^ 10 * 2 ^ 1000 := by rw [← pow_add]
      have p : (0:ℝ) < 2 ^ 1000 := by positivity
      rw [e]
      generalize (2:ℝ) ^ 1000 = w at *
      linarith only [hB, p]) ha hb hE k hk hkx
  have key : 29.5 * g * (x + 1) ^ 2 / 2 ^ 53 / (x - k + 1 / 2) ≤ 59 * g * (x + 1) ^ 2 / 2 ^ 53 := by
    have t : 0 ≤ 29.5 * g * (x + 1) ^ 2 / 2 ^ 53 := by positivity
    calc 29.5 * g * (x + 1) ^ 2 / 2 ^ 53 / (x - k + 1 / 2) ≤ 29.5 * g * (x + 1) ^ 2 / 2 ^ 53 / (1 / 2) :=
          div_le_div_of_nonneg_left t (by norm_num) (by linarith)
      _ = _ := by ring
  exact ⟨h.1.trans (by linarith), h.2.trans (by linarith)⟩

theorem yn_up_err {x E' : ℝ} {e : ℕ → ℝ} {k : ℕ} (hx : 0 < x) (ha : |va x e k| ≤ E') (hb : |vb x e k| ≤ E') :
    |e (k + 1)| ≤ E' * (|besselYR (k + 1) x| + |besselJR (k + 1) x|) := by
  rw [v_snd hx e k]
  refine (abs_add_le _ _).trans ?_
  rw [abs_mul, abs_mul]
  have := mul_le_mul_of_nonneg_right ha (abs_nonneg (besselJR (k + 1) x))
  have := mul_le_mul_of_nonneg_right hb (abs_nonneg (besselYR (k + 1) x))
  linarith

/-- orders above `x`, from the turning point on -/
theorem yn_dn {x Ea Eb D Q : ℝ} {f : ℕ → ℝ} {n K : ℕ} (hx : 0 < x) (hK : x ≤ K + 1) (hn : K + 1 ≤ n) (hf : RStep x f (1 / 2 ^ 1073) (2 ^ 1010) n)
    (hD : (1 + QQb x K K) * jj x K ≤ D) (hY : ∀ j, j ≤ n → |besselYR j x| ≤ 2 ^ 1000) (hQ : |qq x K| ≤ Q) (hQ' : Q ≤ 2 ^ 1000) (hu : x ≤ 2 ^ 100)
    (ha : |va x (fun i => f i - besselYR i x) K| ≤ Ea) (hb : |vb x (fun i => f i - besselYR i x) K| ≤ Eb)
    (hE : Ea ≤ 1 / 4) (hE' : Eb ≤ 1 / 4) (hβ : 21 * n * (D + n) / 2 ^ 53 ≤ 1 / 4) :
    |f n - besselYR n x| ≤ (Eb + 2 * (21 * n * (D + n) / 2 ^ 53)) * |besselYR n x| + (Ea + 2 * (21 * n * (D + n) / 2 ^ 53) * Q) * besselJR n x := by
  have D0 : 0 ≤ D := le_trans (mul_nonneg (by linarith [QQb_nonneg hx hK le_rfl]) (jj_pos hx hK le_rfl).le) hD
  obtain ⟨m, rfl⟩ : ∃ m, n = K + m + 1 := ⟨n - K - 1, by omega⟩
  have h := phase2 hx hK hf hD hY
    (by
      have e : (2:ℝ) ^ 1010 = 2 ^ 10 * 2 ^ 1000 := by rw [← pow_add]
      have p : (1:ℝ) ≤ 2 ^ 1000 := one_le_pow₀ (by norm_num)
      rw [e]
      generalize (2:ℝ) ^ 1000 = w at *
      linarith only [hQ, hQ', p])
    (by
      have hp : π / 2 ≤ 2 := by linarith [Real.pi_lt_d6]
      calc π * x / 2 * (1 / 2 ^ 1073) = π / 2 * x * (1 / 2 ^ 1073) := by ring
        _ ≤ 2 * 2 ^ 100 * (1 / 2 ^ 200) := by
          have := tau_le
          gcongr
        _ ≤ _ := by norm_num) ha hb hE hE' hβ m le_rfl
  have jp := J_pos2 hx hK (show K ≤ K + m + 1 by omega)
  have mm : (m:ℝ) ≤ ((K + m + 1 : ℕ) : ℝ) := by exact_mod_cast (by omega)
  have m0 : (0:ℝ) ≤ m := Nat.cast_nonneg m
  set N := ((K + m + 1 : ℕ) : ℝ) with hN
  have β1 : 21 * m * (D + m) / 2 ^ 53 ≤ 21 * N * (D + N) / 2 ^ 53 := by gcongr
  have β0 : 0 ≤ 21 * m * (D + m) / 2 ^ 53 := by positivity
  have r := phase2_err hx hK (e := fun i => f i - besselYR i x) β0 h.1 h.2
  refine r.trans ?_
  have q0 := abs_nonneg (qq x K)
  gcongr

end Bes
end Verif
