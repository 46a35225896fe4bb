import Verif.Proofs.BesselIn
import Verif.Proofs.BesselI2

/-! The modified Bessel functions decrease with the order; the start order of `In` is too low for large arguments. -/

namespace Verif
namespace Bes
open ZPoly Real

theorem I_deriv (n : ℕ) {x : ℝ} (hx : x ≠ 0) : HasDerivAt (besselIR n) (n / x * besselIR n x + besselIR (n + 1) x) x := by
  have e : besselIR n = fun x => (x / 2) ^ n * SB n (x ^ 2 / 4) := by funext y; rw [besselIR_eq]
  have hi : HasDerivAt (fun x : ℝ => x ^ 2 / 4) (x / 2) x := by
    have h := (hasDerivAt_pow 2 x).div_const 4
    exact h.congr_deriv (by push_cast; ring)
  have h1 : HasDerivAt (fun x : ℝ => (x / 2) ^ n) (n / x * (x / 2) ^ n) x := by
    have h := ((hasDerivAt_id x).div_const 2).pow n
    refine h.congr_deriv ?_
    cases n with
    | zero => simp
    | succ n => simp only [Nat.add_sub_cancel, id]; rw [pow_succ]; field_simp
  have h := h1.mul ((sb_deriv n (x ^ 2 / 4)).comp x hi)
  rw [e, besselIR_eq (n + 1)]
  refine h.congr_deriv ?_
  simp only [Function.comp]
  rw [pow_succ]; ring

theorem I_cont (n : ℕ) : Continuous (besselIR n) := by
  have e : besselIR n = fun x => (x / 2) ^ n * SB n (x ^ 2 / 4) := by funext y; rw [besselIR_eq]
  have hs : Continuous (SB n) := continuous_iff_continuousAt.2 fun y => (sb_deriv n y).continuousAt
  rw [e]
  fun_prop

/-- `I_{n+1}' = I_n - (n+1)/x I_{n+1}` -/
theorem I_deriv' (n : ℕ) {x : ℝ} (hx : 0 < x) : HasDerivAt (besselIR (n + 1)) (besselIR n x - (n + 1) / x * besselIR (n + 1) x) x := by
  refine (I_deriv (n + 1) hx.ne').congr_deriv ?_
  have := I_rec n hx
  rw [this]; push_cast; field_simp; ring

/-- the order lowers the value -/
theorem I_anti (n : ℕ) {x : ℝ} (hx : 0 ≤ x) : besselIR (n + 1) x ≤ besselIR n x := by
  have hm : MonotoneOn (fun x => rexp x * (besselIR n x - besselIR (n + 1) x)) (Set.Ici 0) := by
    have hd : ∀ y, 0 < y → HasDerivAt (fun x => rexp x * (besselIR n x - besselIR (n + 1) x))
        (rexp y * (n / y * besselIR n y + (n + 1) / y * besselIR (n + 1) y)) y := by
      intro y hy
      refine ((Real.hasDerivAt_exp y).mul ((I_deriv n hy.ne').sub (I_deriv' n hy))).congr_deriv ?_
      simp only [Pi.sub_apply]; ring
    refine monotoneOn_of_deriv_nonneg (convex_Ici 0) ?_ ?_ ?_
    · exact (Real.continuous_exp.mul ((I_cont n).sub (I_cont (n + 1)))).continuousOn
    · intro y hy
      rw [interior_Ici] at hy
      exact (hd y hy).differentiableAt.differentiableWithinAt
    · intro y hy
      rw [interior_Ici] at hy
      have hy' : (0:ℝ) < y := hy
      rw [(hd y hy).deriv]
      have := I_pos n hy'
      have := I_pos (n + 1) hy'
      positivity
  have h := hm (Set.mem_Ici.2 le_rfl) (Set.mem_Ici.2 hx) hx
  simp only at h
  have z : besselIR (n + 1) 0 = 0 := by rw [besselIR_eq]; simp
  have z0 : 0 ≤ besselIR n 0 := by
    rw [besselIR_eq]
    have := SB_pos n (le_refl (0:ℝ))
    have e : (0:ℝ) ^ 2 / 4 = 0 := by norm_num
    rw [e]; positivity
  rw [z, sub_zero] at h
  have h2 : 0 ≤ rexp x * (besselIR n x - besselIR (n + 1) x) := le_trans (by positivity) h
  have := nonneg_of_mul_nonneg_right h2 (Real.exp_pos x)
  linarith

/-- the sequence of the downward recurrence of order 3, as polynomials in `690/x`, scaled by powers of 345: entries `53-k`, `54-k` -/
def dz : ℕ → List ℤ × List ℤ
  | 0 => ([1], [])
  | k + 1 => let q := dz k; (add (0 :: smul (53 - k : ℕ) q.1) (smul 119025 q.2), q.1)

theorem dz_ev {x : ℝ} (hx : 0 < x) {b : ℕ → ℝ} (hb : Downward (-1) x 53 b) : ∀ k, k ≤ 53 →
    ev (dz k).1 (690 / x) = 345 ^ k * b (53 - k) ∧ 345 * ev (dz k).2 (690 / x) = 345 ^ k * b (54 - k)
  | 0, _ => by
    refine ⟨?_, ?_⟩
    · rw [show 53 - 0 = 53 from rfl, hb.start]; simp [dz, ev]
    · rw [show 54 - 0 = 53 + 1 from rfl, hb.top]; simp [dz, ev]
  | k + 1, hk => by
    obtain ⟨h1, h2⟩ := dz_ev hx hb k (by omega)
    have hs := hb.step (53 - (k + 1)) (by omega)
    rw [show 53 - (k + 1) + 1 = 53 - k by omega, show 53 - (k + 1) + 2 = 54 - k by omega, abs_of_pos hx] at hs
    refine ⟨?_, ?_⟩
    · rw [hs]
      simp only [dz, ev_add, ev, ev_smul]
      push_cast
      rw [h1, pow_succ]
      have h3 : (119025:ℝ) * ev (dz k).2 (690 / x) = 345 * (345 ^ k * b (54 - k)) := by rw [← h2]; ring
      rw [h3]
      ring
    · rw [show 54 - (k + 1) = 53 - k by omega]
      simp only [dz]
      rw [h1, pow_succ]; ring

def inW : List ℤ := sub (smul (100 * 345 ^ 3) (dz 50).1) (smul 102 (dz 53).1)
set_option maxRecDepth 100000
theorem inW_pos : posOn (shrL 0 (sc 32 53 inW)) 1 16 0 = true := by decide +kernel

theorem in3_ratio {x : ℝ} (hx : 690 ≤ x) {b : ℕ → ℝ} (hb : Downward (-1) x 53 b) : 1.02 * b 0 ≤ b 3 := by
  have hx0 : 0 < x := by linarith
  have h := pos01 0 53 (by positivity) (by rw [div_le_one hx0]; exact hx : 690 / x ≤ 1) inW (by decide +kernel) inW_pos
  unfold inW at h
  rw [ev_sub, ev_smul, ev_smul, (dz_ev hx0 hb 50 (by norm_num)).1, (dz_ev hx0 hb 53 (by norm_num)).1] at h
  norm_num at h ⊢
  linarith

theorem in_combine {r ρ v V : ℝ} {e1 e2 : ℝ} (hρ : 0 ≤ ρ) (hV : 0 ≤ V) (h1 : |r - ρ| ≤ e1 * ρ) (h2 : |v - V| ≤ e2 * V) :
    |r * v - ρ * V| ≤ (e1 + e2 + e1 * e2) * (ρ * V) := by
  have e : r * v - ρ * V = (r - ρ) * (v - V) + (r - ρ) * V + ρ * (v - V) := by ring
  rw [e]
  refine (abs_add_three _ _ _).trans ?_
  rw [abs_mul, abs_mul, abs_mul, abs_of_nonneg hV, abs_of_nonneg hρ]
  have a1 := mul_le_mul h1 h2 (abs_nonneg _) ((abs_nonneg _).trans h1)
  have a2 := mul_le_mul_of_nonneg_right h1 hV
  have a3 := mul_le_mul_of_nonneg_left h2 hρ
  calc _ ≤ _ := add_le_add (add_le_add a1 a2) a3
    _ = _ := by ring

theorem down_pos {x : ℝ} {m : ℕ} {b : ℕ → ℝ} (hx : x ≠ 0) (hb : Downward (-1) x m b) : ∀ k j, m = j + k → 0 < b j
  | 0, j, h => by obtain rfl : m = j := by omega
                  rw [hb.start]; norm_num
  | 1, j, h => by
    rw [hb.step j (by omega), show j + 2 = m + 1 by omega, hb.top, show j + 1 = m by omega, hb.start]
    have := abs_pos.2 hx
    have : (0:ℝ) < (m : ℕ) := by exact_mod_cast (by omega : 0 < m)
    simp only [mul_zero, sub_zero, mul_one]; positivity
  | k + 2, j, h => by
    rw [hb.step j (by omega)]
    have h1 := down_pos hx hb (k + 1) (j + 1) (by omega)
    have h2 := down_pos hx hb k (j + 2) (by omega)
    have := abs_pos.2 hx
    have : 0 < ((j + 1 : ℕ) : ℝ) * (2 / |x|) * b (j + 1) := by positivity
    linarith

theorem sqrt200 {n : ℕ} (h : 2 ≤ n) : 20 ≤ Nat.sqrt (200 * n) := by
  rw [Nat.le_sqrt]; omega

end Bes
end Verif
