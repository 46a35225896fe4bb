import Verif.Proofs.BesselYn2
import Verif.Proofs.BesselJd

/-! Rounding errors in the upward recurrence for `Y_n`: variation of constants, first up to the order `x`, then beyond. -/

namespace Verif
namespace Bes
open Real

/-- the coefficients of `e k`, `e (k+1)` as a combination of `J` and `Y` -/
noncomputable def va (x : ℝ) (e : ℕ → ℝ) (k : ℕ) : ℝ := π * x / 2 * (e (k + 1) * besselYR k x - e k * besselYR (k + 1) x)
noncomputable def vb (x : ℝ) (e : ℕ → ℝ) (k : ℕ) : ℝ := π * x / 2 * (e k * besselJR (k + 1) x - e (k + 1) * besselJR k x)

theorem cas_unit {x : ℝ} (hx : 0 < x) (k : ℕ) : π * x / 2 * (besselJR (k + 1) x * besselYR k x - besselJR k x * besselYR (k + 1) x) = 1 := by
  rw [casoratian hx k]; have hp : π ≠ 0 := Real.pi_ne_zero
  field_simp

theorem v_fst {x : ℝ} (hx : 0 < x) (e : ℕ → ℝ) (k : ℕ) : e k = va x e k * besselJR k x + vb x e k * besselYR k x := by
  unfold va vb
  linear_combination (-(e k)) * cas_unit hx k

theorem v_snd {x : ℝ} (hx : 0 < x) (e : ℕ → ℝ) (k : ℕ) : e (k + 1) = va x e k * besselJR (k + 1) x + vb x e k * besselYR (k + 1) x := by
  unfold va vb
  linear_combination (-(e (k + 1))) * cas_unit hx k

/-- what is added to the recurrence at step `k` -/
noncomputable def vd (x : ℝ) (e : ℕ → ℝ) (k : ℕ) : ℝ := e (k + 2) - ((k + 1 : ℕ) * (2 / x) * e (k + 1) - e k)

theorem va_succ {x : ℝ} (hx : 0 < x) (e : ℕ → ℝ) (k : ℕ) : va x e (k + 1) = va x e k + π * x / 2 * (vd x e k * besselYR (k + 1) x) := by
  unfold va vd
  rw [show k + 1 + 1 = k + 2 by ring, Y_rec k hx]
  ring

theorem vb_succ {x : ℝ} (hx : 0 < x) (e : ℕ → ℝ) (k : ℕ) : vb x e (k + 1) = vb x e k - π * x / 2 * (vd x e k * besselJR (k + 1) x) := by
  unfold vb vd
  rw [show k + 1 + 1 = k + 2 by ring, J_rec k hx.ne']
  ring

theorem vd_sub {x : ℝ} (hx : 0 < x) (f : ℕ → ℝ) (k : ℕ) : vd x (fun i => f i - besselYR i x) k = vd x f k := by
  unfold vd
  simp only []
  rw [Y_rec k hx]; ring

/-- the rounding errors of one step -/
def RStep (x : ℝ) (f : ℕ → ℝ) (τ B : ℝ) (n : ℕ) : Prop := ∀ k, k + 2 ≤ n → |(k + 1 : ℕ) * (2 / x) * f (k + 1)| ≤ B → |f (k + 1)| ≤ B → |f k| ≤ B →
  |vd x f k| ≤ (4.1 * |(k + 1 : ℕ) * (2 / x) * f (k + 1)| + 1.1 * |f k|) / 2 ^ 53 + τ

/-- orders up to `x`, with amplitude `G` -/
theorem phase1 {x G g E τ B : ℝ} {f : ℕ → ℝ} {n : ℕ} (hx : 0 < x) (hf : RStep x f τ B n)
    (hJ : ∀ k : ℕ, (k:ℝ) ≤ x → |besselJR k x| ≤ (x + 1) / (x - k + 1) * G) (hY : ∀ k : ℕ, (k:ℝ) ≤ x → |besselYR k x| ≤ (x + 1) / (x - k + 1) * G)
    (hG : 0 < G) (hτ : τ ≤ 0.1 / 2 ^ 53 * G) (hg : x * G ^ 2 ≤ g) (hB : 4 * ((x + 1) * G) ≤ B)
    (ha : |va x (fun i => f i - besselYR i x) 0| ≤ E) (hb : |vb x (fun i => f i - besselYR i x) 0| ≤ E)
    (hE : E + 59 * g * (x + 1) ^ 2 / 2 ^ 53 ≤ 1 / 2) :
    ∀ k : ℕ, k + 1 ≤ n → (k:ℝ) ≤ x → |va x (fun i => f i - besselYR i x) k| ≤ E + 29.5 * g * (x + 1) ^ 2 / 2 ^ 53 / (x - k + 1 / 2) ∧
      |vb x (fun i => f i - besselYR i x) k| ≤ E + 29.5 * g * (x + 1) ^ 2 / 2 ^ 53 / (x - k + 1 / 2) := by
  have g0 : 0 ≤ g := le_trans (by positivity) hg
  intro k
  induction k with
  | zero =>
    intro _ _
    have : 0 ≤ 29.5 * g * (x + 1) ^ 2 / 2 ^ 53 / (x - (0:ℕ) + 1 / 2) := by
      rw [Nat.cast_zero, sub_zero]; positivity
    exact ⟨ha.trans (by linarith), hb.trans (by linarith)⟩
  | succ k ih =>
    intro hkn hkx
    push_cast at hkx
    obtain ⟨i1, i2⟩ := ih (by omega) (by linarith)
    set e : ℕ → ℝ := fun i => f i - besselYR i x with he
    have kn : (0:ℝ) ≤ k := Nat.cast_nonneg k
    set y := x - k with hy
    have y1 : 1 ≤ y := by rw [hy]; linarith
    set A := 29.5 * g * (x + 1) ^ 2 / 2 ^ 53 with hA
    have A0 : 0 ≤ A := by positivity
    have hlim : E + A / (y + 1 / 2) ≤ 1 / 2 := by
      have : A / (y + 1 / 2) ≤ A := div_le_self A0 (by linarith)
      have : 59 * g * (x + 1) ^ 2 / 2 ^ 53 = 2 * A := by rw [hA]; ring
      linarith
    set ρ := (x + 1) / y with hρ
    have ρ0 : 0 < ρ := by positivity
    have ρ1 : 1 ≤ ρ := by rw [hρ, one_le_div (by linarith)]; linarith
    have J1 : |besselJR (k + 1) x| ≤ ρ * G := by
      have := hJ (k + 1) (by push_cast; linarith)
      rwa [show x - ((k + 1 : ℕ):ℝ) + 1 = y by push_cast; ring] at this
    have Y1 : |besselYR (k + 1) x| ≤ ρ * G := by
      have := hY (k + 1) (by push_cast; linarith)
      rwa [show x - ((k + 1 : ℕ):ℝ) + 1 = y by push_cast; ring] at this
    have mono : (x + 1) / (x - k + 1) * G ≤ ρ * G := by
      refine mul_le_mul_of_nonneg_right ?_ hG.le
      exact div_le_div_of_nonneg_left (by linarith) (by linarith) (by linarith)
    have J0 : |besselJR k x| ≤ ρ * G := (hJ k (by linarith)).trans mono
    have Y0 : |besselYR k x| ≤ ρ * G := (hY k (by linarith)).trans mono
    have ρG : 0 < ρ * G := by positivity
    have fb : ∀ j, |besselJR j x| ≤ ρ * G → |besselYR j x| ≤ ρ * G → e j = va x e k * besselJR j x + vb x e k * besselYR j x → |f j| ≤ 2 * (ρ * G) := by
      intro j hj hy hv
      have h1 : f j = besselYR j x + va x e k * besselJR j x + vb x e k * besselYR j x := by
        have : e j = f j - besselYR j x := rfl
        linarith
      have p1 : |va x e k * besselJR j x| ≤ 1 / 2 * (ρ * G) := by
        rw [abs_mul]; exact mul_le_mul (i1.trans hlim) hj (abs_nonneg _) (by norm_num)
      have p2 : |vb x e k * besselYR j x| ≤ 1 / 2 * (ρ * G) := by
        rw [abs_mul]; exact mul_le_mul (i2.trans hlim) hy (abs_nonneg _) (by norm_num)
      rw [h1]
      refine (abs_add_three _ _ _).trans ?_
      linarith
    have f1 := fb (k + 1) J1 Y1 (v_snd hx e k)
    have f0 := fb k J0 Y0 (v_fst hx e k)
    have c2 : ((k + 1 : ℕ):ℝ) * (2 / x) ≤ 2 := by rw [← mul_div_assoc, div_le_iff₀ hx]; push_cast; linarith
    have cf : |(k + 1 : ℕ) * (2 / x) * f (k + 1)| ≤ 4 * (ρ * G) := by
      rw [abs_mul, abs_of_nonneg (by positivity : (0:ℝ) ≤ (k + 1 : ℕ) * (2 / x))]
      calc _ ≤ 2 * (2 * (ρ * G)) := mul_le_mul c2 f1 (abs_nonneg _) (by norm_num)
        _ = _ := by ring
    have big : ρ * G ≤ (x + 1) * G := mul_le_mul_of_nonneg_right (div_le_self (by linarith) y1) hG.le
    have hd := hf k (by omega) (cf.trans (by linarith)) (f1.trans (by linarith)) (f0.trans (by linarith))
    have hd' : |vd x e k| ≤ 18.7 / 2 ^ 53 * (ρ * G) := by
      rw [he, vd_sub hx]
      refine hd.trans ?_
      have t : τ ≤ 0.1 / 2 ^ 53 * (ρ * G) := hτ.trans (mul_le_mul_of_nonneg_left (le_mul_of_one_le_left hG.le ρ1) (by positivity))
      have : (4.1 * |(k + 1 : ℕ) * (2 / x) * f (k + 1)| + 1.1 * |f k|) / 2 ^ 53 ≤ (4.1 * (4 * (ρ * G)) + 1.1 * (2 * (ρ * G))) / 2 ^ 53 := by gcongr
      refine (add_le_add this t).trans (le_of_eq ?_)
      ring
    have inc : ∀ w, |w| ≤ ρ * G → |π * x / 2 * (vd x e k * w)| ≤ A / y ^ 2 := by
      intro w hw
      rw [abs_mul, abs_mul, abs_of_pos (by positivity : 0 < π * x / 2)]
      have hp : π / 2 ≤ 1.5708 := by linarith [Real.pi_lt_d6]
      have e1 : A / y ^ 2 = 29.5 / 2 ^ 53 * g * ρ ^ 2 := by rw [hA, hρ]; field_simp
      have e2 : π * x / 2 * (18.7 / 2 ^ 53 * (ρ * G) * (ρ * G)) = π / 2 * (18.7 / 2 ^ 53) * (x * G ^ 2) * ρ ^ 2 := by ring
      rw [e1]
      calc π * x / 2 * (|vd x e k| * |w|) ≤ π * x / 2 * (18.7 / 2 ^ 53 * (ρ * G) * (ρ * G)) := by gcongr
        _ = _ := e2
        _ ≤ 1.5708 * (18.7 / 2 ^ 53) * g * ρ ^ 2 := by gcongr
        _ ≤ _ := by
          refine mul_le_mul_of_nonneg_right (mul_le_mul_of_nonneg_right (by norm_num) g0) (by positivity)
    have tel : A / (y + 1 / 2) + A / y ^ 2 ≤ A / (x - ((k + 1 : ℕ):ℝ) + 1 / 2) := by
      rw [show x - ((k + 1 : ℕ):ℝ) + 1 / 2 = y - 1 / 2 by push_cast; ring]
      have h1 : 0 < y - 1 / 2 := by linarith
      have h2 : 0 < y + 1 / 2 := by linarith
      have : 1 / (y + 1 / 2) + 1 / y ^ 2 ≤ 1 / (y - 1 / 2) := by
        rw [div_add_div _ _ h2.ne' (by positivity), div_le_div_iff₀ (by positivity) h1]
        nlinarith [sq_nonneg y]
      have := mul_le_mul_of_nonneg_left this A0
      rw [mul_add] at this
      simpa only [mul_one_div] using this
    constructor
    · rw [va_succ hx]
      refine (abs_add_le _ _).trans ?_
      linarith [inc _ Y1]
    · rw [vb_succ hx]
      refine (abs_sub _ _).trans ?_
      linarith [inc _ J1]

end Bes
end Verif
