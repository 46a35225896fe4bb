import Verif.Proofs.BetaSand
import Verif.Proofs.BetaWrong

/-!
# The continued fraction of the incomplete beta function in binary64, `b ≤ 1`
-/

namespace Verif
namespace Bcf
open F64

/-- slightly more than half a unit in the last place -/
noncomputable def uu : ℝ := 112 / 10^18

theorem uu_pos : 0 < uu := by unfold uu; norm_num
theorem uu_gap : 1 / 2^53 + 9 / 10^19 ≤ uu := by unfold uu; norm_num
theorem uu_le : uu ≤ 2 / 10^16 := by unfold uu; norm_num

/-- signed relative error -/
structure SR (z : F64) (A k : ℝ) : Prop where
  fin : z.isFin = true
  err : |z.val - A| ≤ k * uu * |A|

def Rng (A : ℝ) : Prop := A = 0 ∨ (1 / 2^1000 ≤ |A| ∧ |A| ≤ 2^1000)

theorem SR.mono {z : F64} {A k l : ℝ} (h : SR z A k) (hl : k ≤ l) : SR z A l :=
  ⟨h.fin, h.err.trans (by have := uu_pos; gcongr)⟩

theorem sr_self {z : F64} (h : z.isFin = true) : SR z z.val 0 := ⟨h, by simp⟩
theorem sr_lit {z : F64} {A : ℝ} (h : z.isFin = true) (hv : z.val = A) : SR z A 0 := ⟨h, by simp [hv]⟩

theorem sr_round {z : F64} {y A k : ℝ} (hv : z.val = RN y) (hA : Rng A) (k0 : 0 ≤ k) (hk : k ≤ 100) {e : ℝ} (he : e ≤ k * uu + 3 / 10^28) (hy : |y - A| ≤ e * |A|) :
    SR z A (k + 1) := by
  rcases hA with h | ⟨h1, h2⟩
  · subst h
    rw [abs_zero, mul_zero, sub_zero] at hy
    have y0 : y = 0 := abs_eq_zero.1 (le_antisymm hy (abs_nonneg _))
    have : z.val = 0 := by rw [hv, y0, RN_zero]
    exact ⟨isFin_of_abs (b := 1) (by rw [this]; norm_num) (by norm_num), by rw [this]; simp⟩
  · have A0 := abs_nonneg A
    have U := uu_pos
    have U2 := uu_le
    have e1 : e ≤ 1 / 4 := by nlinarith
    have b1 : |y| ≤ (1 + e) * |A| := by
      have := abs_add_le (y - A) A
      rw [sub_add_cancel] at this
      linarith
    have b2 : (1 - e) * |A| ≤ |y| := by
      have := abs_sub_abs_le_abs_sub A y
      rw [abs_sub_comm] at this
      linarith
    have l1 : 1 / 2^1022 ≤ |y| := by
      refine le_trans ?_ b2
      refine le_trans ?_ (mul_le_mul_of_nonneg_right (show (1/2:ℝ) ≤ 1 - e by linarith) A0)
      refine le_trans ?_ (mul_le_mul_of_nonneg_left h1 (by norm_num))
      rw [show (1/2:ℝ) * (1 / 2^1000) = 1 / 2^1001 by rw [show (2:ℝ)^1001 = 2^1000 * 2 from pow_succ 2 1000]; generalize (2:ℝ)^1000 = t; ring]
      exact one_div_le_one_div_of_le (by positivity) (pow_le_pow_right₀ (by norm_num) (by norm_num))
    have l2 : |y| ≤ 2^1022 := by
      refine b1.trans ?_
      refine (mul_le_mul (show 1 + e ≤ 2 by linarith) h2 A0 (by norm_num)).trans ?_
      rw [show (2:ℝ) * 2^1000 = 2^1001 by rw [show (2:ℝ)^1001 = 2^1000 * 2 from pow_succ 2 1000]; generalize (2:ℝ)^1000 = t; ring]
      exact pow_le_pow_right₀ (by norm_num) (by norm_num)
    obtain ⟨r1, r2, r3⟩ := rn_rel l1 l2
    rw [← hv] at r2 r3
    refine ⟨by rw [isFin_iff_val]; exact r3, ?_⟩
    have t := abs_add_le (z.val - y) (y - A)
    rw [sub_add_sub_cancel] at t
    have t2 : |y| / 2^53 ≤ (1 + e) * |A| / 2^53 := by gcongr
    refine t.trans ((add_le_add (r2.trans t2) hy).trans ?_)
    rw [show (1 + e) * |A| / 2^53 + e * |A| = ((1 + e) / 2^53 + e) * |A| by ring]
    refine mul_le_mul_of_nonneg_right ?_ A0
    have gp := uu_gap
    have ku : k * uu ≤ 100 * (2 / 10^16) := by nlinarith
    norm_num at gp he ku ⊢
    nlinarith

theorem sr_mul {a b : F64} {A B k l : ℝ} (ha : SR a A k) (hb : SR b B l) (hA : Rng (A * B)) (k0 : 0 ≤ k) (l0 : 0 ≤ l) (hk : k ≤ 50) (hl : l ≤ 50) :
    SR (a * b) (A * B) (k + l + 1) := by
  have U := uu_pos
  have U2 := uu_le
  refine sr_round (mul_spec ha.fin hb.fin).2.1 hA (by linarith) (by linarith) (e := k * uu + l * uu + k * uu * (l * uu)) ?_ ?_
  · have : k * uu ≤ 1 / 10^14 := by nlinarith
    have : l * uu ≤ 1 / 10^14 := by nlinarith
    have : k * uu * (l * uu) ≤ 1 / 10^14 * (1 / 10^14) := mul_le_mul (by assumption) (by assumption) (by positivity) (by norm_num)
    norm_num at this ⊢
    linarith
  · have e1 : a.val * b.val - A * B = (a.val - A) * (b.val - B) + (a.val - A) * B + A * (b.val - B) := by ring
    rw [e1]
    have t1 := abs_add_le ((a.val - A) * (b.val - B) + (a.val - A) * B) (A * (b.val - B))
    have t2 := abs_add_le ((a.val - A) * (b.val - B)) ((a.val - A) * B)
    have s1 : |(a.val - A) * (b.val - B)| ≤ (k * uu * |A|) * (l * uu * |B|) := by rw [abs_mul]; exact mul_le_mul ha.err hb.err (abs_nonneg _) (by positivity)
    have s2 : |(a.val - A) * B| ≤ (k * uu * |A|) * |B| := by rw [abs_mul]; exact mul_le_mul_of_nonneg_right ha.err (abs_nonneg _)
    have s3 : |A * (b.val - B)| ≤ |A| * (l * uu * |B|) := by rw [abs_mul]; exact mul_le_mul_of_nonneg_left hb.err (abs_nonneg _)
    rw [abs_mul A B]
    nlinarith

theorem sr_div {a b : F64} {A B k l : ℝ} (ha : SR a A k) (hb : SR b B l) (hB : 0 < B) (hA : Rng (A / B)) (k0 : 0 ≤ k) (l0 : 0 ≤ l) (hk : k ≤ 30) (hl : l ≤ 30) :
    SR (a / b) (A / B) (k + l + 1) := by
  have U := uu_pos
  have U2 := uu_le
  have hbe := hb.err
  rw [abs_of_pos hB] at hbe
  have lu : l * uu ≤ 6 / 10^15 := by nlinarith
  have ku : k * uu ≤ 6 / 10^15 := by nlinarith
  have b1 : (1 - 6 / 10^15) * B ≤ b.val := by
    have := (abs_le.1 hbe).1
    nlinarith
  have b0 : 0 < b.val := lt_of_lt_of_le (mul_pos (by norm_num) hB) b1
  refine sr_round (div_spec ha.fin hb.fin b0.ne').2.1 hA (by linarith) (by linarith) (e := (k * uu + l * uu) * (1 + 7 / 10^15)) ?_ ?_
  · norm_num at lu ku ⊢
    nlinarith
  · have e1 : a.val / b.val - A / B = ((a.val - A) * B - A * (b.val - B)) / (b.val * B) := by field_simp; ring
    rw [e1, abs_div, abs_of_pos (mul_pos b0 hB), div_le_iff₀ (mul_pos b0 hB), abs_div, abs_of_pos hB]
    have t := abs_sub ((a.val - A) * B) (A * (b.val - B))
    have s1 : |(a.val - A) * B| ≤ (k * uu * |A|) * B := by rw [abs_mul, abs_of_pos hB]; exact mul_le_mul_of_nonneg_right ha.err hB.le
    have s2 : |A * (b.val - B)| ≤ |A| * (l * uu * B) := by rw [abs_mul]; exact mul_le_mul_of_nonneg_left hbe (abs_nonneg _)
    have e2 : (k * uu + l * uu) * (1 + 7 / 10^15) * (|A| / B) * (b.val * B) = ((k * uu + l * uu) * |A|) * ((1 + 7 / 10^15) * b.val) := by field_simp
    rw [e2]
    have : B ≤ (1 + 7 / 10^15) * b.val := by
      have := mul_le_mul_of_nonneg_left b1 (show (0:ℝ) ≤ 1 + 7 / 10^15 by norm_num)
      norm_num at this ⊢
      nlinarith
    have := mul_le_mul_of_nonneg_left this (show 0 ≤ (k * uu + l * uu) * |A| by positivity)
    nlinarith

/-- sum of nonnegative numbers -/
theorem sr_add {a b : F64} {A B k : ℝ} (ha : SR a A k) (hb : SR b B k) (hA : 0 ≤ A) (hB : 0 ≤ B) (hR : Rng (A + B)) (k0 : 0 ≤ k) (hk : k ≤ 50) :
    SR (a + b) (A + B) (k + 1) := by
  refine sr_round (add_spec ha.fin hb.fin).2 hR k0 (by linarith) (e := k * uu) (by norm_num) ?_
  have h1 := ha.err
  have h2 := hb.err
  rw [abs_of_nonneg hA] at h1
  rw [abs_of_nonneg hB] at h2
  rw [show a.val + b.val - (A + B) = (a.val - A) + (b.val - B) by ring, abs_of_nonneg (add_nonneg hA hB)]
  have := abs_add_le (a.val - A) (b.val - B)
  linarith

theorem sr_neg {a : F64} {A k : ℝ} (h : SR a A k) : SR (-a) (-A) k :=
  ⟨by rw [isFin_neg]; exact h.fin, by rw [val_neg, show -a.val - -A = -(a.val - A) by ring, abs_neg, abs_neg]; exact h.err⟩

theorem rng_mid {A : ℝ} (h1 : 1 / 10^300 ≤ |A|) (h2 : |A| ≤ 10^100) : Rng A := by
  refine Or.inr ⟨le_trans (one_div_le_one_div_of_le (by positivity) ?_) h1, h2.trans ?_⟩
  · calc (10:ℝ)^300 = (10^3)^100 := by rw [← pow_mul]
      _ ≤ (2^10)^100 := pow_le_pow_left₀ (by norm_num) (by norm_num) _
      _ = 2^1000 := by rw [← pow_mul]
  · calc (10:ℝ)^100 ≤ 2^400 := by
          calc (10:ℝ)^100 ≤ (2^4)^100 := pow_le_pow_left₀ (by norm_num) (by norm_num) _
            _ = 2^400 := by rw [← pow_mul]
      _ ≤ 2^1000 := pow_le_pow_right₀ (by norm_num) (by norm_num)

theorem rng_of {A : ℝ} (h1 : 1 / 10^300 ≤ A) (h2 : A ≤ 10^100) : Rng A := by
  have : 0 < A := lt_of_lt_of_le (by positivity) h1
  exact rng_mid (by rw [abs_of_pos this]; exact h1) (by rw [abs_of_pos this]; exact h2)

theorem rng_neg {A : ℝ} (h : Rng A) : Rng (-A) := by
  rcases h with h | h
  · exact Or.inl (by rw [h, neg_zero])
  · exact Or.inr (by rw [abs_neg]; exact h)

end Bcf
end Verif
