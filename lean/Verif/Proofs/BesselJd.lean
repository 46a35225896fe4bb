import Verif.Proofs.BesselJn

/-! `J_n(x)` for `n ≥ x`: positivity, monotonicity, decay; the bound `|J_n| ≤ 1`; the normalising sum. -/

namespace Verif
namespace Bes
open Real

theorem sb_near (n : ℕ) (v : ℝ) : |SB n v - 1 / n.factorial| ≤ Real.exp |v| / (n + 1).factorial := by
  have h := (sb_summable n v).tsum_eq_zero_add
  have e0 : SB n v - 1 / n.factorial = ∑' k : ℕ, v ^ (k + 1) / ((k + 1).factorial * (k + 1 + n).factorial : ℝ) := by
    unfold SB; rw [h]; simp
  rw [e0, ← Real.norm_eq_abs]
  have hg : HasSum (fun k : ℕ => |v| ^ k / k.factorial / (n + 1).factorial) (Real.exp |v| / (n + 1).factorial) := by
    refine HasSum.div_const ?_ _
    rw [Real.exp_eq_exp_ℝ]
    exact NormedSpace.expSeries_div_hasSum_exp |v|
  have hp : ∀ k : ℕ, 0 ≤ |v| ^ k / (k.factorial : ℝ) / (n + 1).factorial := fun k => by positivity
  have hs : Summable (fun k : ℕ => |v| ^ (k + 1) / ((k + 1).factorial : ℝ) / (n + 1).factorial) := (summable_nat_add_iff 1).2 hg.summable
  have h2 := hg.summable.tsum_eq_zero_add
  rw [hg.tsum_eq] at h2
  refine (tsum_of_norm_bounded hs.hasSum (fun k => ?_)).trans ?_
  · rw [norm_div, norm_mul, norm_pow, Real.norm_eq_abs, Real.norm_natCast, Real.norm_natCast, div_div]
    refine div_le_div_of_nonneg_left (by positivity) (by positivity) (mul_le_mul_of_nonneg_left ?_ (by positivity))
    exact_mod_cast Nat.factorial_le (by omega)
  · rw [h2]
    have := hp 0
    linarith

theorem J_large {x : ℝ} (hx : 0 < x) : ∃ N : ℕ, ∀ j, N ≤ j → 0 < besselJR j x ∧ besselJR (j + 1) x ≤ besselJR j x := by
  set E := Real.exp |-(x ^ 2 / 4)| with hE
  have E1 : 1 ≤ E := Real.one_le_exp (abs_nonneg _)
  obtain ⟨N, hN⟩ := exists_nat_gt (2 * E + x * (1 + E))
  refine ⟨N, fun j hj => ?_⟩
  have hj' : 2 * E + x * (1 + E) < j := lt_of_lt_of_le hN (by exact_mod_cast hj)
  have hxE : 0 < x * (1 + E) := by positivity
  have a := abs_le.1 (sb_near j (-(x ^ 2 / 4)))
  have b := abs_le.1 (sb_near (j + 1) (-(x ^ 2 / 4)))
  rw [← hE] at a b
  have f0 : (0:ℝ) < j.factorial := by positivity
  have e1 : ((j + 1).factorial : ℝ) = (j + 1) * j.factorial := by rw [Nat.factorial_succ]; push_cast; ring
  have e2 : ((j + 1 + 1).factorial : ℝ) = (j + 2) * ((j + 1) * j.factorial) := by rw [Nat.factorial_succ, Nat.factorial_succ]; push_cast; ring
  have l1 : 1 / 2 / (j.factorial : ℝ) ≤ SB j (-(x ^ 2 / 4)) := by
    have : E / (j + 1).factorial ≤ 1 / 2 / j.factorial := by
      rw [e1, div_le_div_iff₀ (by positivity) f0]
      have : E * 2 ≤ j + 1 := by linarith
      nlinarith
    have e3 : (1:ℝ) / j.factorial = 1 / 2 / j.factorial + 1 / 2 / j.factorial := by ring
    linarith [a.1]
  have l2 : SB (j + 1) (-(x ^ 2 / 4)) ≤ (1 + E) / ((j + 1) * j.factorial) := by
    have : E / (j + 1 + 1).factorial ≤ E / (j + 1).factorial := by
      refine div_le_div_of_nonneg_left (by linarith) (by positivity) ?_
      exact_mod_cast Nat.factorial_le (by omega)
    rw [← e1, add_div]
    linarith [b.2]
  have p0 : 0 < SB j (-(x ^ 2 / 4)) := lt_of_lt_of_le (by positivity) l1
  rw [besselJR_eq, besselJR_eq, pow_succ (x / 2) j, mul_assoc]
  have hp : 0 < (x / 2) ^ j := by positivity
  refine ⟨mul_pos hp p0, mul_le_mul_of_nonneg_left ?_ hp.le⟩
  refine (mul_le_mul_of_nonneg_left l2 (by positivity)).trans (le_trans ?_ l1)
  rw [div_mul_div_comm, div_div, div_le_div_iff₀ (by positivity) (by positivity)]
  have : x * (1 + E) ≤ j + 1 := by linarith
  nlinarith [mul_le_mul_of_nonneg_right this f0.le]

/-- `J_{j+1} ≤ J_j` and `J_{j+1} > 0` for `j + 1 ≥ x` -/
theorem J_mono {x : ℝ} (hx : 0 < x) {j : ℕ} (hj : x ≤ j + 1) : 0 < besselJR (j + 1) x ∧ besselJR (j + 1) x ≤ besselJR j x := by
  obtain ⟨N, hN⟩ := J_large hx
  have key : ∀ k j, N ≤ j + k → x ≤ j + 1 → 0 < besselJR j x ∧ besselJR (j + 1) x ≤ besselJR j x := by
    intro k
    induction k with
    | zero => intro j h _; exact hN j h
    | succ k ih =>
      intro j h hj
      have := ih (j + 1) (by omega) (by push_cast; linarith)
      have hr := J_rec j hx.ne'
      have h2 : (2:ℝ) ≤ (j + 1 : ℕ) * (2 / x) := by
        rw [← mul_div_assoc, le_div_iff₀ hx]; push_cast; linarith
      have h3 := mul_le_mul_of_nonneg_right h2 this.1.le
      have h4 := this.2
      rw [show j + 1 + 1 = j + 2 from rfl, hr] at h4
      have h5 : besselJR (j + 2) x ≤ besselJR (j + 1) x := this.2
      rw [hr] at h5
      constructor <;> linarith [this.1]
  refine ⟨(key N (j + 1) (by omega) (by push_cast; linarith)).1, (key N j (by omega) hj).2⟩

theorem J_pos {x : ℝ} (hx : 0 < x) {j : ℕ} (hj : x ≤ j) : 0 < besselJR j x := by
  rcases j with _ | j
  · simp at hj; linarith
  · exact (J_mono hx (by push_cast at hj; linarith)).1

theorem J_anti {x : ℝ} (hx : 0 < x) {j : ℕ} (hj : x ≤ j) : ∀ k, besselJR (j + k) x ≤ besselJR j x
  | 0 => le_rfl
  | k + 1 => (J_mono hx (j := j + k) (by push_cast; linarith [(Nat.cast_nonneg k : (0:ℝ) ≤ k)])).2.trans (J_anti hx hj k)

theorem J_anti' {x : ℝ} (hx : 0 < x) {i j : ℕ} (hi : x ≤ i) (hij : i ≤ j) : besselJR j x ≤ besselJR i x := by
  have := J_anti hx hi (j - i)
  rwa [show i + (j - i) = j by omega] at this

/-- the decay beyond the order `n ≥ x` -/
theorem J_decay {x : ℝ} (hx : 0 < x) {n : ℕ} (hn : x ≤ n) : ∀ k, besselJR (n + k) x * ∏ i ∈ Finset.range k, ((n + 2 * (i + 1) : ℕ) : ℝ) ≤ (n:ℝ) ^ k * besselJR n x
  | 0 => by simp
  | k + 1 => by
    have ih := J_decay hx hn k
    rw [Finset.prod_range_succ, pow_succ]
    have hk0 : (0:ℝ) ≤ k := Nat.cast_nonneg k
    have h1 := J_mono hx (j := n + k) (by push_cast; linarith)
    have h2 := J_mono hx (j := n + k + 1) (by push_cast; linarith)
    have hr := J_rec (n + k) hx.ne'
    have h3 : (n + 2 * (k + 1) : ℕ) * besselJR (n + (k + 1)) x ≤ n * besselJR (n + k) x := by
      have e : besselJR (n + k) x = (n + k + 1 : ℕ) * (2 / x) * besselJR (n + k + 1) x - besselJR (n + k + 2) x := by rw [hr]; ring
      have h4 : (n:ℝ) * ((n + k + 1 : ℕ) * (2 / x)) ≥ (n + k + 1 : ℕ) * 2 := by
        have : 2 ≤ n * (2 / x) := by rw [← mul_div_assoc, le_div_iff₀ hx]; linarith
        calc (n:ℝ) * ((n + k + 1 : ℕ) * (2 / x)) = (n + k + 1 : ℕ) * (n * (2 / x)) := by ring
          _ ≥ _ := mul_le_mul_of_nonneg_left this (by positivity)
      have h5 : (n:ℝ) * besselJR (n + k + 2) x ≤ n * besselJR (n + k + 1) x := mul_le_mul_of_nonneg_left h2.2 (by positivity)
      have h6 := mul_le_mul_of_nonneg_right h4 h1.1.le
      rw [e, mul_sub]
      show _ * besselJR (n + k + 1) x ≤ _
      push_cast at h6 ⊢
      linarith
    have hp : (0:ℝ) ≤ ∏ i ∈ Finset.range k, ((n + 2 * (i + 1) : ℕ) : ℝ) := Finset.prod_nonneg fun i _ => by positivity
    calc besselJR (n + (k + 1)) x * ((∏ i ∈ Finset.range k, ((n + 2 * (i + 1) : ℕ) : ℝ)) * (n + 2 * (k + 1) : ℕ))
        = ((n + 2 * (k + 1) : ℕ) * besselJR (n + (k + 1)) x) * ∏ i ∈ Finset.range k, ((n + 2 * (i + 1) : ℕ) : ℝ) := by ring
      _ ≤ n * besselJR (n + k) x * ∏ i ∈ Finset.range k, ((n + 2 * (i + 1) : ℕ) : ℝ) := mul_le_mul_of_nonneg_right h3 hp
      _ ≤ n * ((n:ℝ) ^ k * besselJR n x) := by rw [mul_assoc]; exact mul_le_mul_of_nonneg_left ih (by positivity)
      _ = _ := by ring

theorem J_deriv (n : ℕ) (x : ℝ) : HasDerivAt (besselJR (n + 1)) ((besselJR n x - besselJR (n + 2) x) / 2) x := by
  have e : besselJR (n + 1) = fun x => (x / 2) ^ (n + 1) * SB (n + 1) (-(x ^ 2 / 4)) := by funext y; rw [besselJR_eq]
  have hi : HasDerivAt (fun x : ℝ => -(x ^ 2 / 4)) (-(x / 2)) x := by
    have := ((hasDerivAt_pow 2 x).div_const 4).neg
    refine this.congr_deriv ?_
    norm_num; ring
  have h1 : HasDerivAt (fun x : ℝ => (x / 2) ^ (n + 1)) ((n + 1 : ℕ) * (x / 2) ^ n * (1 / 2)) x := by
    have := ((hasDerivAt_id x).div_const 2).pow (n + 1)
    exact this
  have h2 : HasDerivAt (fun x : ℝ => SB (n + 1) (-(x ^ 2 / 4))) (SB (n + 2) (-(x ^ 2 / 4)) * (-(x / 2))) x :=
    HasDerivAt.comp (h := fun x : ℝ => -(x ^ 2 / 4)) x (sb_deriv (n + 1) _) hi
  rw [e]
  refine (h1.mul h2).congr_deriv ?_
  rw [besselJR_eq, besselJR_eq, ← sb_rec n, pow_succ (x / 2) (n + 1), pow_succ (x / 2) n]
  push_cast
  ring

theorem J_cont (n : ℕ) : Continuous (besselJR n) := by
  rcases n with _ | n
  · exact continuous_iff_continuousAt.2 fun y => (J0_deriv y).continuousAt
  · exact continuous_iff_continuousAt.2 fun y => (J_deriv n y).continuousAt

theorem J_at_zero (n : ℕ) : besselJR (n + 1) 0 = 0 := by rw [besselJR_eq]; simp

theorem J0_at_zero : besselJR 0 0 = 1 := by
  rw [besselJR_eq]; norm_num; unfold SB; rw [tsum_eq_single 0 (by intro k hk; simp [hk])]; simp

/-- the partial sums of `J_0² + 2ΣJ_k²` -/
theorem J_sq_deriv (x : ℝ) : ∀ K : ℕ, HasDerivAt (fun x => besselJR 0 x ^ 2 + 2 * ∑ k ∈ Finset.range K, besselJR (k + 1) x ^ 2)
    (-2 * besselJR K x * besselJR (K + 1) x) x
  | 0 => by
    simp only [Finset.range_zero, Finset.sum_empty, mul_zero, add_zero]
    refine ((J0_deriv x).pow 2).congr_deriv ?_
    norm_num
  | K + 1 => by
    have h := (J_sq_deriv x K).add (((J_deriv K x).pow 2).const_mul 2)
    have e : (fun x => besselJR 0 x ^ 2 + 2 * ∑ k ∈ Finset.range (K + 1), besselJR (k + 1) x ^ 2) =
        (fun x => besselJR 0 x ^ 2 + 2 * ∑ k ∈ Finset.range K, besselJR (k + 1) x ^ 2) + fun x => 2 * besselJR (K + 1) x ^ 2 := by
      funext y; simp only [Pi.add_apply]; rw [Finset.sum_range_succ]; ring
    rw [e]
    refine h.congr_deriv ?_
    push_cast
    ring

theorem J_sq_le {x : ℝ} (hx : 0 ≤ x) {K : ℕ} (hK : x ≤ K) : besselJR 0 x ^ 2 + 2 * ∑ k ∈ Finset.range K, besselJR (k + 1) x ^ 2 ≤ 1 := by
  have anti : AntitoneOn (fun x => besselJR 0 x ^ 2 + 2 * ∑ k ∈ Finset.range K, besselJR (k + 1) x ^ 2) (Set.Icc 0 x) := by
    refine antitoneOn_of_deriv_nonpos (convex_Icc 0 x) (fun y _ => (J_sq_deriv y K).continuousAt.continuousWithinAt) ?_ ?_
    · exact fun y _ => (J_sq_deriv y K).differentiableAt.differentiableWithinAt
    · intro y hy
      rw [interior_Icc] at hy
      rw [(J_sq_deriv y K).deriv]
      have h1 := J_pos hy.1 (hy.2.le.trans hK)
      have h2 := (J_mono hy.1 (j := K) (by linarith [hy.2])).1
      nlinarith [mul_pos h1 h2]
  have := anti (Set.left_mem_Icc.2 hx) (Set.right_mem_Icc.2 hx) hx
  refine this.trans (le_of_eq ?_)
  simp only [J0_at_zero, J_at_zero]
  simp

/-- `|J_n| ≤ 1` -/
theorem J_abs_le_one (n : ℕ) (x : ℝ) : |besselJR n x| ≤ 1 := by
  have key : ∀ x, 0 ≤ x → |besselJR n x| ≤ 1 := by
    intro x hx
    obtain ⟨N, hN⟩ := exists_nat_ge x
    have h := J_sq_le hx (K := N + n) (by push_cast; linarith [(Nat.cast_nonneg n : (0:ℝ) ≤ n)])
    rw [← sq_le_one_iff_abs_le_one]
    have hs : 0 ≤ ∑ k ∈ Finset.range (N + n), besselJR (k + 1) x ^ 2 := Finset.sum_nonneg fun _ _ => sq_nonneg _
    rcases n with _ | n
    · linarith
    · have := Finset.single_le_sum (f := fun k => besselJR (k + 1) x ^ 2) (fun i _ => sq_nonneg _) (Finset.mem_range.2 (by omega : n < N + (n + 1)))
      nlinarith [sq_nonneg (besselJR 0 x)]
  rw [J_parity, abs_mul]
  have : |(if x < 0 ∧ n % 2 = 1 then (-1:ℝ) else 1)| = 1 := by split_ifs <;> simp
  rw [this, one_mul]
  exact key _ (abs_nonneg x)

/-- the partial sums of `J_0 + 2ΣJ_{2k}` -/
theorem J_even_deriv (x : ℝ) : ∀ K : ℕ, HasDerivAt (fun x => besselJR 0 x + 2 * ∑ k ∈ Finset.Ico 1 (K + 1), besselJR (2 * k) x) (-besselJR (2 * K + 1) x) x
  | 0 => by simpa using J0_deriv x
  | K + 1 => by
    have h := (J_even_deriv x K).add ((J_deriv (2 * K + 1) x).const_mul 2)
    have e : (fun x => besselJR 0 x + 2 * ∑ k ∈ Finset.Ico 1 (K + 1 + 1), besselJR (2 * k) x) =
        (fun x => besselJR 0 x + 2 * ∑ k ∈ Finset.Ico 1 (K + 1), besselJR (2 * k) x) + fun x => 2 * besselJR (2 * K + 1 + 1) x := by
      funext y; simp only [Pi.add_apply]; rw [Finset.sum_Ico_succ_top (by omega), show 2 * (K + 1) = 2 * K + 1 + 1 by ring]; ring
    rw [e]
    refine h.congr_deriv ?_
    rw [show 2 * (K + 1) + 1 = 2 * K + 1 + 2 by ring]
    ring

/-- the normalisation: `0 ≤ 1 - (J_0 + 2(J_2 + … + J_{2K})) ≤ x·J_{2K+1}` -/
theorem J_norm {x : ℝ} (hx : 0 ≤ x) {K : ℕ} (hK : x ≤ 2 * K + 1) : |besselJR 0 x + 2 * ∑ k ∈ Finset.Ico 1 (K + 1), besselJR (2 * k) x - 1| ≤ x * besselJR (2 * K + 1) x := by
  set F := fun x => besselJR 0 x + 2 * ∑ k ∈ Finset.Ico 1 (K + 1), besselJR (2 * k) x with hF
  have F0 : F 0 = 1 := by
    simp only [hF, J0_at_zero]
    rw [Finset.sum_eq_zero, mul_zero, add_zero]
    intro k hk
    rw [Finset.mem_Ico] at hk
    rw [show 2 * k = (2 * k - 1) + 1 by omega, J_at_zero]
  have anti : AntitoneOn F (Set.Icc 0 x) := by
    refine antitoneOn_of_deriv_nonpos (convex_Icc 0 x) (fun y _ => (J_even_deriv y K).continuousAt.continuousWithinAt) ?_ ?_
    · exact fun y _ => (J_even_deriv y K).differentiableAt.differentiableWithinAt
    · intro y hy
      rw [interior_Icc] at hy
      rw [(J_even_deriv y K).deriv]
      have h1 := J_pos hy.1 (j := 2 * K + 1) (by push_cast; linarith [hy.2])
      linarith
  have hd : ∀ y, HasDerivAt (fun y => F y + y * besselJR (2 * K + 1) y) (y * ((besselJR (2 * K) y - besselJR (2 * K + 2) y) / 2)) y := by
    intro y
    refine ((J_even_deriv y K).add ((hasDerivAt_id y).mul (J_deriv (2 * K) y))).congr_deriv ?_
    simp
  have mono : MonotoneOn (fun y => F y + y * besselJR (2 * K + 1) y) (Set.Icc 0 x) := by
    refine monotoneOn_of_deriv_nonneg (convex_Icc 0 x) (fun y _ => (hd y).continuousAt.continuousWithinAt) ?_ ?_
    · exact fun y _ => (hd y).differentiableAt.differentiableWithinAt
    · intro y hy
      rw [interior_Icc] at hy
      rw [(hd y).deriv]
      have h1 := J_mono hy.1 (j := 2 * K) (by push_cast; linarith [hy.2])
      have h2 := J_mono hy.1 (j := 2 * K + 1) (by push_cast; linarith [hy.2])
      exact mul_nonneg hy.1.le (by linarith [h1.2, h2.2])
  have a := anti (Set.left_mem_Icc.2 hx) (Set.right_mem_Icc.2 hx) hx
  have b := mono (Set.left_mem_Icc.2 hx) (Set.right_mem_Icc.2 hx) hx
  simp only [F0, zero_mul, add_zero] at a b
  show |F x - 1| ≤ _
  rw [abs_le]
  have : 0 ≤ x * besselJR (2 * K + 1) x := by linarith
  constructor <;> linarith

end Bes
end Verif
