import Verif.Model.Bessel
import Verif.Spec

/-!
# The downward recurrences of `Jn` and `In` in exact arithmetic: rescaling has no effect (C62)

The model is run at `ℝ`, so that every operation is exact.
-/

namespace Verif

/-- `b` solves the three-term recurrence `b(j-1) = j·(2/|x|)·b(j) - σ·b(j+1)` downwards from `b(m+1) = 0`, `b(m) = 1`
(`σ = 1` for `Jn`, `σ = -1` for `In`) -/
structure Downward (σ x : ℝ) (m : ℕ) (b : ℕ → ℝ) : Prop where
  top : b (m + 1) = 0
  start : b m = 1
  step : ∀ j, j < m → b j = (j + 1 : ℕ) * (2 / |x|) * b (j + 1) - σ * b (j + 2)

/-- such a sequence exists -/
theorem downward_exists (σ x : ℝ) (m : ℕ) : ∃ b, Downward σ x m b := by
  let f : ℕ → ℝ × ℝ := fun k => Nat.rec (0, 1) (fun k s => (s.2, (m - k : ℕ) * (2 / |x|) * s.2 - σ * s.1)) k
  refine ⟨fun j => (f (m + 1 - j)).1, ?_, ?_, ?_⟩
  · show (f (m + 1 - (m + 1))).1 = 0
    rw [Nat.sub_self]
    rfl
  · show (f (m + 1 - m)).1 = 1
    rw [show m + 1 - m = 1 by omega]
    rfl
  · intro j hj
    show (f (m + 1 - j)).1 = _ * (f (m + 1 - (j + 1))).1 - σ * (f (m + 1 - (j + 2))).1
    obtain ⟨k, hk⟩ : ∃ k, m = j + 1 + k := ⟨m - (j + 1), by omega⟩
    rw [show m + 1 - j = k + 2 by omega, show m + 1 - (j + 1) = k + 1 by omega, show m + 1 - (j + 2) = k by omega]
    show (m - k : ℕ) * (2 / |x|) * (f k).2 - σ * (f k).1 = (j + 1 : ℕ) * (2 / |x|) * (f k).2 - σ * (f k).1
    rw [show m - k = j + 1 by omega]

/-- rescaling -/
theorem scale_real (c : Bool) (t : ℝ) (ht : t ≠ 0) : ∃ t' : ℝ, t' ≠ 0 ∧ ∀ v : ℝ, (if c then Arith.ldexp (t * v) (-IEXP) else t * v) = t' * v := by
  cases c
  · exact ⟨t, ht, fun v => rfl⟩
  · refine ⟨t * 2 ^ (-IEXP), mul_ne_zero ht (zpow_ne_zero _ (by norm_num)), fun v => ?_⟩
    show t * v * 2 ^ (-IEXP) = _
    ring

theorem jnDown_real (x : ℝ) (n m : ℕ) (b : ℕ → ℝ) (hb : Downward 1 x m b) : ∀ (j : ℕ) (s : JState ℝ) (t : ℝ), t ≠ 0 → j ≤ m →
    s.bj = t * b j → s.bjp = t * b (j + 1) → s.ans = t * (if j < n then b n else 0) →
    s.sum = t * (∑ i ∈ Finset.Ico j m, if i % 2 = 0 then b i else 0) → s.jsum = decide (j % 2 = 1) →
    ∃ t' : ℝ, t' ≠ 0 ∧ (jnDown (2 / |x|) n j s).bj = t' * b 0 ∧ (jnDown (2 / |x|) n j s).ans = t' * (if 0 < n then b n else 0) ∧
      (jnDown (2 / |x|) n j s).sum = t' * (∑ i ∈ Finset.Ico 0 m, if i % 2 = 0 then b i else 0) := by
  intro j
  induction j with
  | zero =>
    intro s t ht _ h1 _ h3 h4 _
    exact ⟨t, ht, h1, h3, h4⟩
  | succ j ih =>
    intro s t ht hj h1 h2 h3 h4 h5
    unfold jnDown
    have hbj : (Arith.ofNat (j + 1) : ℝ) * (2 / |x|) * s.bj - s.bjp = t * b j := by
      rw [h1, h2, hb.step j (by omega)]
      show ((j + 1 : ℕ) : ℝ) * (2 / |x|) * (t * b (j + 1)) - t * b (j + 1 + 1) = _
      ring
    obtain ⟨t', ht', hs⟩ := scale_real (decide (IEXP < (Arith.frexp (t * b j)).2)) t ht
    refine ih _ t' ht' (by omega) ?_ ?_ ?_ ?_ ?_
    · show (if _ then _ else _ : ℝ) = _
      rw [hbj]
      exact hs _
    · show (if _ then _ else _ : ℝ) = _
      rw [hbj, h1]
      exact hs _
    · show (if j + 1 = n then (if _ then _ else _ : ℝ) else (if _ then _ else _ : ℝ)) = _
      rw [hbj, h1, h3, hs, hs]
      by_cases hn : j + 1 = n
      · rw [if_pos hn, if_pos (by omega), hn]
      · rw [if_neg hn]
        by_cases h : j < n
        · rw [if_pos h, if_pos (by omega)]
        · rw [if_neg h, if_neg (by omega)]
    · show (if s.jsum then (if _ then _ else _ : ℝ) + (if _ then _ else _ : ℝ) else (if _ then _ else _ : ℝ)) = _
      rw [hbj, h4, hs, hs, h5, Finset.sum_eq_sum_Ico_succ_bot (by omega : j < m)]
      by_cases h : (j + 1) % 2 = 1
      · rw [if_pos (by simpa using h), if_pos (by omega)]
        ring
      · rw [if_neg (by simpa using h), if_neg (by omega), zero_add]
    · show (!s.jsum) = _
      rw [h5, ← decide_not, decide_eq_decide]
      omega

theorem inDown_real (x : ℝ) (n m : ℕ) (b : ℕ → ℝ) (hb : Downward (-1) x m b) : ∀ (j : ℕ) (s : IState ℝ) (t : ℝ), t ≠ 0 → j ≤ m →
    s.bi = t * b j → s.bip = t * b (j + 1) → s.ans = t * (if j < n then b n else 0) →
    ∃ t' : ℝ, t' ≠ 0 ∧ (inDown (2 / |x|) n j s).bi = t' * b 0 ∧ (inDown (2 / |x|) n j s).ans = t' * (if 0 < n then b n else 0) := by
  intro j
  induction j with
  | zero =>
    intro s t ht _ h1 _ h3
    exact ⟨t, ht, h1, h3⟩
  | succ j ih =>
    intro s t ht hj h1 h2 h3
    unfold inDown
    have hbj : (Arith.ofNat (j + 1) : ℝ) * (2 / |x|) * s.bi + s.bip = t * b j := by
      rw [h1, h2, hb.step j (by omega)]
      show ((j + 1 : ℕ) : ℝ) * (2 / |x|) * (t * b (j + 1)) + t * b (j + 1 + 1) = _
      ring
    obtain ⟨t', ht', hs⟩ := scale_real (decide (IEXP < (Arith.frexp (t * b j)).2)) t ht
    refine ih _ t' ht' (by omega) ?_ ?_ ?_
    · show (if _ then _ else _ : ℝ) = _
      rw [hbj]
      exact hs _
    · show (if _ then _ else _ : ℝ) = _
      rw [hbj, h1]
      exact hs _
    · show (if j + 1 = n then (if _ then _ else _ : ℝ) else (if _ then _ else _ : ℝ)) = _
      rw [hbj, h1, h3, hs, hs]
      by_cases hn : j + 1 = n
      · rw [if_pos hn, if_pos (by omega), hn]
      · rw [if_neg hn]
        by_cases h : j < n
        · rw [if_pos h, if_pos (by omega)]
        · rw [if_neg h, if_neg (by omega)]

/-- the truncated square root of the starting orders -/
theorem start_sqrt_real (c n : ℕ) (hc : c * n ≤ 400000000000) :
    Arith.toU U32_MAX (Arith.sqrt ((c : ℝ) * (Arith.ofNat n : ℝ))) = Nat.sqrt (c * n) := by
  show Nat.min ⌊Real.sqrt ((c : ℝ) * (n : ℝ))⌋₊ U32_MAX = _
  rw [← Nat.cast_mul, Real.nat_floor_real_sqrt_eq_nat_sqrt]
  refine Nat.min_eq_left ?_
  have h := Nat.sqrt_le_sqrt hc
  have h2 : Nat.sqrt 400000000000 ≤ U32_MAX := by
    rw [← Nat.lt_succ_iff, Nat.sqrt_lt']
    decide
  exact h.trans h2

theorem start_sqrt_le (k : ℕ) (hk : k ≤ 400000000000) : Nat.sqrt k ≤ 700000 := by
  rw [← Nat.lt_succ_iff, Nat.sqrt_lt']
  exact lt_of_le_of_lt hk (by decide)

theorem jnStart_real [Cfg] (n : ℕ) (hn : n ≤ 2000000000) : jnStart ℝ n = .ok (2 * ((n + Nat.sqrt (160 * n)) / 2)) := by
  unfold jnStart
  have e : (160.0 : ℝ) = ((160 : ℕ) : ℝ) := by norm_num
  have hs := start_sqrt_le (160 * n) (by omega)
  rw [e, start_sqrt_real _ _ (by omega)]
  unfold wrapU
  rw [if_pos (by show _ ≤ 4294967295; omega)]
  rfl

theorem inStart_real [Cfg] (n : ℕ) (hn : n ≤ 2000000000) : inStart ℝ n = .ok (2 * (n + Nat.sqrt (200 * n))) := by
  unfold inStart
  have e : (200.0 : ℝ) = ((200 : ℕ) : ℝ) := by norm_num
  have hs := start_sqrt_le (200 * n) (by omega)
  rw [e, start_sqrt_real _ _ (by omega)]
  unfold wrapU
  rw [if_pos (by show _ ≤ 4294967295; omega)]
  show (if 2 * (n + Nat.sqrt (200 * n)) ≤ U32_MAX then _ else _) = _
  rw [if_pos (by show _ ≤ 4294967295; omega)]

/-- **C62** (`Jn`): for `2 ≤ n ≤ 2·10⁹` and `|x| ≤ n`, `x² > 8·MIN_POSITIVE`, the value is the exact solution of the
downward recurrence from the starting order `m = 2⌊(n + ⌊√(160n)⌋)/2⌋`, normalised by
`b₀ + 2(b₂ + b₄ + … + b_{m-2})`; the rescalings by `2⁻⁵¹²` on the way do not affect it. -/
theorem Jn_rescaling [Cfg] (n m : ℕ) (x : ℝ) (h2 : 2 ≤ n) (hn : n ≤ 2000000000) (hx : |x| ≤ n) (h0 : 8 / 2 ^ 1022 < x * x)
    (hm : m = 2 * ((n + Nat.sqrt (160 * n)) / 2)) (b : ℕ → ℝ) (hb : Downward 1 x m b) :
    Jn n x = .ok ((if x < 0 ∧ n % 2 = 1 then -1 else 1) * (b n / (b 0 + 2 * ∑ k ∈ Finset.Ico 1 (m / 2), b (2 * k)))) := by
  have hs2 : 1 ≤ Nat.sqrt (160 * n) := Nat.le_sqrt.2 (by omega)
  have hnm : n ≤ m := by omega
  unfold Jn
  rw [if_neg (by omega), if_neg (by omega)]
  rw [if_neg (by
    show ¬ (decide (x * x ≤ 8.0 * (1 / 2 ^ 1022 : ℝ)) = true)
    rw [decide_eq_true_eq, not_le]
    refine lt_of_eq_of_lt ?_ h0
    rw [show (8.0 : ℝ) = 8 by norm_num, mul_one_div])]
  have hlt : ¬ ((Arith.ofNat n : ℝ) <ᶠ Arith.abs x) = true := by
    show ¬ (decide ((n : ℝ) < |x|) = true)
    rw [decide_eq_true_eq, not_lt]
    exact hx
  simp only []
  rw [if_neg hlt, jnStart_real n hn, ← hm]
  have e2 : (2.0 : ℝ) / Arith.abs x = 2 / |x| := by
    show (2.0 : ℝ) / |x| = _
    norm_num
  rw [e2]
  obtain ⟨t, ht, k1, k2, k3⟩ := jnDown_real x n m b hb m ⟨0.0, 1.0, 0.0, 0.0, false⟩ 1 one_ne_zero le_rfl
    (by show (1.0 : ℝ) = _; rw [hb.start]; norm_num) (by show (0.0 : ℝ) = _; rw [hb.top]; norm_num)
    (by show (0.0 : ℝ) = _; rw [if_neg (by omega)]; norm_num)
    (by show (0.0 : ℝ) = _; rw [Finset.Ico_self, Finset.sum_empty]; norm_num)
    (by show false = _; symm; rw [decide_eq_false_iff_not]; omega)
  rw [if_pos (by omega)] at k2
  have hsum : ∀ N, (∑ i ∈ Finset.Ico 0 (2 * N), if i % 2 = 0 then b i else 0) = ∑ k ∈ Finset.range N, b (2 * k) := by
    intro N
    induction N with
    | zero => rfl
    | succ N ih =>
      rw [Finset.sum_range_succ, ← ih, show 2 * (N + 1) = 2 * N + 1 + 1 by ring, Finset.sum_Ico_succ_top (by omega),
        Finset.sum_Ico_succ_top (by omega), if_pos (by omega), if_neg (by omega), add_zero]
  have hsum' : (∑ i ∈ Finset.Ico 0 m, if i % 2 = 0 then b i else 0) = b 0 + ∑ k ∈ Finset.Ico 1 (m / 2), b (2 * k) := by
    have := hsum (m / 2)
    rw [show 2 * (m / 2) = m by omega, Finset.range_eq_Ico, Finset.sum_eq_sum_Ico_succ_bot (by omega : 0 < m / 2)] at this
    exact this
  rw [hsum'] at k3
  have hq : (jnDown (2 / |x|) n m ⟨0.0, 1.0, 0.0, 0.0, false⟩).ans /
      (2.0 * (jnDown (2 / |x|) n m ⟨0.0, 1.0, 0.0, 0.0, false⟩).sum - (jnDown (2 / |x|) n m ⟨0.0, 1.0, 0.0, 0.0, false⟩).bj) =
      b n / (b 0 + 2 * ∑ k ∈ Finset.Ico 1 (m / 2), b (2 * k)) := by
    rw [k1, k2, k3, show (2.0 : ℝ) * (t * (b 0 + ∑ k ∈ Finset.Ico 1 (m / 2), b (2 * k))) - t * b 0 =
      t * (b 0 + 2 * ∑ k ∈ Finset.Ico 1 (m / 2), b (2 * k)) by norm_num; ring]
    exact mul_div_mul_left _ _ ht
  show Except.ok _ = _
  congr 1
  show (if decide (x < (0.0 : ℝ)) && decide (n % 2 = 1) then -_ else _) = _
  rw [hq, show (0.0 : ℝ) = 0 by norm_num]
  by_cases hc : x < 0 ∧ n % 2 = 1
  · rw [if_pos (by simpa using hc), if_pos hc, neg_one_mul]
  · rw [if_neg (by simpa using hc), if_neg hc, one_mul]

/-- **C62** (`In`): for `2 ≤ n ≤ 2·10⁹`, `x² > 8·MIN_POSITIVE`, the value is `i₀(x)·b_n/b₀` for the exact solution of the
downward recurrence from the starting order `m = 2(n + ⌊√(200n)⌋) - 1`. -/
theorem In_rescaling [Cfg] (n m : ℕ) (x : ℝ) (h2 : 2 ≤ n) (hn : n ≤ 2000000000) (h0 : 8 / 2 ^ 1022 < x * x)
    (hm : m + 1 = 2 * (n + Nat.sqrt (200 * n))) (b : ℕ → ℝ) (hb : Downward (-1) x m b) :
    In n x = .ok ((if x < 0 ∧ n % 2 = 1 then -1 else 1) * (b n / b 0 * i0 x)) := by
  have hnm : n ≤ m := by omega
  unfold In
  rw [if_neg (by omega), if_neg (by omega)]
  rw [if_neg (by
    show ¬ (decide (x * x ≤ 8.0 * (1 / 2 ^ 1022 : ℝ)) = true)
    rw [decide_eq_true_eq, not_le]
    refine lt_of_eq_of_lt ?_ h0
    rw [show (8.0 : ℝ) = 8 by norm_num, mul_one_div])]
  simp only []
  rw [inStart_real n hn, ← hm]
  have e2 : (2.0 : ℝ) / Arith.abs x = 2 / |x| := by
    show (2.0 : ℝ) / |x| = _
    norm_num
  rw [e2]
  obtain ⟨t, ht, k1, k2⟩ := inDown_real x n m b hb m ⟨0.0, 1.0, 0.0⟩ 1 one_ne_zero le_rfl
    (by show (1.0 : ℝ) = _; rw [hb.start]; norm_num) (by show (0.0 : ℝ) = _; rw [hb.top]; norm_num)
    (by show (0.0 : ℝ) = _; rw [if_neg (by omega)]; norm_num)
  rw [if_pos (by omega)] at k2
  have hq : (inDown (2 / |x|) n m ⟨0.0, 1.0, 0.0⟩).ans * (i0 x / (inDown (2 / |x|) n m ⟨0.0, 1.0, 0.0⟩).bi) = b n / b 0 * i0 x := by
    rw [k1, k2, mul_div_assoc', mul_comm (t * b n), mul_div_assoc, mul_div_mul_left _ _ ht, mul_comm]
  show Except.ok _ = _
  congr 1
  show (if decide (x < (0.0 : ℝ)) && decide (n % 2 = 1) then -_ else _) = _
  rw [Nat.add_sub_cancel, hq, show (0.0 : ℝ) = 0 by norm_num]
  by_cases hc : x < 0 ∧ n % 2 = 1
  · rw [if_pos (by simpa using hc), if_pos hc, neg_one_mul]
  · rw [if_neg (by simpa using hc), if_neg hc, one_mul]

theorem small_lt_one : (8 / 2 ^ 1022 : ℝ) < (1 : ℝ) := by
  rw [div_lt_one (by positivity)]
  calc (8 : ℝ) < 2 ^ 4 := by norm_num
    _ ≤ 2 ^ 1022 := pow_le_pow_right₀ (by norm_num) (by norm_num)

/-- the hypotheses are met: order 3 at `x = -1`, where the odd-order sign applies -/
example [Cfg] : ∃ (m : ℕ) (b : ℕ → ℝ), m = 24 ∧ Downward 1 (-1) m b ∧
    Jn 3 (-1 : ℝ) = .ok (-(b 3 / (b 0 + 2 * ∑ k ∈ Finset.Ico 1 12, b (2 * k)))) := by
  obtain ⟨b, hb⟩ := downward_exists 1 (-1) 24
  refine ⟨24, b, rfl, hb, ?_⟩
  have hsq : Nat.sqrt (160 * 3) = 21 := (Nat.eq_sqrt.2 (by decide)).symm
  rw [Jn_rescaling 3 24 (-1) (by decide) (by decide) (by norm_num) (by rw [neg_mul_neg, one_mul]; exact small_lt_one) (by rw [hsq]) b hb, if_pos (by norm_num),
    neg_one_mul]

example [Cfg] : ∃ (m : ℕ) (b : ℕ → ℝ), m = 53 ∧ Downward (-1) 1 m b ∧ In 3 (1 : ℝ) = .ok (b 3 / b 0 * i0 1) := by
  obtain ⟨b, hb⟩ := downward_exists (-1) 1 53
  refine ⟨53, b, rfl, hb, ?_⟩
  have hsq : Nat.sqrt (200 * 3) = 24 := (Nat.eq_sqrt.2 (by decide)).symm
  rw [In_rescaling 3 53 1 (by decide) (by decide) (by rw [one_mul]; exact small_lt_one) (by rw [hsq]) b hb, if_neg (by norm_num), one_mul]

end Verif
