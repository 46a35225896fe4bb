import Verif.Proofs.BesselInF

/-! The downward recurrence of `In` in binary64. -/

namespace Verif
namespace Bes
open F64

theorem down_ge {x : ℝ} {m : ℕ} {b : ℕ → ℝ} (hx : x ≠ 0) (hb : Downward (-1) x m b) (hm : 1 ≤ m) (hxm : |x| ≤ m) {i j : ℕ}
    (hji : j ≤ i) (him : i ≤ m) : 3 / 4 * b i ≤ b j := by
  have hax := abs_pos.2 hx
  have hj := mq_ge hx hb hm hxm (hji.trans him)
  have hp := mq_m hx hb
  have hi : mq x b i ≤ mq x b m :=
    (mq_hull hx hb (A := 0) (B := mq x b m) le_rfl ⟨hp.le, le_rfl⟩ ⟨by rw [mq_top hb], by rw [mq_top hb]; exact hp.le⟩ (m - i) i (by omega)).1.2
  have hI : ∀ k, besselIR (j + k) |x| ≤ besselIR j |x| := by
    intro k
    induction k with
    | zero => exact le_rfl
    | succ k ih => exact (I_anti (j + k) hax.le).trans ih
  have hI' := hI (i - j)
  rw [show j + (i - j) = i by omega] at hI'
  have pi := I_pos i hax
  have pj := I_pos j hax
  have ei : b i = mq x b i * besselIR i |x| := by unfold mq; field_simp
  have ej : b j = mq x b j * besselIR j |x| := by unfold mq; field_simp
  rw [ei, ej]
  calc 3 / 4 * (mq x b i * besselIR i |x|) ≤ 3 / 4 * (mq x b m * besselIR j |x|) := by gcongr
    _ = (3 / 4 * mq x b m) * besselIR j |x| := by ring
    _ ≤ _ := by gcongr

theorem rel_scale {a a' : F64} {A ε w : ℝ} (h : Rel a A ε) (hw : 0 < w) (hf : a'.isFin = true) (hv : a'.val = a.val / w) : Rel a' (A / w) ε := by
  refine ⟨hf, div_pos h.pos hw, ?_⟩
  rw [hv, ← sub_div, abs_div, abs_of_pos hw, ← mul_div_assoc]
  exact div_le_div_of_nonneg_right h.err hw.le

/-- the invariant -/
structure LInv (n m : ℕ) (b : ℕ → ℝ) (j : ℕ) (s : IState F64) (S : ℝ) : Prop where
  pos : 0 < S
  low : ∃ i, j ≤ i ∧ i ≤ m ∧ 0.49 ≤ S * b i
  bi : Rel s.bi (S * b j) (om ^ (4 * (m - j)) - 1)
  pf : s.bip.isFin = true
  bip : |s.bip.val - S * b (j + 1)| ≤ (om ^ (4 * (m - j)) - 1) * (S * b (j + 1))
  lt : s.bi.val < 2 ^ 512
  plt : s.bip.val < 2 ^ 512
  a1 : j < n → Rel s.ans (S * b n) (om ^ (4 * (m - n)) - 1)
  a0 : n ≤ j → s.ans = 0.0

theorem p512 : (1:ℝ) ≤ 2 ^ 512 := one_le_pow₀ (by norm_num)

/-- the new term, before rescaling -/
theorem in_new {x : ℝ} {n m : ℕ} {b : ℕ → ℝ} {tox : F64} {j : ℕ} {s : IState F64} {S : ℝ} (hb : Downward (-1) x m b)
    (h0 : 1 / 2 ^ 400 ≤ |x|) (h1 : |x| ≤ 690) (ht : Rel tox (2 / |x|) (om ^ 1 - 1)) (hm : m ≤ 5000000000) (hxm : |x| ≤ m) (hj : j < m)
    (h : LInv n m b (j + 1) s S) :
    Rel (Arith.ofNat (j + 1) * tox * s.bi + s.bip) (S * b j) (om ^ (4 * (m - j)) - 1) ∧ 0.36 ≤ S * b (j + 1) ∧ 0.36 ≤ S * b j ∧ S * b j ≤ 2 ^ 950 := by
  have hx0 : 0 < |x| := lt_of_lt_of_le (by positivity) h0
  have hx : x ≠ 0 := abs_pos.1 hx0
  have hmr : (m:ℝ) ≤ 5000000000 := by exact_mod_cast hm
  obtain ⟨i, hi1, hi2, hi3⟩ := h.low
  have hlow : ∀ j', j' ≤ i → 0.36 ≤ S * b j' := by
    intro j' hj'
    have := mul_le_mul_of_nonneg_left (down_ge hx hb (by omega) hxm hj' hi2) h.pos.le
    norm_num at hi3 ⊢
    linarith
  have l1 := hlow (j + 1) hi1
  have l0 := hlow j (by omega)
  obtain ⟨jf, jv⟩ := ofNat_val (n := j + 1) (by omega)
  have hJ : Rel (Arith.ofNat (j + 1) : F64) ((j + 1 : ℕ):ℝ) (om ^ 0 - 1) := by
    have := gr_exact (a := F64.ofNat (j + 1)) jf (by rw [jv]; positivity)
    rw [jv] at this; exact this
  have hk : ((4 * (m - (j + 1)) : ℕ):ℝ) ≤ 2.1e10 := by
    have : 4 * (m - (j + 1)) ≤ 20000000000 := by omega
    have : ((4 * (m - (j + 1)) : ℕ):ℝ) ≤ 20000000000 := by exact_mod_cast this
    linarith
  have he := om_half (k := 4 * (m - (j + 1))) (by norm_num at hk ⊢; linarith)
  have hJ1 : (1:ℝ) ≤ ((j + 1 : ℕ):ℝ) := by exact_mod_cast (by omega : 1 ≤ j + 1)
  have hJ2 : ((j + 1 : ℕ):ℝ) ≤ 2 ^ 33 := by
    have : ((j + 1 : ℕ):ℝ) ≤ m := by exact_mod_cast hj
    exact this.trans (hmr.trans (by norm_num))
  have hT1 : (1:ℝ) / 345 ≤ 2 / |x| := by rw [div_le_div_iff₀ (by norm_num) hx0]; linarith
  have hT2 : 2 / |x| ≤ 2 ^ 401 := by
    rw [div_le_iff₀ hx0, pow_succ]
    have := mul_le_mul_of_nonneg_left h0 (by positivity : (0:ℝ) ≤ 2 ^ 400 * 2)
    have e : (2:ℝ) ^ 400 * 2 * (1 / 2 ^ 400) = 2 := by field_simp
    rw [e] at this; exact this
  have hB2 : S * b (j + 1) ≤ 2 ^ 513 := by
    have := h.bi.bounds.1
    have h5 : (1 - 1.3e-4) * (S * b (j + 1)) ≤ s.bi.val := (mul_le_mul_of_nonneg_right (by linarith) h.bi.pos.le).trans this
    have h6 := h.lt
    rw [pow_succ]
    generalize (2:ℝ) ^ 512 = w at *
    norm_num at h5 l1
    linarith
  have hb2 : 0 ≤ b (j + 2) := by
    rcases Nat.lt_or_ge (j + 1) m with h | h
    · have := down_ge hx hb (by omega) hxm (show j + 2 ≤ m from h) le_rfl
      rw [hb.start] at this; linarith
    · rw [show j + 2 = m + 1 by omega, hb.top]
  have hP2 : S * b (j + 2) ≤ 2 ^ 513 := by
    have h5 := (abs_le.1 h.bip).1
    have h7 : (om ^ (4 * (m - (j + 1))) - 1) * (S * b (j + 1 + 1)) ≤ 1.3e-4 * (S * b (j + 1 + 1)) :=
      mul_le_mul_of_nonneg_right he (mul_nonneg h.pos.le hb2)
    have h6 := h.plt
    have h8 := mul_nonneg h.pos.le hb2
    rw [pow_succ]
    rw [show j + 1 + 1 = j + 2 from rfl] at h5 h7
    generalize (2:ℝ) ^ 512 = w at *
    norm_num at h7
    linarith
  have p1 := gr_mul hJ ht ⟨le_trans (b := 1 / 345) (by
      rw [div_le_div_iff₀ (by positivity) (by norm_num), one_mul, one_mul]
      calc (345:ℝ) ≤ 2 ^ 9 := by norm_num
        _ ≤ 2 ^ 1000 := pow_le_pow_right₀ (by norm_num) (by norm_num)) (by nlinarith), by
      calc _ ≤ (2:ℝ) ^ 33 * 2 ^ 401 := by gcongr
        _ = 2 ^ 434 := by rw [← pow_add]
        _ ≤ 2 ^ 1000 := pow_le_pow_right₀ (by norm_num) (by norm_num)⟩ (by norm_num)
  have hlo2 : (1:ℝ) / 1000 ≤ ((j + 1 : ℕ):ℝ) * (2 / |x|) * (S * b (j + 1)) := by
    have : (1:ℝ) * (1 / 345) * 0.36 ≤ ((j + 1 : ℕ):ℝ) * (2 / |x|) * (S * b (j + 1)) := by gcongr
    refine le_trans (by norm_num) this
  have hhi2 : ((j + 1 : ℕ):ℝ) * (2 / |x|) * (S * b (j + 1)) ≤ 2 ^ 947 := by
    have : ((j + 1 : ℕ):ℝ) * (2 / |x|) * (S * b (j + 1)) ≤ 2 ^ 33 * 2 ^ 401 * 2 ^ 513 := by
      have := h.bi.pos
      gcongr
    rw [← pow_add, ← pow_add] at this; exact this
  have t1000 : (1:ℝ) / 2 ^ 1000 ≤ 1 / 1000 := by
      rw [div_le_div_iff₀ (by positivity) (by norm_num), one_mul, one_mul]
      calc (1000:ℝ) ≤ 2 ^ 10 := by norm_num
        _ ≤ 2 ^ 1000 := pow_le_pow_right₀ (by norm_num) (by norm_num)
  have p2 := gr_mul p1 h.bi ⟨t1000.trans hlo2, hhi2.trans (pow_le_pow_right₀ (by norm_num) (by norm_num))⟩ (by
    push_cast at hk ⊢; norm_num at hk ⊢; linarith)
  have hS : ((j + 1 : ℕ):ℝ) * (2 / |x|) * (S * b (j + 1)) + S * b (j + 2) = S * b j := by rw [hb.step j hj]; ring
  have hhi3 : S * b j ≤ 2 ^ 950 := by
    rw [← hS]
    calc _ ≤ (2:ℝ) ^ 947 + 2 ^ 947 := add_le_add hhi2 (hP2.trans (pow_le_pow_right₀ (by norm_num) (by norm_num)))
      _ = 2 ^ 948 := by rw [← two_mul, ← pow_succ']
      _ ≤ _ := pow_le_pow_right₀ (by norm_num) (by norm_num)
  have p3 := gr_add (B := S * b (j + 2)) p2 h.pf (h.bip.trans (mul_le_mul_of_nonneg_right (sub_le_sub_right (om_mono (by omega)) 1) (mul_nonneg h.pos.le hb2)))
    ⟨by rw [hS]; exact t1000.trans (le_trans (by norm_num) l0), by rw [hS]; exact hhi3.trans (pow_le_pow_right₀ (by norm_num) (by norm_num))⟩ (by
    push_cast at hk ⊢; norm_num at hk ⊢; linarith)
  rw [hS, show 0 + 1 + 1 + 4 * (m - (j + 1)) + 1 + 1 = 4 * (m - j) by omega] at p3
  exact ⟨p3, l1, l0, hhi3⟩

end Bes
end Verif
