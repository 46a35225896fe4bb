import Verif.Proofs.BesselInF2

namespace Verif
namespace Bes
open F64

theorem in_step {x : ℝ} {n m : ℕ} {b : ℕ → ℝ} {tox : F64} {j : ℕ} {s : IState F64} {S : ℝ} (hb : Downward (-1) x m b)
    (h0 : 1 / 2 ^ 400 ≤ |x|) (h1 : |x| ≤ 690) (ht : Rel tox (2 / |x|) (om ^ 1 - 1)) (hm : m ≤ 5000000000) (hxm : |x| ≤ m) (hj : j < m)
    (hnm : n ≤ m) (hr : 1 / 2 ^ 1019 * b 0 ≤ b n) (h : LInv n m b (j + 1) s S) : ∃ S', LInv n m b j (inStep tox n (j + 1) s) S' := by
  obtain ⟨p, l1, l0, hi⟩ := in_new hb h0 h1 ht hm hxm hj h
  have hx0 : 0 < |x| := lt_of_lt_of_le (by positivity) h0
  have hx : x ≠ 0 := abs_pos.1 hx0
  have W := p512
  have W0 : (0:ℝ) < 2 ^ 512 := by positivity
  have hk : ∀ q, ((4 * (m - q) : ℕ):ℝ) ≤ 1e12 := by
    intro q
    have : 4 * (m - q) ≤ 20000000000 := by omega
    have : ((4 * (m - q) : ℕ):ℝ) ≤ 20000000000 := by exact_mod_cast this
    refine this.trans (by norm_num)
  have e0 := om_half (hk j)
  have e1 := om_half (hk (j + 1))
  have en := om_half (hk n)
  have pl : 0.35 ≤ (Arith.ofNat (j + 1) * tox * s.bi + s.bip).val := by
    refine le_trans ?_ p.bounds.1
    norm_num at e0 l0 ⊢; nlinarith
  have bl : 0.35 ≤ s.bi.val := by
    refine le_trans ?_ h.bi.bounds.1
    norm_num at e1 l1 ⊢; nlinarith
  have t1000 : (1:ℝ) / 2 ^ 1000 ≤ 0.35 := by
    refine le_trans (b := 1 / 2 ^ 2) (one_div_le_one_div_of_le (by positivity) (pow_le_pow_right₀ (by norm_num) (by norm_num))) (by norm_num)
  have hbig := big_iff p.fin (t1000.trans pl)
  by_cases hB : decide (IEXP < (Arith.frexp (Arith.ofNat (j + 1) * tox * s.bi + s.bip)).2) = true
  · have hge := hbig.1 hB
    have es : inStep tox n (j + 1) s = ⟨if j + 1 = n then Arith.ldexp s.bi (-IEXP) else Arith.ldexp s.ans (-IEXP),
        Arith.ldexp (Arith.ofNat (j + 1) * tox * s.bi + s.bip) (-IEXP), Arith.ldexp s.bi (-IEXP)⟩ := by
      unfold inStep; simp only [hB, if_true]
    rw [es]
    generalize Arith.ofNat (j + 1) * tox * s.bi + s.bip = q at *
    have w1022 : (1:ℝ) / 2 ^ 1022 ≤ 0.35 / 2 ^ 512 := by
      rw [div_le_div_iff₀ (by positivity) W0]
      have : (2:ℝ) ^ 1022 = 2 ^ 510 * 2 ^ 512 := by rw [← pow_add]
      rw [this, ← mul_assoc]
      refine mul_le_mul_of_nonneg_right ?_ W0.le
      have : (2:ℝ) ^ 2 ≤ 2 ^ 510 := pow_le_pow_right₀ (by norm_num) (by norm_num)
      generalize (2:ℝ) ^ 510 = w at *
      norm_num at this ⊢; linarith only [this]
    obtain ⟨qf, qv⟩ := scale_exact p.fin (w1022.trans (div_le_div_of_nonneg_right pl W0.le))
    obtain ⟨bf, bv⟩ := scale_exact h.bi.fin (w1022.trans (div_le_div_of_nonneg_right bl W0.le))
    have hSj : 0.99 ≤ S * b j / 2 ^ 512 := by
      rw [le_div_iff₀ W0]
      have := p.bounds.2
      generalize (2:ℝ) ^ 512 = w at *
      norm_num at *
      nlinarith
    have bS := rel_scale h.bi W0 bf bv
    refine ⟨S / 2 ^ 512, div_pos h.pos W0, ⟨j, le_rfl, hj.le, ?_⟩, ?_, bf, ?_, ?_, ?_, ?_, ?_⟩
    · rw [div_mul_eq_mul_div]; exact le_trans (by norm_num) hSj
    · rw [div_mul_eq_mul_div]; exact rel_scale p W0 qf qv
    · rw [div_mul_eq_mul_div]
      exact (gr_mono bS (by omega)).err
    · show (Arith.ldexp q (-IEXP)).val < 2 ^ 512
      rw [qv, div_lt_iff₀ W0, ← pow_add]
      have h3 : q.val ≤ 2 * 2 ^ 950 := by
        refine p.bounds.2.trans (mul_le_mul ?_ hi p.pos.le (by norm_num))
        norm_num at e0 ⊢; linarith
      refine lt_of_le_of_lt h3 ?_
      rw [← pow_succ']
      exact pow_lt_pow_right₀ (by norm_num) (by norm_num)
    · show (Arith.ldexp s.bi (-IEXP)).val < 2 ^ 512
      rw [bv]
      exact lt_of_le_of_lt (div_le_self (by norm_num at bl; linarith) W) h.lt
    · intro hjn
      show Rel (if j + 1 = n then _ else _) _ _
      split_ifs with hn
      · rw [div_mul_eq_mul_div, ← hn]; exact bS
      · have ha := h.a1 (by omega)
        have hbn : 3 / 4 * b j ≤ b 0 := down_ge hx hb (by omega) hxm (Nat.zero_le j) hj.le
        have hlow : 1 / 2 ^ 1022 ≤ s.ans.val / 2 ^ 512 := by
          have c1 : 1 / 2 ^ 1019 * (3 / 4 * b j) ≤ b n := (mul_le_mul_of_nonneg_left hbn (by positivity)).trans hr
          have c2 : 1 / 2 ^ 1019 * (3 / 4) * (S * b j / 2 ^ 512) ≤ S * b n / 2 ^ 512 := by
            have := mul_le_mul_of_nonneg_left c1 (div_pos h.pos W0).le
            calc _ = S / 2 ^ 512 * (1 / 2 ^ 1019 * (3 / 4 * b j)) := by ring
              _ ≤ _ := this
              _ = _ := by ring
          have c3 : 1 / 2 ^ 1019 * (3 / 4) * 0.99 ≤ S * b n / 2 ^ 512 := (mul_le_mul_of_nonneg_left hSj (by positivity)).trans c2
          have c4 : (1 - 1.3e-4) * (S * b n / 2 ^ 512) ≤ s.ans.val / 2 ^ 512 := by
            rw [← mul_div_assoc]
            refine div_le_div_of_nonneg_right (le_trans (mul_le_mul_of_nonneg_right ?_ ha.pos.le) ha.bounds.1) W0.le
            linarith
          have e3 : (1:ℝ) / 2 ^ 1022 = 1 / 2 ^ 1019 / 8 := by
            rw [show (1022:ℕ) = 1019 + 3 from rfl, pow_add, div_div]; norm_num
          rw [e3]
          have : (0:ℝ) < 1 / 2 ^ 1019 := by positivity
          generalize S * b n / 2 ^ 512 = A at *
          generalize s.ans.val / 2 ^ 512 = B at *
          generalize (1:ℝ) / 2 ^ 1019 = w at *
          norm_num at c3 c4
          linarith
        obtain ⟨af, av⟩ := scale_exact ha.fin hlow
        rw [div_mul_eq_mul_div]
        exact rel_scale ha W0 af av
    · intro hjn
      show (if j + 1 = n then _ else _) = (0.0 : F64)
      rw [if_neg (by omega), h.a0 (by omega), scale_zero]
  · rw [Bool.not_eq_true] at hB
    have hlt : (Arith.ofNat (j + 1) * tox * s.bi + s.bip).val < 2 ^ 512 := by
      by_contra hc
      rw [hbig.2 (not_lt.1 hc)] at hB
      exact absurd hB (by decide)
    have es : inStep tox n (j + 1) s = ⟨if j + 1 = n then s.bi else s.ans, Arith.ofNat (j + 1) * tox * s.bi + s.bip, s.bi⟩ := by
      unfold inStep; simp only [hB, Bool.false_eq_true, if_false]
    rw [es]
    obtain ⟨i, i1, i2, i3⟩ := h.low
    refine ⟨S, h.pos, ⟨i, by omega, i2, i3⟩, p, h.bi.fin, (gr_mono h.bi (by omega)).err, hlt, h.lt, ?_, ?_⟩
    · intro hjn
      show Rel (if j + 1 = n then _ else _) _ _
      split_ifs with hn
      · rw [← hn]; exact h.bi
      · exact h.a1 (by omega)
    · intro hjn
      show (if j + 1 = n then _ else _) = (0.0 : F64)
      rw [if_neg (by omega), h.a0 (by omega)]

theorem in_loop {x : ℝ} {n m : ℕ} {b : ℕ → ℝ} {tox : F64} (hb : Downward (-1) x m b)
    (h0 : 1 / 2 ^ 400 ≤ |x|) (h1 : |x| ≤ 690) (ht : Rel tox (2 / |x|) (om ^ 1 - 1)) (hm : m ≤ 5000000000) (hxm : |x| ≤ m)
    (hnm : n ≤ m) (hr : 1 / 2 ^ 1019 * b 0 ≤ b n) : ∀ (j : ℕ) (s : IState F64) (S : ℝ), j ≤ m → LInv n m b j s S → ∃ S', LInv n m b 0 (inDown tox n j s) S'
  | 0, s, S, _, h => ⟨S, h⟩
  | j + 1, s, S, hj, h => by
    obtain ⟨S', h'⟩ := in_step hb h0 h1 ht hm hxm (by omega) hnm hr h
    exact in_loop hb h0 h1 ht hm hxm hnm hr j _ S' (by omega) h'

theorem in_start {n m : ℕ} {b : ℕ → ℝ} {x : ℝ} (hb : Downward (-1) x m b) (hnm : n ≤ m) : LInv n m b m ⟨0.0, 1.0, 0.0⟩ 1 where
  pos := one_pos
  low := ⟨m, le_rfl, le_rfl, by rw [hb.start]; norm_num⟩
  bi := by
    have e : (1.0 : F64).val = 1 := by rw [val_of_int (x := (1.0 : F64)) 1 (by decide +kernel)]; norm_num
    have := gr_exact (a := (1.0 : F64)) (by decide +kernel) (by rw [e]; norm_num)
    rw [e] at this
    rw [hb.start, mul_one, Nat.sub_self]; exact this
  pf := by decide +kernel
  bip := by
    have e : (0.0 : F64).val = 0 := by rw [val_of_int (x := (0.0 : F64)) 0 (by decide +kernel)]; norm_num
    rw [hb.top, e]; simp
  lt := by
    show (1.0 : F64).val < 2 ^ 512
    rw [val_of_int (x := (1.0 : F64)) 1 (by decide +kernel)]
    push_cast
    exact one_lt_pow₀ (by norm_num) (by norm_num)
  plt := by
    show (0.0 : F64).val < 2 ^ 512
    rw [val_of_int (x := (0.0 : F64)) 0 (by decide +kernel)]; push_cast; positivity
  a1 := fun h => by omega
  a0 := fun _ => rfl

end Bes
end Verif
