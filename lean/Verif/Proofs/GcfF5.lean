import Verif.Proofs.GcfF4
import Verif.Proofs.IncGamma2

/-! The loop of `gcf` in binary64: accuracy of its result. -/

namespace Verif
namespace Gcf
open F64

theorem del_stop {del : F64} (hf : del.isFin = true) {Q : ℝ} (hQ : |del.val - Q| ≤ 4008 / 2^53 * Q) (Q0 : 0 < Q)
    (hQ1 : Q ≤ 10^20)
    (h : F64.lt (F64.abs (del - 1.0)) EPS = true) : |Q - 1| ≤ 4020 / 2^53 := by
  have fo : (1.0 : F64).isFin = true := by decide +kernel
  have hs := (sub_spec hf fo).2
  rw [one_val] at hs
  have h1 := (lt_iff.1 h).2.2
  rw [val_abs, hs, lit_EPS_val] at h1
  have hd : |del.val - 1| ≤ 10^30 := by
    obtain ⟨g1, g2⟩ := abs_le.1 hQ
    rw [abs_le]
    norm_num at *
    constructor <;> linarith
  obtain ⟨_, r2⟩ := rn_mod (le_refl |del.val - 1|) (hd.trans (by norm_num))
  have h3 : |del.val - 1| ≤ |RN (del.val - 1) - (del.val - 1)| + |RN (del.val - 1)| := by
    have := abs_sub (RN (del.val - 1)) (RN (del.val - 1) - (del.val - 1))
    rw [sub_sub_cancel] at this; linarith
  have h4 : |del.val - 1| ≤ 3 / 2^53 := by
    generalize |del.val - 1| = w at *
    generalize |RN (del.val - 1)| = v at *
    norm_num at h1 r2 h3 ⊢
    linarith
  obtain ⟨g1, g2⟩ := abs_le.1 hQ
  obtain ⟨k1, k2⟩ := abs_le.1 h4
  rw [abs_le]
  norm_num at *
  constructor <;> linarith

theorem gcfLoop_acc {a : F64} {y : ℝ} (ha : 0 < a.val) (ha1 : a.val < 100) (hy : a.val + 99/100 ≤ y) (hy1 : y ≤ 400) :
    ∀ (n k : ℕ) (b c d h : F64), k + n = 10000 → Inv a y k b c d h →
      ∃ m ≤ 10000, (gcfLoop a n (k + 1) b c d h).isFin = true ∧
        |(gcfLoop a n (k + 1) b c d h).val - H a.val y phi m| ≤ (m + 1) * (4010 / 2^53) * H a.val y phi m ∧
        (m = 10000 ∨ ∃ m', m = m' + 1 ∧ |C a.val y phi m / D a.val y m - 1| ≤ 4020 / 2^53) := by
  intro n
  induction n with
  | zero => intro k b c d h hk I; exact ⟨k, by omega, I.hf, I.he, Or.inl (by omega)⟩
  | succ n ih =>
    intro k b c d h hk I
    obtain ⟨I', fd, hd⟩ := inv_step ha ha1 hy hy1 (by omega) I rfl rfl rfl rfl rfl rfl rfl
    have D1 := D_ge ha hy (k + 1)
    have C1 := C_ge ha hy phi_pos phi_half (k + 1)
    have k0 : (0:ℝ) ≤ ((k + 1 : ℕ) : ℝ) := Nat.cast_nonneg _
    have hDk := D_ge ha hy k
    have hCk := C_ge ha hy phi_pos phi_half k
    have D2 := D_le (x := y) ha ha1 hy1 (show k + 1 ≤ 10000 by omega) (r := D a.val y k) (by linarith)
    have C2 := D_le (x := y) ha ha1 hy1 (show k + 1 ≤ 10000 by omega) (r := C a.val y phi k) (by linarith)
    obtain ⟨w1, w2⟩ := ratio_bd (by linarith : 1 ≤ C a.val y phi (k + 1)) (by linarith : 1 ≤ D a.val y (k + 1)) C2 D2
    unfold gcfLoop
    simp only [ar_ofNat, ar_lt, ar_abs]
    split
    · rename_i hs
      refine ⟨k + 1, by omega, I'.hf, by have := I'.he; push_cast at this ⊢; exact this, Or.inr ⟨k, rfl, ?_⟩⟩
      exact del_stop fd hd (div_pos (by linarith) (by linarith)) w2 hs
    · exact ih _ _ _ _ _ (by omega) I'

theorem loop_final {a y : ℝ} (ha : 0 < a) (ha1 : a < 100) (hy : a + 99/100 ≤ y) (hy1 : y ≤ 400) {m : ℕ} (hm : m ≤ 10000)
    (h : m = 10000 ∨ ∃ m', m = m' + 1 ∧ |C a y phi m / D a y m - 1| ≤ 4020 / 2^53) :
    |H a y phi m - F a y| ≤ 1 / 10^10 * F a y := by
  have hF := F_ge ha ha1 hy
  have hb0 := bk_ge hy 0
  have hb : bk a y 0 ≤ 401 := by unfold bk; push_cast; linarith
  push_cast at hb0
  have hF2 : 1 / 21000 ≤ F a y := by
    have : 1 / (401 : ℝ) ≤ 1 / bk a y 0 := one_div_le_one_div_of_le (by linarith) hb
    norm_num at *; linarith
  have p0 := phi_pos
  have p1 := phi_le
  have pb : 0 ≤ phi * bk a y 0 ∧ phi * bk a y 0 ≤ 1 / 10^90 := by
    refine ⟨mul_nonneg p0.le (by linarith), ?_⟩
    have : phi * bk a y 0 ≤ 1 / 10^100 * 401 := mul_le_mul p1 hb (by linarith) (by norm_num)
    refine this.trans (by norm_num)
  have close : ∀ k, |H a y phi k - f a y (k + 1)| ≤ 2 / 10^90 := by
    intro k
    rw [H_f ha hy phi_pos phi_half]
    have f1 := f_ge ha ha1 hy k
    have f2 := f_le ha hy k
    have f0 : 0 ≤ f a y (k + 1) := le_trans (by positivity) f1
    have e : f a y (k + 1) * (1 - phi * bk a y 0) + phi - f a y (k + 1) = phi - f a y (k + 1) * (phi * bk a y 0) := by ring
    rw [e]
    have q1 : f a y (k + 1) * (phi * bk a y 0) ≤ 1.02 * (1 / 10^90) := mul_le_mul f2 pb.2 pb.1 (by norm_num)
    have q0 : 0 ≤ f a y (k + 1) * (phi * bk a y 0) := mul_nonneg f0 pb.1
    generalize f a y (k + 1) * (phi * bk a y 0) = w at *
    rw [abs_le]
    norm_num at p1 q1 ⊢
    constructor <;> linarith
  rcases h with rfl | ⟨m', rfl, hQ⟩
  · have h1 := err_late ha ha1 hy
    have h2 := close 10000
    have e : H a y phi 10000 - F a y = (H a y phi 10000 - f a y (10000 + 1)) - (F a y - f a y 10001) := by ring
    rw [e]
    refine (abs_sub _ _).trans ((add_le_add h2 h1).trans ?_)
    norm_num at *
    linarith
  · obtain ⟨H1, H2⟩ := H_bounds ha ha1 hy hy1 m'
    have dH : H a y phi (m' + 1) = H a y phi m' * (C a y phi (m' + 1) / D a y (m' + 1)) := rfl
    have s : |H a y phi (m' + 1) - H a y phi m'| ≤ 4020 / 2^53 * H a y phi m' := by
      have e : H a y phi (m' + 1) - H a y phi m' = (C a y phi (m' + 1) / D a y (m' + 1) - 1) * H a y phi m' := by rw [dH]; ring
      rw [e, abs_mul, abs_of_pos (show 0 < H a y phi m' by linarith)]
      exact mul_le_mul_of_nonneg_right hQ (by linarith)
    have c1 := close m'
    have c2 := close (m' + 1)
    have ep := err_post ha hy hm
    have s2 : |f a y (m' + 1 + 1) - f a y (m' + 1)| ≤ 4020 / 2^53 * H a y phi m' + 4 / 10^90 := by
      have e : f a y (m' + 1 + 1) - f a y (m' + 1) = (H a y phi (m' + 1) - H a y phi m') - (H a y phi (m' + 1) - f a y (m' + 1 + 1)) + (H a y phi m' - f a y (m' + 1)) := by ring
      rw [e]
      refine (abs_add_le _ _).trans ?_
      have := abs_sub (H a y phi (m' + 1) - H a y phi m') (H a y phi (m' + 1) - f a y (m' + 1 + 1))
      refine (add_le_add (this.trans (add_le_add s c2)) c1).trans ?_
      apply le_of_eq; ring
    have s3 : |H a y phi (m' + 1) - F a y| ≤ 170 * (4020 / 2^53 * H a y phi m' + 4 / 10^90) + 2 / 10^90 := by
      have e : H a y phi (m' + 1) - F a y = (H a y phi (m' + 1) - f a y (m' + 1 + 1)) - (F a y - f a y (m' + 1 + 1)) := by ring
      rw [e]
      refine (abs_sub _ _).trans ?_
      have := mul_le_mul_of_nonneg_left s2 (show (0:ℝ) ≤ 170 by norm_num)
      linarith
    have s4 : H a y phi m' ≤ 1.001 * F a y := by
      have g1 := (abs_le.1 s3).1
      have g2 := (abs_le.1 s3).2
      have g3 := (abs_le.1 s).1
      generalize H a y phi (m' + 1) = A at *
      generalize H a y phi m' = B at *
      generalize F a y = G at *
      clear * - g1 g2 g3 hF2 H1 H2
      norm_num at *
      linarith
    refine s3.trans ?_
    generalize H a y phi m' = B at *
    generalize F a y = G at *
    clear * - s4 hF2
    norm_num at *
    linarith

theorem Bin_init {b : F64} (h1 : 1 ≤ b.val) (h2 : b.val ≤ 2^20) : Bin b b.val := by
  have f0 : ⌊b.val⌋₊ ≠ 0 := by rw [Nat.ne_zero_iff_zero_lt, Nat.floor_pos]; exact h1
  have l1 := Nat.pow_log_le_self 2 f0
  have l2 := Nat.lt_pow_succ_log_self (b := 2) (by norm_num) ⌊b.val⌋₊
  refine ⟨Nat.log 2 ⌊b.val⌋₊, ?_, ?_, ?_, ?_⟩
  · have : ⌊b.val⌋₊ ≤ 2^20 := by
      have := Nat.floor_le_floor h2
      rwa [show ((2:ℝ)^20) = ((2^20 : ℕ) : ℝ) by norm_num, Nat.floor_natCast] at this
    by_contra hc
    have : 2^21 ≤ 2^(Nat.log 2 ⌊b.val⌋₊) := Nat.pow_le_pow_right (by norm_num) (by omega)
    omega
  · have : ((2^(Nat.log 2 ⌊b.val⌋₊) : ℕ) : ℝ) ≤ (⌊b.val⌋₊ : ℝ) := by exact_mod_cast l1
    push_cast at this
    exact this.trans (Nat.floor_le (by linarith))
  · have h3 : (⌊b.val⌋₊ : ℝ) + 1 ≤ ((2^(Nat.log 2 ⌊b.val⌋₊).succ : ℕ) : ℝ) := by exact_mod_cast l2
    push_cast at h3
    exact (Nat.lt_floor_add_one _).le.trans h3
  · rw [sub_self, abs_zero]; positivity

theorem c_init : ((1.0 : F64) / FPMIN).isFin = true ∧ ((1.0 : F64) / FPMIN).val = 1 / phi := by
  refine ⟨by decide +kernel, ?_⟩
  have := val_of_int (x := (1.0 : F64) / FPMIN) (2^970) (by decide +kernel)
  rw [this]; unfold phi; push_cast; rw [one_div_one_div]

/-- the initial state -/
theorem inv_init {a x : F64} (ha : 0 < a.val) (ha1 : a.val < 100) (hx : (a + 1.0).val ≤ x.val) (hx1 : x.val ≤ 330) :
    ∃ y, a.val + 99/100 ≤ y ∧ y ≤ 400 ∧ |y - x.val| ≤ 1 / 10^12 ∧
      Inv a y 0 (x + 1.0 - a) (1.0 / FPMIN) (1.0 / (x + 1.0 - a)) (1.0 / (x + 1.0 - a)) := by
  have fa : a.isFin = true := isFin_of_abs (b := 100) (by rw [abs_of_pos ha]; exact ha1.le) (by norm_num)
  have fo : (1.0 : F64).isFin = true := by decide +kernel
  have s1 := (add_spec fa fo).2
  rw [one_val] at s1
  obtain ⟨_, e1⟩ := rn_mod (y := a.val + 1) (Y := 101) (by rw [abs_of_pos (by linarith)]; linarith) (by norm_num)
  rw [← s1] at e1
  have x0 : a.val + 0.999 ≤ x.val := by
    have := (abs_le.1 e1).1
    norm_num at *; linarith
  have fx : x.isFin = true := isFin_of_abs (b := 330) (by rw [abs_of_pos (by norm_num at *; linarith)]; exact hx1) (by norm_num)
  have s2 := (add_spec fx fo).2
  rw [one_val] at s2
  obtain ⟨g2, e2⟩ := rn_mod (y := x.val + 1) (Y := 331) (by rw [abs_of_pos (by norm_num at *; linarith)]; linarith) (by norm_num)
  rw [← s2] at e2 g2
  have f2 : (x + 1.0).isFin = true := by rw [isFin_iff_val]; exact g2
  have s3 := (sub_spec f2 fa).2
  obtain ⟨g3, e3⟩ := rn_mod (y := (x + 1.0).val - a.val) (Y := 332) (by
    obtain ⟨k1, k2⟩ := abs_le.1 e2
    norm_num at k1 k2 x0
    rw [abs_of_pos (by linarith)]; linarith) (by norm_num)
  rw [← s3] at e3 g3
  have f3 : (x + 1.0 - a).isFin = true := by rw [isFin_iff_val]; exact g3
  generalize hb : x + 1.0 - a = b at *
  have ee : |b.val - 1 + a.val - x.val| ≤ 1 / 10^12 := by
    obtain ⟨k1, k2⟩ := abs_le.1 e2
    obtain ⟨l1, l2⟩ := abs_le.1 e3
    rw [abs_le]
    norm_num at *
    constructor <;> linarith
  obtain ⟨k1, k2⟩ := abs_le.1 ee
  norm_num at x0 k1 k2
  have b1 : (1.99:ℝ) ≤ b.val := by norm_num; linarith
  have b2 : b.val ≤ 400 := by linarith
  have hbk : bk a.val (b.val - 1 + a.val) 0 = b.val := by unfold bk; push_cast; ring
  obtain ⟨c1, c2⟩ := c_init
  have d1 := (div_spec (a := (1.0 : F64)) (b := b) fo f3 (by norm_num at b1; linarith)).2.1
  rw [one_val] at d1
  obtain ⟨sp, u1, u2⟩ := d_recip (s := b.val) (D' := b.val) (by rw [sub_self, abs_zero]; norm_num at b1 ⊢; linarith) (by norm_num at b1; linarith) (by norm_num; linarith)
  rw [← d1] at u1 u2
  have eD : D a.val (b.val - 1 + a.val) 0 = b.val := hbk
  have eC : C a.val (b.val - 1 + a.val) phi 0 = 1 / phi := rfl
  have eH : H a.val (b.val - 1 + a.val) phi 0 = 1 / b.val := by show 1 / bk a.val _ 0 = _; rw [hbk]
  have fd : ((1.0 : F64) / b).isFin = true := by rw [isFin_iff_val]; exact u1
  refine ⟨b.val - 1 + a.val, by norm_num at b1; linarith, by linarith, ee, ?_⟩
  refine ⟨by rw [hbk]; exact Bin_init (by norm_num at b1; linarith) (by norm_num; linarith), c1, ?_, fd, by rw [eD]; exact u2, fd, ?_⟩
  · rw [c2, eC, sub_self, abs_zero]
    have := phi_pos
    positivity
  · rw [eH]
    have e : (1.0 / b : F64).val - 1 / b.val = ((1.0 / b : F64).val * b.val - 1) * (1 / b.val) := by field_simp
    rw [e, abs_mul, abs_of_pos (show 0 < 1 / b.val by positivity)]
    refine mul_le_mul_of_nonneg_right (u2.trans ?_) (by positivity)
    norm_num

/-- the continued fraction as computed -/
theorem gcf_frac {a x : F64} (ha : 0 < a.val) (ha1 : a.val < 100) (hx : (a + 1.0).val ≤ x.val) (hx1 : x.val ≤ 330) :
    ∃ y, a.val + 99/100 ≤ y ∧ y ≤ 400 ∧ |y - x.val| ≤ 1 / 10^12 ∧
      (gcfLoop a 10000 1 (x + 1.0 - a) (1.0 / FPMIN) (1.0 / (x + 1.0 - a)) (1.0 / (x + 1.0 - a))).isFin = true ∧
      |(gcfLoop a 10000 1 (x + 1.0 - a) (1.0 / FPMIN) (1.0 / (x + 1.0 - a)) (1.0 / (x + 1.0 - a))).val - F a.val y| ≤ 4.6 / 10^9 * F a.val y := by
  obtain ⟨y, y1, y2, y3, I⟩ := inv_init ha ha1 hx hx1
  refine ⟨y, y1, y2, y3, ?_⟩
  obtain ⟨m, hm, h1, h2, h3⟩ := gcfLoop_acc ha ha1 y1 y2 10000 0 _ _ _ _ rfl I
  refine ⟨h1, ?_⟩
  have h4 := loop_final ha ha1 y1 y2 hm h3
  have hF := F_pos ha (by linarith : 0 < y)
  have hM : (m:ℝ) + 1 ≤ 10001 := by have : (m:ℝ) ≤ 10000 := by exact_mod_cast hm
                                    linarith
  rw [zero_add] at h2
  generalize (gcfLoop a 10000 1 (x + 1.0 - a) (1.0 / FPMIN) (1.0 / (x + 1.0 - a)) (1.0 / (x + 1.0 - a))).val = v at *
  obtain ⟨H1, H2⟩ := H_bounds ha ha1 y1 y2 m
  have h5 : |v - H a.val y phi m| ≤ 10001 * (4010 / 2^53) * H a.val y phi m :=
    h2.trans (mul_le_mul_of_nonneg_right (mul_le_mul_of_nonneg_right hM (by norm_num)) (by linarith))
  have e : v - F a.val y = (v - H a.val y phi m) + (H a.val y phi m - F a.val y) := by ring
  rw [e]
  refine (abs_add_le _ _).trans ((add_le_add h5 h4).trans ?_)
  have := (abs_le.1 h4).2
  generalize H a.val y phi m = B at *
  generalize F a.val y = G at *
  clear * - this hF
  norm_num at *
  linarith

end Gcf
end Verif
