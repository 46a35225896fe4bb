import Verif.Proofs.BesselYn4
import Verif.Proofs.BesselJnF

/-! One step of the upward recurrence for `Y_n` in binary64. -/

namespace Verif
namespace BesX
open Real F64 Bes

theorem rn_big {y : ℝ} (h : |y| ≤ 2 ^ 1020) : |RN y - y| ≤ |y| / 2 ^ 53 + 1 / 2 ^ 1075 :=
  RN_err' (lt_of_le_of_lt h (by rw [HUGE_eq]; exact pow_lt_pow_right₀ (by norm_num) (by norm_num)))

theorem fin_big {a : F64} (h : |a.val| ≤ 2 ^ 1020) : a.isFin = true := by
  rw [isFin_iff_val]
  exact lt_of_le_of_lt h (by rw [HUGE_eq]; exact pow_lt_pow_right₀ (by norm_num) (by norm_num))

/-- the factor `(k+1)·(2/x)` -/
theorem coef_big {ax : F64} {k : ℕ} (hf : ax.isFin = true) (hk : k + 1 ≤ 2 ^ 32) (hl : 1 / 2 ^ 960 ≤ ax.val) (hu : ax.val ≤ 2 ^ 100) :
    (F64.ofNat (k + 1) * (2.0 / ax)).isFin = true ∧
    |(F64.ofNat (k + 1) * (2.0 / ax)).val - (k + 1 : ℕ) * (2 / ax.val)| ≤ 2.01 / 2 ^ 53 * ((k + 1 : ℕ) * (2 / ax.val)) := by
  have hX0 : 0 < ax.val := lt_of_lt_of_le (by positivity) hl
  obtain ⟨kf, kv⟩ := ofNat_val (n := k + 1) (hk.trans (by norm_num))
  have v2 : (2.0 : F64).val = 2 := by rw [val_of_int (x := (2.0 : F64)) 2 (by decide +kernel)]; norm_num
  have hd := (div_spec (a := (2.0 : F64)) (by decide +kernel) hf hX0.ne').2.1
  rw [v2] at hd
  have q0 : 0 < 2 / ax.val := by positivity
  have qu : 2 / ax.val ≤ 2 ^ 961 := by
    rw [div_le_iff₀ hX0]
    calc (2:ℝ) = 2 ^ 961 * (1 / 2 ^ 960) := by rw [show (961:ℕ) = 960 + 1 by rfl, pow_add]; field_simp
      _ ≤ _ := by gcongr
  have ql : 1 / 2 ^ 100 ≤ 2 / ax.val := by
    rw [div_le_div_iff₀ (by positivity) hX0]; linarith [(by positivity : (0:ℝ) < 2 ^ 100)]
  have k0 : (1:ℝ) ≤ (k + 1 : ℕ) := by push_cast; linarith [(Nat.cast_nonneg k : (0:ℝ) ≤ k)]
  have k32 : ((k + 1 : ℕ):ℝ) ≤ 2 ^ 32 := by exact_mod_cast hk
  have sm : (1:ℝ) / 2 ^ 1022 ≤ 1 / 2 ^ 101 := one_div_le_one_div_of_le (by positivity) (pow_le_pow_right₀ (by norm_num) (by norm_num))
  have hlt : ∀ m : ℕ, m < 1024 → (2:ℝ) ^ m < HUGE := fun m hm => by rw [HUGE_eq]; exact pow_lt_pow_right₀ (by norm_num) hm
  have s100 : (1:ℝ) / 2 ^ 101 ≤ 1 / 2 ^ 100 := one_div_le_one_div_of_le (by positivity) (pow_le_pow_right₀ (by norm_num) (by norm_num))
  have r1 := RN_err_rel (x := 2 / ax.val) (by rw [abs_of_pos q0]; exact lt_of_le_of_lt qu (hlt 961 (by norm_num)))
    (by rw [abs_of_pos q0]; exact sm.trans (s100.trans ql))
  rw [← hd, abs_of_pos q0] at r1
  set t := (2.0 / ax).val with ht
  have tl := (abs_le.1 r1).1
  have tu := (abs_le.1 r1).2
  have t0 : 1 / 2 * (2 / ax.val) ≤ t := by
    have : (2 / ax.val) / 2 ^ 53 ≤ (2 / ax.val) / 2 := div_le_div_of_nonneg_left q0.le (by norm_num) (by norm_num)
    linarith
  have t1 : t ≤ 2 * (2 / ax.val) := by
    have : (2 / ax.val) / 2 ^ 53 ≤ (2 / ax.val) / 2 := div_le_div_of_nonneg_left q0.le (by norm_num) (by norm_num)
    linarith
  have tp : 0 < t := lt_of_lt_of_le (by positivity) t0
  have tu' : t ≤ 2 ^ 962 := by
    rw [show (962:ℕ) = 961 + 1 by rfl, pow_succ, mul_comm]; exact t1.trans (mul_le_mul_of_nonneg_left qu (by norm_num))
  have tf : (2.0 / ax).isFin = true := fin_big (by
    rw [← ht, abs_of_pos tp]; exact tu'.trans (pow_le_pow_right₀ (by norm_num) (by norm_num)))
  have hm := (mul_spec kf tf).2.1
  rw [kv, ← ht] at hm
  have kt0 : 0 < ((k + 1 : ℕ):ℝ) * t := by positivity
  have ktu : ((k + 1 : ℕ):ℝ) * t ≤ 2 ^ 994 := by
    rw [show (994:ℕ) = 32 + 962 by rfl, pow_add]
    exact mul_le_mul k32 tu' tp.le (by positivity)
  have ktl : 1 / 2 ^ 101 ≤ ((k + 1 : ℕ):ℝ) * t := by
    have h1 : 1 / 2 ^ 101 ≤ t := by
      have : (1:ℝ) / 2 ^ 101 = 1 / 2 * (1 / 2 ^ 100) := by rw [show (101:ℕ) = 100 + 1 by rfl, pow_succ]; ring
      rw [this]; linarith
    exact h1.trans (le_mul_of_one_le_left tp.le k0)
  have r2 := RN_err_rel (x := ((k + 1 : ℕ):ℝ) * t) (by rw [abs_of_pos kt0]; exact lt_of_le_of_lt ktu (hlt 994 (by norm_num)))
    (by rw [abs_of_pos kt0]; exact sm.trans ktl)
  rw [← hm, abs_of_pos kt0] at r2
  set c := (F64.ofNat (k + 1) * (2.0 / ax)).val with hc
  set C := ((k + 1 : ℕ):ℝ) * (2 / ax.val) with hC
  have C0 : 0 < C := by positivity
  have r3 : |((k + 1 : ℕ):ℝ) * t - C| ≤ C / 2 ^ 53 := by
    rw [hC, ← mul_sub, abs_mul, abs_of_pos (by linarith), mul_div_assoc]
    exact mul_le_mul_of_nonneg_left r1 (by linarith)
  constructor
  · refine fin_big ?_
    rw [← hc]
    have := abs_le.1 r2
    have h53 : ((k + 1 : ℕ):ℝ) * t / 2 ^ 53 ≤ ((k + 1 : ℕ):ℝ) * t := div_le_self kt0.le (by norm_num)
    have h2 : (2:ℝ) * 2 ^ 994 ≤ 2 ^ 1020 := by
      rw [mul_comm, ← pow_succ]; exact pow_le_pow_right₀ (by norm_num) (by norm_num)
    rw [abs_le]
    generalize (2:ℝ) ^ 994 = P at *
    generalize (2:ℝ) ^ 1020 = R at *
    constructor <;> linarith [this.1, this.2]
  · have r4 := abs_sub_le c (((k + 1 : ℕ):ℝ) * t) C
    have : ((k + 1 : ℕ):ℝ) * t ≤ 1.001 * C := by
      have h := (abs_le.1 r3).2
      have : C / 2 ^ 53 ≤ 0.001 * C := by
        rw [div_le_iff₀ (by positivity)]; norm_num; linarith
      linarith
    have : ((k + 1 : ℕ):ℝ) * t / 2 ^ 53 ≤ 1.001 * C / 2 ^ 53 := div_le_div_of_nonneg_right this (by positivity)
    have e : 2.01 / 2 ^ 53 * C = 1.001 * C / 2 ^ 53 + C / 2 ^ 53 + 0.009 * C / 2 ^ 53 := by ring
    have : 0 ≤ 0.009 * C / 2 ^ 53 := by positivity
    linarith

theorem step_big {ax a b : F64} {k : ℕ} (hf : ax.isFin = true) (hk : k + 1 ≤ 2 ^ 32) (hl : 1 / 2 ^ 960 ≤ ax.val) (hu : ax.val ≤ 2 ^ 100)
    (hT : |(k + 1 : ℕ) * (2 / ax.val) * b.val| ≤ 2 ^ 1010) (hb : |b.val| ≤ 2 ^ 1010) (ha : |a.val| ≤ 2 ^ 1010) :
    |(F64.ofNat (k + 1) * (2.0 / ax) * b - a).val - ((k + 1 : ℕ) * (2 / ax.val) * b.val - a.val)| ≤
      (4.1 * |(k + 1 : ℕ) * (2 / ax.val) * b.val| + 1.1 * |a.val|) / 2 ^ 53 + 1 / 2 ^ 1073 := by
  obtain ⟨cf, cv⟩ := coef_big hf hk hl hu
  have hX0 : 0 < ax.val := lt_of_lt_of_le (by positivity) hl
  have C0 : 0 < ((k + 1 : ℕ):ℝ) * (2 / ax.val) := by positivity
  set C := ((k + 1 : ℕ):ℝ) * (2 / ax.val) with hC
  set c := F64.ofNat (k + 1) * (2.0 / ax) with hc
  have hbig : (2:ℝ) ^ 1010 ≤ 2 ^ 1020 := pow_le_pow_right₀ (by norm_num) (by norm_num)
  have hbig2 : (8:ℝ) * 2 ^ 1010 ≤ 2 ^ 1020 := by
    rw [show (1020:ℕ) = 10 + 1010 by rfl, pow_add]
    exact mul_le_mul_of_nonneg_right (by norm_num) (by positivity)
  have af : a.isFin = true := fin_big (ha.trans hbig)
  have bf : b.isFin = true := fin_big (hb.trans hbig)
  set T := |C * b.val| with hTd
  have T0 : 0 ≤ T := abs_nonneg _
  have d1 : |c.val * b.val - C * b.val| ≤ 2.01 / 2 ^ 53 * T := by
    rw [← sub_mul, abs_mul, hTd, abs_mul, abs_of_pos C0]
    calc _ ≤ (2.01 / 2 ^ 53 * C) * |b.val| := by gcongr
      _ = _ := by ring
  have m1 : |c.val * b.val| ≤ 1.001 * T := by
    have t := abs_add_le (c.val * b.val - C * b.val) (C * b.val)
    rw [sub_add_cancel] at t
    have : 2.01 / 2 ^ 53 * T ≤ 0.001 * T := mul_le_mul_of_nonneg_right (by norm_num) T0
    linarith
  have big1 : |c.val * b.val| ≤ 2 ^ 1020 := by
    generalize (2:ℝ) ^ 1010 = P at *
    generalize (2:ℝ) ^ 1020 = R at *
    linarith
  have r1 := rn_big big1
  rw [← (mul_spec cf bf).2.1] at r1
  have w1 : (1:ℝ) / 2 ^ 1075 ≤ 1 := by
    rw [div_le_one (by positivity)]; exact one_le_pow₀ (by norm_num)
  have P1 : (1:ℝ) ≤ 2 ^ 1010 := one_le_pow₀ (by norm_num)
  have w3 : (1:ℝ) / 2 ^ 1073 = 4 * (1 / 2 ^ 1075) := by rw [show (1075:ℕ) = 1073 + 2 by rfl, pow_add]; field_simp; norm_num
  have w0 : (0:ℝ) ≤ 1 / 2 ^ 1075 := by positivity
  rw [w3]
  generalize hη : (1:ℝ) / 2 ^ 1075 = η at *
  have r1' : |(c * b).val - c.val * b.val| ≤ 1.001 * T / 2 ^ 53 + η := r1.trans (add_le_add_left (div_le_div_of_nonneg_right m1 (by positivity)) _)
  have T53 : 1.001 * T / 2 ^ 53 ≤ 0.001 * T := by rw [div_le_iff₀ (by positivity)]; norm_num; linarith
  have m2 : |(c * b).val| ≤ 1.002 * T + η := by
    have t := abs_add_le ((c * b).val - c.val * b.val) (c.val * b.val)
    rw [sub_add_cancel] at t
    linarith
  have pf : (c * b).isFin = true := fin_big (by
    generalize (2:ℝ) ^ 1010 = P at *
    generalize (2:ℝ) ^ 1020 = R at *
    linarith)
  have m3 : |(c * b).val - a.val| ≤ 1.002 * T + η + |a.val| := (abs_sub _ _).trans (by linarith)
  have r2 := rn_big (y := (c * b).val - a.val) (by
    generalize (2:ℝ) ^ 1010 = P at *
    generalize (2:ℝ) ^ 1020 = R at *
    linarith)
  rw [← (sub_spec pf af).2, hη] at r2
  have e : (c * b - a).val - (C * b.val - a.val) = ((c * b - a).val - ((c * b).val - a.val)) + ((c * b).val - c.val * b.val) + (c.val * b.val - C * b.val) := by ring
  rw [e]
  refine (abs_add_three _ _ _).trans ?_
  have r3 : |(c * b).val - a.val| / 2 ^ 53 ≤ (1.002 * T + η + |a.val|) / 2 ^ 53 := div_le_div_of_nonneg_right m3 (by positivity)
  have h4 : η / 2 ^ 53 ≤ η := div_le_self w0 (by norm_num)
  have e5 : (1.002 * T + η + |a.val|) / 2 ^ 53 + 1.001 * T / 2 ^ 53 + 2.01 / 2 ^ 53 * T = (4.013 * T + |a.val|) / 2 ^ 53 + η / 2 ^ 53 := by ring
  have h6 : (4.013 * T + |a.val|) / 2 ^ 53 ≤ (4.1 * T + 1.1 * |a.val|) / 2 ^ 53 :=
    div_le_div_of_nonneg_right (by linarith [abs_nonneg a.val]) (by positivity)
  linarith only [r2, r3, r1', d1, h4, e5, h6, w0]

theorem rstep {ax a b : F64} {n : ℕ} (hf : ax.isFin = true) (hn : n ≤ 2 ^ 32) (hl : 1 / 2 ^ 960 ≤ ax.val) (hu : ax.val ≤ 2 ^ 100) :
    RStep ax.val (fun k => (upSeq (2.0 / ax) a b k).val) (1 / 2 ^ 1073) (2 ^ 1010) n := by
  intro k hk hT h1 h0
  simp only at hT h1 h0
  unfold vd
  simp only []
  rw [upSeq_succ]
  exact step_big hf (by omega) hl hu hT h1 h0

end BesX
end Verif
