import Verif.Proofs.BesselInF4
import Verif.Props.BesselInAcc

namespace Verif
namespace Bes
open F64 BesX
variable [Cfg] [Libm F64]

omit [Cfg] [Libm F64] in
/-- the last two operations -/
theorem in_final {a i bi : F64} {A I B P t : ℝ} {k0 kn : ℕ} (hB : Rel bi B (om ^ k0 - 1)) (hA : Rel a A (om ^ kn - 1)) (hI : Rel i I 3.3e-13)
    (ht0 : 0 ≤ t) (ht : t ≤ 6e-7) (h0 : om ^ k0 - 1 ≤ 4.01 * t) (hn : om ^ kn - 1 ≤ 4.01 * t) (m1 : Mid (I / B)) (m2 : Mid (A * (I / B)))
    (hP : 0 < P) (hM : |A * (I / B) - P| ≤ 3.1e-13 * P) : Rel (a * (i / bi)) P (7e-13 + 9 * t) := by
  have r1 := rel_div (η := 3.4e-13 + 4.1 * t) hI (hB.mono h0) m1 (by norm_num at ht ⊢; linarith) (by
    norm_num at ht
    rw [div_le_iff₀ (by linarith)]; norm_num; nlinarith) (by norm_num at ht ⊢; linarith)
  have r1' : Rel (i / bi) (I / B) (3.5e-13 + 4.15 * t) := r1.mono (by norm_num at ht ⊢; linarith)
  have r2 := rel_mul (hA.mono hn) r1' m2 (by norm_num at ht ⊢; nlinarith)
  have r2' : Rel (a * (i / bi)) (A * (I / B)) (3.6e-13 + 8.3 * t) := r2.mono (by norm_num at ht ⊢; nlinarith)
  refine ⟨r2'.fin, hP, ?_⟩
  have h3 := r2'.err
  have h4 := (abs_le.1 hM).2
  have h5 : |(a * (i / bi)).val - P| ≤ |(a * (i / bi)).val - A * (I / B)| + |A * (I / B) - P| := abs_sub_le _ _ _
  refine h5.trans ((add_le_add h3 hM).trans ?_)
  have h6 : A * (I / B) ≤ (1 + 3.1e-13) * P := by linarith
  have h7 := mul_le_mul_of_nonneg_left h6 (by norm_num; linarith : (0:ℝ) ≤ 3.6e-13 + 8.3 * t)
  refine (add_le_add_left h7 _).trans ?_
  rw [← mul_assoc, ← add_mul]
  refine mul_le_mul_of_nonneg_right ?_ hP.le
  norm_num at ht ⊢; linarith

omit [Libm F64] in
theorem inStart_F {n m : ℕ} (h2 : 2 ≤ n) (hn : n ≤ 2000000000) (hm : m + 1 = 2 * (n + Nat.sqrt (200 * n))) : inStart F64 n = .ok (m + 1) ∧ m ≤ 5000000000 := by
  have hs : Nat.sqrt (200 * n) ≤ 640000 := by
    have : 200 * n < 640001 * 640001 := by omega
    have := Nat.sqrt_lt.2 this
    omega
  have hu : U32_MAX = 4294967295 := rfl
  rw [inStart_eq (by omega) (by omega), wrapU_ok (by omega)]
  refine ⟨?_, by omega⟩
  show wrapU U32_MAX (2 * (n + Nat.sqrt (200 * n))) = _
  rw [wrapU_ok (by omega), hm]

theorem inMag_acc (L : LibmUlp) {x : F64} {n m : ℕ} (h2 : 2 ≤ n) (hn : n ≤ 2000000000) (hm : m + 1 = 2 * (n + Nat.sqrt (200 * n)))
    (h0 : 1 / 2 ^ 400 ≤ |x.val|) (h690 : |x.val| ≤ 690) (hxm : |x.val| ≤ m - 20) (hr : besselIR 0 |x.val| / 2 ^ 990 ≤ besselIR n |x.val|) :
    ∃ v, inMag n x = .ok v ∧ Rel v (besselIR n |x.val|) (7e-13 + 9 * (m / 2 ^ 53)) := by
  obtain ⟨hst, hmb⟩ := inStart_F h2 hn hm
  have hax : 0 < |x.val| := lt_of_lt_of_le (by positivity) h0
  have hx : x.val ≠ 0 := abs_pos.1 hax
  have p0 := I_pos 0 hax
  have pn := I_pos n hax
  have s20 := sqrt200 h2
  obtain ⟨b, hb⟩ := downward_exists (-1) x.val m
  have hM := miller_I (n := n) (t := m - 20) hx hb (by omega) (by omega) (by omega) (by rw [Nat.cast_sub (by omega)]; exact_mod_cast hxm)
  rw [show m - (m - 20) = 20 by omega] at hM
  have hb0 : 0 < b 0 := down_pos hx hb m 0 (by omega)
  have hxm' : |x.val| ≤ m := by linarith
  have hM' : abs (b n / b 0 * besselIR 0 |x.val| - besselIR n |x.val|) ≤ 3.1e-13 * besselIR n |x.val| := by
    have := mul_le_mul_of_nonneg_right hM p0.le
    rw [← abs_of_pos p0, ← abs_mul, abs_of_pos p0, sub_mul, div_mul_cancel₀ _ p0.ne', mul_assoc, div_mul_cancel₀ _ p0.ne'] at this
    exact this.trans (mul_le_mul_of_nonneg_right (by norm_num) pn.le)
  have hlow : besselIR 0 |x.val| * (1 / 2 ^ 991) ≤ b n / b 0 * besselIR 0 |x.val| := by
    have h3 := (abs_le.1 hM').1
    have e : (1:ℝ) / 2 ^ 991 = 1 / 2 ^ 990 / 2 := by rw [show (991:ℕ) = 990 + 1 from rfl, pow_succ, div_div]
    rw [e]
    rw [div_eq_mul_one_div] at hr
    generalize (1:ℝ) / 2 ^ 990 = w at *
    norm_num at h3
    linarith
  have hratio : 1 / 2 ^ 991 ≤ b n / b 0 := by
    rw [mul_comm] at hlow
    exact le_of_mul_le_mul_right hlow p0
  have hr' : 1 / 2 ^ 1019 * b 0 ≤ b n := by
    rw [← le_div_iff₀ hb0]
    exact le_trans (one_div_le_one_div_of_le (by positivity) (pow_le_pow_right₀ (by norm_num) (by norm_num))) hratio
  obtain ⟨S, hS⟩ := in_loop (n := n) hb h0 h690 (tox_rel h0 h690) hmb hxm' (by omega) hr' m _ 1 le_rfl (in_start hb (by omega))
  have hk : ∀ q, ((4 * (m - q) : ℕ):ℝ) ≤ 4 * m := by
    intro q; exact_mod_cast (by omega : 4 * (m - q) ≤ 4 * m)
  have hmr : (m:ℝ) ≤ 5000000000 := by exact_mod_cast hmb
  have hk' : ∀ q, om ^ (4 * (m - q)) - 1 ≤ 4.01 * (m / 2 ^ 53) := by
    intro q
    have h3 := om_le (k := 4 * (m - q)) ((hk q).trans (by norm_num; linarith))
    have h4 : ((4 * (m - q) : ℕ):ℝ) / 2 ^ 53 ≤ 4 * m / 2 ^ 53 := div_le_div_of_nonneg_right (hk q) (by positivity)
    have h5 : (0:ℝ) ≤ m / 2 ^ 53 := by positivity
    rw [mul_div_assoc] at h4
    norm_num at h3 h4 h5 ⊢
    linarith
  have ht : (m:ℝ) / 2 ^ 53 ≤ 6e-7 := by
    rw [div_le_iff₀ (by positivity)]; refine hmr.trans (by norm_num)
  have hI : Rel (i0 x) (besselIR 0 |x.val|) 3.3e-13 := by
    rw [I0_abs]
    rcases lt_or_ge |x.val| 15 with h | h
    · exact (i0_acc_left h).mono (by norm_num)
    · exact i0_acc_right L h h690
  have hSb : S * b n * (besselIR 0 |x.val| / (S * b 0)) = b n / b 0 * besselIR 0 |x.val| := by
    have := hS.pos.ne'; have := hb0.ne'; field_simp
  obtain ⟨i, -, hi, hi3⟩ := hS.low
  have hlo : 0.36 ≤ S * b 0 := by
    have := mul_le_mul_of_nonneg_left (down_ge hx hb (by omega) hxm' (Nat.zero_le i) hi) hS.pos.le
    norm_num at hi3 ⊢
    linarith
  have hhi : S * b 0 ≤ 2 ^ 513 := by
    have h3 := hS.bi.bounds.1
    have h4 := hS.lt
    have h5 := (hk' 0)
    rw [pow_succ]
    generalize (2:ℝ) ^ 512 = w at *
    norm_num at ht h5 h3 hlo
    nlinarith
  have g1 := I0_ge_one |x.val|
  have g2 : besselIR 0 |x.val| ≤ 2 ^ 996 := (I0_le_exp hax.le).trans (exp690 h690)
  have m1 : Mid (besselIR 0 |x.val| / (S * b 0)) := by
    have hp : 0 < S * b 0 := mul_pos hS.pos hb0
    constructor
    · refine le_trans (b := 1 / 2 ^ 513) (one_div_le_one_div_of_le (by positivity) (pow_le_pow_right₀ (by norm_num) (by norm_num))) ?_
      exact div_le_div₀ (by linarith) g1 hp hhi
    · rw [div_le_iff₀ hp]
      refine g2.trans ?_
      rw [show (1000:ℕ) = 996 + 4 from rfl, pow_add, mul_assoc]
      refine le_mul_of_one_le_right (by positivity) ?_
      norm_num at hlo ⊢; linarith
  have m2 : Mid (S * b n * (besselIR 0 |x.val| / (S * b 0))) := by
    rw [hSb]
    constructor
    · refine le_trans (one_div_le_one_div_of_le (by positivity) (pow_le_pow_right₀ (by norm_num) (by norm_num : 991 ≤ 1000))) (le_trans ?_ hlow)
      exact le_mul_of_one_le_left (by positivity) g1
    · have h3 := (abs_le.1 hM').2
      have h4 : besselIR n |x.val| ≤ besselIR 0 |x.val| := by
        have hI : ∀ k, besselIR k |x.val| ≤ besselIR 0 |x.val| := by
          intro k
          induction k with
          | zero => exact le_rfl
          | succ k ih => exact (I_anti k hax.le).trans ih
        exact hI n
      rw [show (1000:ℕ) = 996 + 4 from rfl, pow_add]
      have w : (0:ℝ) < 2 ^ 996 := by positivity
      generalize (2:ℝ) ^ 996 = w at *
      norm_num at h3 ⊢
      linarith
  have hfin := in_final hS.bi (hS.a1 (by omega)) hI (by positivity) ht (hk' 0) (hk' n) m1 m2 pn (by rw [hSb]; exact hM')
  refine ⟨_, ?_, hfin⟩
  unfold inMag
  rw [hst]
  rfl

end Bes
end Verif
