import Verif.Proofs.GcfF

/-! One step of the loop of `gcf` in binary64. -/

namespace Verif
namespace Gcf
open F64

/-- `b + A` computed from a perturbed quotient: the relative error contracts by `0.99` -/
theorem q_round {y A b b' D' : ℝ} (hy : |y - A| ≤ |A| * (2003.2 / 2^53) + 2 / 10^55) (hb : |b' - b| ≤ 5 / 2^53 * b) (hD : D' = b + A)
    (h1 : |A| ≤ 99/100 * D') (h2 : b ≤ 2 * D') (h3 : 1 ≤ D') (h4 : D' ≤ 10^6) :
    |RN y| < HUGE ∧ |RN (RN y + b')| < HUGE ∧ |RN (RN y + b') - D'| ≤ 1996 / 2^53 * D' := by
  have hA0 := abs_nonneg A
  have hY : |y| ≤ 1.001 * |A| + 2 / 10^55 := by
    have : |y| ≤ |y - A| + |A| := by have := abs_add_le (y - A) A; rwa [sub_add_cancel] at this
    generalize |A| = P at *
    norm_num at *
    linarith
  obtain ⟨r1, r2⟩ := rn_mod hY (by
    generalize |A| = P at *
    norm_num at *; linarith)
  have h5 : |RN y + b' - D'| ≤ (1980 + 14.3) / 2^53 * D' := by
    have e : RN y + b' - D' = (RN y - y) + (y - A) + (b' - b) := by rw [hD]; ring
    rw [e]
    refine (abs_add_le _ _).trans ((add_le_add ((abs_add_le _ _).trans (add_le_add r2 hy)) hb).trans ?_)
    generalize |A| = P at *
    norm_num at *
    linarith
  have h6 : |RN y + b'| ≤ 1.001 * D' := by
    have : |RN y + b'| ≤ |RN y + b' - D'| + |D'| := by have := abs_add_le (RN y + b' - D') D'; rwa [sub_add_cancel] at this
    rw [abs_of_pos (show 0 < D' by linarith)] at this
    norm_num at *
    linarith
  obtain ⟨s1, s2⟩ := rn_mod h6 (by norm_num at *; linarith)
  refine ⟨r1, s1, ?_⟩
  have e : RN (RN y + b') - D' = (RN (RN y + b') - (RN y + b')) + (RN y + b' - D') := by ring
  rw [e]
  refine (abs_add_le _ _).trans ((add_le_add s2 h5).trans ?_)
  norm_num at *
  linarith

/-- the product `an·d` -/
theorem d_quot {an an' D d : ℝ} (han : |an' - an| ≤ 3 / 2^53 * |an| + 1 / 10^55) (hD : 1 ≤ D) (hd : |d * D - 1| ≤ 2000 / 2^53) :
    |an' * d - an / D| ≤ |an / D| * (2003.2 / 2^53) + 2 / 10^55 := by
  have e : an' * d - an / D = ((an' - an) * (d * D) + an * (d * D - 1)) / D := by field_simp; ring
  have hdD : |d * D| ≤ 1.001 := by
    have : |d * D| ≤ |d * D - 1| + |(1:ℝ)| := by have := abs_add_le (d * D - 1) 1; rwa [sub_add_cancel] at this
    rw [abs_one] at this
    norm_num at *
    linarith
  rw [e, abs_div, abs_div, abs_of_pos (show 0 < D by linarith), div_mul_eq_mul_div, div_le_iff₀ (by linarith)]
  have h1 : |(an' - an) * (d * D) + an * (d * D - 1)| ≤ (3 / 2^53 * |an| + 1 / 10^55) * 1.001 + |an| * (2000 / 2^53) := by
    refine (abs_add_le _ _).trans ?_
    rw [abs_mul (an' - an), abs_mul an]
    have hp : 0 ≤ 3 / 2^53 * |an| + 1 / 10^55 := (abs_nonneg _).trans han
    exact add_le_add (mul_le_mul han hdD (abs_nonneg _) hp) (mul_le_mul_of_nonneg_left hd (abs_nonneg _))
  refine h1.trans ?_
  have hA := abs_nonneg an
  generalize |an| = P at *
  have e2 : (P * (2003.2 / 2^53) / D + 2 / 10^55) * D = P * (2003.2 / 2^53) + 2 / 10^55 * D := by field_simp
  rw [e2]
  norm_num at *
  linarith

/-- the quotient `an/c` -/
theorem c_quot {an an' C c : ℝ} (han : |an' - an| ≤ 3 / 2^53 * |an| + 1 / 10^55) (hC : 1 ≤ C) (hc : |c - C| ≤ 2000 / 2^53 * C) :
    |an' / c - an / C| ≤ |an / C| * (2003.2 / 2^53) + 2 / 10^55 := by
  have hcc := abs_le.1 hc
  have c0 : (1 - 2000 / 2^53) * C ≤ c := by linarith [hcc.1]
  have C0 : 0 < C := by linarith
  have cp : 0 < c := lt_of_lt_of_le (mul_pos (by norm_num) C0) c0
  have e : an' / c - an / C = ((an' - an) * C - an * (c - C)) / (c * C) := by field_simp; ring
  rw [e, abs_div, abs_div, abs_of_pos C0, abs_of_pos (mul_pos cp C0), div_le_iff₀ (mul_pos cp C0)]
  have h1 : |(an' - an) * C - an * (c - C)| ≤ (3 / 2^53 * |an| + 1 / 10^55) * C + |an| * (2000 / 2^53 * C) := by
    refine (abs_sub _ _).trans ?_
    rw [abs_mul, abs_mul, abs_of_pos C0]
    exact add_le_add (mul_le_mul_of_nonneg_right han C0.le) (mul_le_mul_of_nonneg_left hc (abs_nonneg _))
  refine h1.trans ?_
  have hA := abs_nonneg an
  generalize |an| = P at *
  have e2 : (P / C * (2003.2 / 2^53) + 2 / 10^55) * (c * C) = (P * (2003.2 / 2^53) + 2 / 10^55 * C) * c := by field_simp
  rw [e2]
  have h2 : (P * (2003.2 / 2^53) + 2 / 10^55 * C) * ((1 - 2000 / 2^53) * C) ≤ (P * (2003.2 / 2^53) + 2 / 10^55 * C) * c :=
    mul_le_mul_of_nonneg_left c0 (by positivity)
  refine le_trans ?_ h2
  have h3 : (3 / 2^53 * P + 1 / 10^55) * C + P * (2000 / 2^53 * C) = (P * (2003 / 2^53) + 1 / 10^55) * C := by ring
  have h4 : (P * (2003.2 / 2^53) + 2 / 10^55 * C) * ((1 - 2000 / 2^53) * C) = ((P * (2003.2 / 2^53) + 2 / 10^55 * C) * (1 - 2000 / 2^53)) * C := by ring
  rw [h3, h4]
  refine mul_le_mul_of_nonneg_right ?_ C0.le
  norm_num at *
  linarith

/-- the reciprocal -/
theorem d_recip {s D' : ℝ} (h : |s - D'| ≤ 1996 / 2^53 * D') (h3 : 1 ≤ D') (h4 : D' ≤ 10^6) :
    0 < s ∧ |RN (1 / s)| < HUGE ∧ |RN (1 / s) * D' - 1| ≤ 2000 / 2^53 := by
  obtain ⟨g1, g2⟩ := abs_le.1 h
  have s0 : (1 - 1996 / 2^53) * D' ≤ s := by linarith
  have sp : 0 < s := lt_of_lt_of_le (mul_pos (by norm_num) (by linarith)) s0
  have h5 : |1 / s * D' - 1| ≤ 1996.1 / 2^53 := by
    have e : 1 / s * D' - 1 = (D' - s) / s := by field_simp
    rw [e, abs_div, abs_of_pos sp, div_le_iff₀ sp, abs_sub_comm]
    refine h.trans ?_
    norm_num at *
    linarith
  have h6 : |1 / s| ≤ 1.001 / D' := by
    rw [abs_of_pos (by positivity), div_le_div_iff₀ sp (by linarith)]
    norm_num at *
    linarith
  obtain ⟨r1, r2⟩ := rn_mod h6 (by
    rw [div_le_iff₀ (by linarith)]; norm_num at *; linarith)
  refine ⟨sp, r1, ?_⟩
  have e : RN (1 / s) * D' - 1 = (RN (1 / s) - 1 / s) * D' + (1 / s * D' - 1) := by ring
  rw [e]
  refine (abs_add_le _ _).trans ?_
  rw [abs_mul, abs_of_pos (show 0 < D' by linarith)]
  have h7 := mul_le_mul_of_nonneg_right r2 (show 0 ≤ D' by linarith)
  have e2 : (1.001 / D' / 2^53 + 1 / 10^60) * D' = 1.001 / 2^53 + D' / 10^60 := by field_simp
  rw [e2] at h7
  norm_num at *
  linarith

/-- a product of two nearly exact factors -/
theorem m_round {p q P Q e d : ℝ} (hP : |p - P| ≤ e * P) (hQ : |q - Q| ≤ d * Q) (P0 : 0 < P) (Q0 : 0 < Q) (he0 : 0 ≤ e) (hd0 : 0 ≤ d) (he : e ≤ 1 / 10^8) (hd : d ≤ 1 / 10^12)
    (hlo : 1 / 10^20 ≤ P * Q) (hhi : P * Q ≤ 10^20) : |RN (p * q)| < HUGE ∧ |RN (p * q) - P * Q| ≤ (e + 1.0001 * d + 1.1 / 2^53) * (P * Q) := by
  have R0 : 0 < P * Q := mul_pos P0 Q0
  have h1 : |p * q - P * Q| ≤ (e + 1.0001 * d) * (P * Q) := by
    have e1 : p * q - P * Q = (p - P) * q + P * (q - Q) := by ring
    have hq : |q| ≤ (1 + d) * Q := by
      have : |q| ≤ |q - Q| + |Q| := by have := abs_add_le (q - Q) Q; rwa [sub_add_cancel] at this
      rw [abs_of_pos Q0] at this; linarith
    rw [e1]
    refine (abs_add_le _ _).trans ?_
    rw [abs_mul, abs_mul, abs_of_pos P0]
    have a1 := mul_le_mul hP hq (abs_nonneg _) (by positivity)
    have a2 := mul_le_mul_of_nonneg_left hQ P0.le
    have e2 : e * P * ((1 + d) * Q) + P * (d * Q) = (e + e * d + d) * (P * Q) := by ring
    have e3 : e * d ≤ 0.0001 * d := mul_le_mul_of_nonneg_right (by norm_num at *; linarith) hd0
    calc _ ≤ e * P * ((1 + d) * Q) + P * (d * Q) := add_le_add a1 a2
      _ = (e + e * d + d) * (P * Q) := e2
      _ ≤ _ := mul_le_mul_of_nonneg_right (by linarith) R0.le
  have h2 : |p * q| ≤ 1.01 * (P * Q) := by
    have : |p * q| ≤ |p * q - P * Q| + |P * Q| := by have := abs_add_le (p * q - P * Q) (P * Q); rwa [sub_add_cancel] at this
    rw [abs_of_pos R0] at this
    have h3 : (e + 1.0001 * d) * (P * Q) ≤ 0.01 * (P * Q) := mul_le_mul_of_nonneg_right (by norm_num at *; linarith) R0.le
    linarith
  obtain ⟨r1, r2⟩ := rn_mod h2 (by norm_num at *; linarith)
  refine ⟨r1, ?_⟩
  have e : RN (p * q) - P * Q = (RN (p * q) - p * q) + (p * q - P * Q) := by ring
  rw [e]
  refine (abs_add_le _ _).trans ((add_le_add r2 h1).trans ?_)
  generalize P * Q = R at *
  have : 1.01 * R / 2^53 + 1 / 10^60 ≤ 1.1 / 2^53 * R := by norm_num at *; linarith
  linarith

end Gcf
end Verif
