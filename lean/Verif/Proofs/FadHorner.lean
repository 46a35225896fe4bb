import Verif.Proofs.FadMac
import Verif.Proofs.Ab
import Verif.Proofs.Faddeeva
import Verif.Proofs.ErfcxTailF

/-! Rounding errors of the complex Horner scheme of `faddeeva` in the small disk. -/

namespace Verif
namespace Fad
open Complex F64

/-- both components of `c` are within `e` of those of `C` -/
def Nr (e : ℝ) (c : Cx F64) (C : ℂ) : Prop := Ab c.re C.re e ∧ Ab c.im C.im e

/-- exact Horner scheme -/
noncomputable def hC (Z : ℂ) : ℂ → List ℂ → ℂ
  | R, [] => R * Z + 1
  | R, C :: Cs => hC Z (R * Z + C) Cs

theorem cap1 {M : ℝ} (h1 : 1 / 100 ≤ M) (h2 : M ≤ 100) : Cap M :=
  cap_of (le_trans (by norm_num) h1) (h2.trans (by
    calc (100:ℝ) = 10^2 := by norm_num
      _ ≤ _ := pow_le_pow_right₀ (by norm_num) (by norm_num)))

/-- one complex multiplication -/
theorem nr_mul {r z : Cx F64} {R : ℂ} (hr : Nr (5 / 10^15) r R) (hR : ‖R‖ ≤ 1.5) (zf : z.re.isFin = true) (zi : z.im.isFin = true)
    (hz : ‖(⟨z.re.val, z.im.val⟩ : ℂ)‖ ≤ 0.231) : Nr (2.75 / 10^15) (r.mul z) (R * ⟨z.re.val, z.im.val⟩) := by
  set Z : ℂ := ⟨z.re.val, z.im.val⟩ with hZ
  have a1 : |R.re| ≤ 1.5 := (Complex.abs_re_le_norm R).trans hR
  have a2 : |R.im| ≤ 1.5 := (Complex.abs_im_le_norm R).trans hR
  have b1 : |z.re.val| ≤ 0.231 := (Complex.abs_re_le_norm Z).trans hz
  have b2 : |z.im.val| ≤ 0.231 := (Complex.abs_im_le_norm Z).trans hz
  have n : ‖R * Z‖ ≤ 0.35 := by
    rw [norm_mul]
    exact (mul_le_mul hR hz (norm_nonneg _) (by norm_num)).trans (by norm_num)
  have n1 : |(R * Z).re| ≤ 0.35 := (Complex.abs_re_le_norm _).trans n
  have n2 : |(R * Z).im| ≤ 0.35 := (Complex.abs_im_le_norm _).trans n
  have s1 := ab_self zf
  have s2 := ab_self zi
  have m : ∀ {a b : F64} {A : ℝ}, Ab a A (5 / 10^15) → Ab b b.val 0 → |A| ≤ 1.5 → |b.val| ≤ 0.231 → Ab (a * b) (A * b.val) (1.25 / 10^15) := by
    intro a b A ha hb hA hB
    refine (ab_mul ha hb hA hB (M := 0.36) (by norm_num) (cap1 (by norm_num) (by norm_num))).mono (by norm_num)
  have q1 := m hr.1 s1 a1 b1
  have q2 := m hr.2 s2 a2 b2
  have q3 := m hr.1 s2 a1 b2
  have q4 := m hr.2 s1 a2 b1
  constructor
  · have : (R * Z).re = R.re * z.re.val - R.im * z.im.val := by rw [Complex.mul_re]
    rw [this] at n1 ⊢
    exact (ab_sub q1 q2 (M := 0.36) (by norm_num at n1 ⊢; linarith) (cap1 (by norm_num) (by norm_num))).mono (by norm_num)
  · have : (R * Z).im = R.re * z.im.val + R.im * z.re.val := by rw [Complex.mul_im]
    rw [this] at n2 ⊢
    exact (ab_add q3 q4 (M := 0.36) (by norm_num at n2 ⊢; linarith) (cap1 (by norm_num) (by norm_num))).mono (by norm_num)

/-- the whole scheme -/
theorem nr_horner {z : Cx F64} (zf : z.re.isFin = true) (zi : z.im.isFin = true)
    (hz : ‖(⟨z.re.val, z.im.val⟩ : ℂ)‖ ≤ 0.231) : ∀ {cs : List (Cx F64)} {Cs : List ℂ}, List.Forall₂ (fun c C => Nr (1 / 10^15) c C ∧ ‖C‖ ≤ 1.13) cs Cs →
    ∀ {r : Cx F64} {R : ℂ}, Nr (5 / 10^15) r R → ‖R‖ ≤ 1.5 → Nr (5 / 10^15) (cxHorner z r cs) (hC ⟨z.re.val, z.im.val⟩ R Cs) := by
  intro cs Cs h
  induction h with
  | nil =>
    intro r R hr hR
    have k := nr_mul hr hR zf zi hz
    set Z : ℂ := ⟨z.re.val, z.im.val⟩ with hZ
    have n : ‖R * Z‖ ≤ 0.35 := by
      rw [norm_mul]
      exact (mul_le_mul hR hz (norm_nonneg _) (by norm_num)).trans (by norm_num)
    have n1 : |(R * Z).re| ≤ 0.35 := (Complex.abs_re_le_norm _).trans n
    have one : Ab (1.0 : F64) 1 0 := ab_int (by decide +kernel) (by exact_mod_cast val_of_int (x := (1.0 : F64)) 1 (by decide +kernel))
    constructor
    · show Ab ((r.mul z).re + 1.0) (R * Z + 1).re _
      rw [Complex.add_re, Complex.one_re]
      refine (ab_add k.1 one (M := 1.4) ?_ (cap1 (by norm_num) (by norm_num))).mono (by norm_num)
      have := abs_add_le (R * Z).re 1
      rw [abs_one] at this
      generalize (R * Z).re = u at *
      norm_num at n1 ⊢; linarith
    · show Ab (r.mul z).im (R * Z + 1).im _
      rw [Complex.add_im, Complex.one_im, add_zero]
      exact k.2.mono (by norm_num)
  | @cons c C cs Cs hc _ ih =>
    intro r R hr hR
    have k := nr_mul hr hR zf zi hz
    set Z : ℂ := ⟨z.re.val, z.im.val⟩ with hZ
    have n : ‖R * Z‖ ≤ 0.35 := by
      rw [norm_mul]
      exact (mul_le_mul hR hz (norm_nonneg _) (by norm_num)).trans (by norm_num)
    have n3 : ‖R * Z + C‖ ≤ 1.5 := (norm_add_le _ _).trans ((add_le_add n hc.2).trans (by norm_num))
    have n1 : |(R * Z + C).re| ≤ 1.5 := (Complex.abs_re_le_norm _).trans n3
    have n2 : |(R * Z + C).im| ≤ 1.5 := (Complex.abs_im_le_norm _).trans n3
    refine ih (r := (r.mul z).add c) (R := R * Z + C) ⟨?_, ?_⟩ n3
    · rw [Complex.add_re] at n1 ⊢
      exact (ab_add k.1 hc.1.1 (M := 1.6) (by norm_num at n1 ⊢; linarith) (cap1 (by norm_num) (by norm_num))).mono (by norm_num)
    · rw [Complex.add_im] at n2 ⊢
      exact (ab_add k.2 hc.1.2 (M := 1.6) (by norm_num at n2 ⊢; linarith) (cap1 (by norm_num) (by norm_num))).mono (by norm_num)

/-- coefficients -/
theorem nl (m k : ℕ) (C : ℝ) (hM : (m:ℝ) / 10^k ≤ 1.13) (h : |(m:ℝ) / 10^k - C| ≤ 5 / 10^16) : Ab (OfScientific.ofScientific m true k : F64) C (1 / 10^15) := by
  have := ab_lit m k (M := 1.13) hM (cap1 (by norm_num) (by norm_num))
  refine ⟨this.fin, ?_⟩
  have t := abs_sub_le (OfScientific.ofScientific m true k : F64).val ((m:ℝ) / 10^k) C
  have e := this.err
  norm_num at t e h ⊢
  linarith

theorem nln (m k : ℕ) (C : ℝ) (hM : (m:ℝ) / 10^k ≤ 1.13) (h : |(m:ℝ) / 10^k - -C| ≤ 5 / 10^16) : Ab (-(OfScientific.ofScientific m true k : F64)) C (1 / 10^15) := by
  have := ab_neg (nl m k (-C) hM h)
  rwa [neg_neg] at this

theorem z00 : Ab (0.0 : F64) 0 (1 / 10^15) := (ab_int (by decide +kernel) (by exact_mod_cast val_of_int (x := (0.0 : F64)) 0 (by decide +kernel))).mono (by norm_num)

/-- even coefficient -/
theorem ev_co {c : F64} {q : ℝ} (h : Ab c q (1 / 10^15)) (hq : |q| ≤ 1) : Nr (1 / 10^15) ⟨c, 0.0⟩ (q : ℂ) ∧ ‖(q : ℂ)‖ ≤ 1.13 := by
  refine ⟨⟨by simpa using h, by simpa using z00⟩, ?_⟩
  rw [Complex.norm_real, Real.norm_eq_abs]; exact hq.trans (by norm_num)

/-- odd coefficient -/
theorem od_co {c : F64} {q : ℝ} (h : Ab c (kap * q) (1 / 10^15)) (hq : |q| ≤ 1) : Nr (1 / 10^15) ⟨0.0, c⟩ ((kap : ℂ) * (q : ℂ) * I) ∧ ‖((kap : ℂ) * (q : ℂ) * I)‖ ≤ 1.13 := by
  refine ⟨⟨by simpa using z00, by simpa using h⟩, ?_⟩
  rw [norm_mul, norm_mul, Complex.norm_I, mul_one, Complex.norm_real, Complex.norm_real, Real.norm_eq_abs, Real.norm_eq_abs, abs_of_pos kap_pos]
  have := kap_bounds.2
  exact (mul_le_mul this hq (abs_nonneg _) (by norm_num)).trans (by norm_num)

/-- coefficients times `kap` -/
theorem kq {a q : ℝ} (h : |a - 1.1283791670955125739 * q| ≤ 4 / 10^16) (hq : |q| ≤ 1) : |a - kap * q| ≤ 5 / 10^16 := by
  have hk := kap_bounds
  have : |(1.1283791670955125739 - kap) * q| ≤ 1 / 10^18 := by
    rw [abs_mul]
    have : |1.1283791670955125739 - kap| ≤ 1 / 10^18 := by rw [abs_le]; constructor <;> linarith [hk.1, hk.2]
    exact (mul_le_mul this hq (abs_nonneg _) (by norm_num)).trans (by norm_num)
  have t := abs_add_le (a - 1.1283791670955125739 * q) ((1.1283791670955125739 - kap) * q)
  rw [show a - 1.1283791670955125739 * q + (1.1283791670955125739 - kap) * q = a - kap * q by ring] at t
  refine t.trans ((add_le_add h this).trans (by norm_num))

theorem od_p (m k : ℕ) (q : ℝ) (hM : (m:ℝ) / 10^k ≤ 1.13) (h : |(m:ℝ) / 10^k - 1.1283791670955125739 * q| ≤ 4 / 10^16) (hq : |q| ≤ 1) : Nr (1 / 10^15) ⟨0.0, (OfScientific.ofScientific m true k : F64)⟩ ((kap : ℂ) * (q : ℂ) * I) ∧ ‖((kap : ℂ) * (q : ℂ) * I)‖ ≤ 1.13 :=
  od_co (nl m k (kap * q) hM (kq h hq)) hq
theorem od_n (m k : ℕ) (q : ℝ) (hM : (m:ℝ) / 10^k ≤ 1.13) (h : |(m:ℝ) / 10^k - 1.1283791670955125739 * (-q)| ≤ 4 / 10^16) (hq : |q| ≤ 1) : Nr (1 / 10^15) ⟨0.0, -(OfScientific.ofScientific m true k : F64)⟩ ((kap : ℂ) * (q : ℂ) * I) ∧ ‖((kap : ℂ) * (q : ℂ) * I)‖ ≤ 1.13 :=
  od_co (nln m k (kap * q) hM (by have := kq h (by rwa [abs_neg]); rwa [mul_neg] at this)) hq
theorem ev_p (m k : ℕ) (q : ℝ) (hM : (m:ℝ) / 10^k ≤ 1.13) (h : |(m:ℝ) / 10^k - q| ≤ 5 / 10^16) (hq : |q| ≤ 1) : Nr (1 / 10^15) ⟨(OfScientific.ofScientific m true k : F64), 0.0⟩ (q : ℂ) ∧ ‖(q : ℂ)‖ ≤ 1.13 :=
  ev_co (nl m k q hM h) hq
theorem ev_n (m k : ℕ) (q : ℝ) (hM : (m:ℝ) / 10^k ≤ 1.13) (h : |(m:ℝ) / 10^k - -q| ≤ 5 / 10^16) (hq : |q| ≤ 1) : Nr (1 / 10^15) ⟨-(OfScientific.ofScientific m true k : F64), 0.0⟩ (q : ℂ) ∧ ‖(q : ℂ)‖ ≤ 1.13 :=
  ev_co (nln m k q hM h) hq

/-- exact coefficients -/
noncomputable def o (q : ℝ) : ℂ := (kap : ℂ) * (q : ℂ) * I
noncomputable def M4 : List ℂ := [o (-2/3), ((-1 : ℝ) : ℂ), o 1]
noncomputable def M13 : List ℂ := [((1/720 : ℝ) : ℂ), o (-32/10395), ((-1/120 : ℝ) : ℂ), o (16/945), ((1/24 : ℝ) : ℂ), o (-8/105), ((-1/6 : ℝ) : ℂ), o (4/15), ((1/2 : ℝ) : ℂ)] ++ M4
noncomputable def M19 : List ℂ := [((-1/362880 : ℝ) : ℂ), o (256/34459425), ((1/40320 : ℝ) : ℂ), o (-128/2027025), ((-1/5040 : ℝ) : ℂ), o (64/135135)] ++ M13

abbrev P : Cx F64 → ℂ → Prop := fun c C => Nr (1 / 10^15) c C ∧ ‖C‖ ≤ 1.13

theorem frac2_ab : Ab (Arith.frac2SqrtPi : F64) (kap * 1) (1 / 10^15) := by
  have h1 := le_val_of_sv (x := (Arith.frac2SqrtPi : F64)) 112837916709551250 100000000000000000 (by norm_num) (by decide +kernel)
  have h2 := val_le_of_sv (x := (Arith.frac2SqrtPi : F64)) 112837916709551265 100000000000000000 (by norm_num) (by decide +kernel)
  have hk := kap_bounds
  push_cast at h1 h2
  refine ⟨by decide +kernel, ?_⟩
  rw [mul_one, abs_le]; constructor <;> linarith [hk.1, hk.2]

theorem f4 : List.Forall₂ P macl4 M4 := by
  refine .cons (od_n _ _ _ ?_ ?_ ?_) (.cons (ev_n _ _ _ ?_ ?_ ?_) (.cons (od_co frac2_ab ?_) .nil))
  all_goals norm_num [abs_le]

theorem f13 : List.Forall₂ P macl13 M13 := by
  refine (.cons (ev_p _ _ _ ?_ ?_ ?_) (.cons (od_n _ _ _ ?_ ?_ ?_) (.cons (ev_n _ _ _ ?_ ?_ ?_) (.cons (od_p _ _ _ ?_ ?_ ?_)
    (.cons (ev_p _ _ _ ?_ ?_ ?_) (.cons (od_n _ _ _ ?_ ?_ ?_) (.cons (ev_n _ _ _ ?_ ?_ ?_) (.cons (od_p _ _ _ ?_ ?_ ?_) (.cons (ev_p _ _ _ ?_ ?_ ?_) f4)))))))))
  all_goals norm_num [abs_le]

theorem f19 : List.Forall₂ P macl19 M19 := by
  refine (.cons (ev_n _ _ _ ?_ ?_ ?_) (.cons (od_p _ _ _ ?_ ?_ ?_) (.cons (ev_p _ _ _ ?_ ?_ ?_) (.cons (od_n _ _ _ ?_ ?_ ?_)
    (.cons (ev_n _ _ _ ?_ ?_ ?_) (.cons (od_p _ _ _ ?_ ?_ ?_) f13))))))
  all_goals norm_num [abs_le]

theorem s4 : P ⟨5e-1, 0.0⟩ ((1/2 : ℝ) : ℂ) := by
  refine ev_p _ _ _ ?_ ?_ ?_
  all_goals norm_num [abs_le]
theorem s13 : P ⟨0.0, 5.344009079373427e-4⟩ (o (64/135135)) := by
  refine od_p _ _ _ ?_ ?_ ?_
  all_goals norm_num [abs_le]
theorem s19 : P ⟨0.0, -8.823957200203801e-7⟩ (o (-512/654729075)) := by
  refine od_n _ _ _ ?_ ?_ ?_
  all_goals norm_num [abs_le]

theorem Nr.mono {d e : ℝ} {c : Cx F64} {C : ℂ} (h : Nr d c C) (hd : d ≤ e) : Nr e c C := ⟨h.1.mono hd, h.2.mono hd⟩

theorem da1 : da 1 = -2/3 := by norm_num [da]
theorem da2 : da 2 = 4/15 := by norm_num [da]
theorem da3 : da 3 = -8/105 := by norm_num [da]
theorem da4 : da 4 = 16/945 := by norm_num [da]
theorem da5 : da 5 = -32/10395 := by norm_num [da]
theorem da6 : da 6 = 64/135135 := by norm_num [da]
theorem da7 : da 7 = -128/2027025 := by norm_num [da]
theorem da8 : da 8 = 256/34459425 := by norm_num [da]
theorem da9 : da 9 = -512/654729075 := by norm_num [da]

theorem p4 (z : ℂ) : hC z ((1/2 : ℝ) : ℂ) M4 = ((∑ m ∈ Finset.range (2+1), (-z^2)^m / (m.factorial : ℂ)) + (kap : ℂ) * I * dp 2 z) - (kap : ℂ) * I * (4/15) * z^5 := by
  simp only [hC, M4, o, dp, zero_add, Nat.reduceAdd, da1, da2, Finset.sum_range_succ, Finset.sum_range_zero, Nat.factorial]
  push_cast
  ring
theorem p13 (z : ℂ) : hC z (o (64/135135)) M13 = (∑ m ∈ Finset.range (6+1), (-z^2)^m / (m.factorial : ℂ)) + (kap : ℂ) * I * dp 6 z := by
  simp only [hC, M13, M4, List.cons_append, List.nil_append, o, dp, zero_add, Nat.reduceAdd, da1, da2, da3, da4, da5, da6, Finset.sum_range_succ, Finset.sum_range_zero, Nat.factorial]
  push_cast
  ring
theorem p19 (z : ℂ) : hC z (o (-512/654729075)) M19 = (∑ m ∈ Finset.range (9+1), (-z^2)^m / (m.factorial : ℂ)) + (kap : ℂ) * I * dp 9 z := by
  simp only [hC, M19, M13, M4, List.cons_append, List.nil_append, o, dp, zero_add, Nat.reduceAdd, da1, da2, da3, da4, da5, da6, da7, da8, da9, Finset.sum_range_succ, Finset.sum_range_zero, Nat.factorial]
  push_cast
  ring

theorem t4 (z : ℂ) (h : ‖z‖ ≤ 1/1000) : ‖hC z ((1/2 : ℝ) : ℂ) M4 - faddeevaW z‖ ≤ 1 / 10^15 := by
  have e := mac_err 2 z (h.trans (by norm_num))
  rw [p4, norm_sub_rev]
  set S := (∑ m ∈ Finset.range (2+1), (-z^2)^m / (m.factorial : ℂ)) + (kap : ℂ) * I * dp 2 z
  rw [show faddeevaW z - (S - (kap : ℂ) * I * (4/15) * z^5) = (faddeevaW z - S) + (kap : ℂ) * I * (4/15) * z^5 by ring]
  refine (norm_add_le _ _).trans ((add_le_add e (c := ‖(kap : ℂ) * I * (4/15) * z^5‖) (d := 1 / 10^15 / 2) ?_).trans ?_)
  · rw [norm_mul, norm_mul, norm_mul, Complex.norm_I, mul_one, Complex.norm_real, Real.norm_eq_abs, abs_of_pos kap_pos, norm_pow]
    have n : ‖(4/15 : ℂ)‖ = 4/15 := by rw [show (4/15 : ℂ) = ((4/15 : ℝ) : ℂ) by push_cast; rfl, Complex.norm_real]; norm_num
    rw [n]
    have k := kap_bounds.2
    have q : ‖z‖^5 ≤ (1/1000)^5 := pow_le_pow_left₀ (norm_nonneg _) h 5
    calc kap * (4/15) * ‖z‖^5 ≤ 1.2 * (4/15) * (1/1000)^5 := mul_le_mul (by norm_num at k ⊢; linarith) q (by positivity) (by norm_num)
      _ ≤ _ := by norm_num
  · have q : ‖z‖^(2*2+3) ≤ (1/1000)^7 := pow_le_pow_left₀ (norm_nonneg _) h 7
    have q2 : (‖z‖^2)^(2+1) ≤ (1/1000)^6 := by rw [← pow_mul]; exact pow_le_pow_left₀ (norm_nonneg _) h 6
    rw [da2]
    have a : (2.6:ℝ) * |4/15| * ‖z‖^(2*2+3) ≤ 2.6 * |4/15| * (1/1000)^7 := mul_le_mul_of_nonneg_left q (by positivity)
    have b := mul_le_mul_of_nonneg_right q2 (show (0:ℝ) ≤ ((2+2 : ℕ) : ℝ) * (((2+1).factorial * (2+1) : ℕ) : ℝ)⁻¹ by positivity)
    refine (add_le_add (add_le_add a b) le_rfl).trans ?_
    norm_num [abs_of_pos, Nat.factorial]

theorem t13 (z : ℂ) (h : ‖z‖ ≤ 0.084) : ‖hC z (o (64/135135)) M13 - faddeevaW z‖ ≤ 1 / 10^15 := by
  have e := mac_err 6 z (h.trans (by norm_num))
  rw [p13, norm_sub_rev]
  refine e.trans ?_
  have q : ‖z‖^(2*6+3) ≤ 0.084^15 := pow_le_pow_left₀ (norm_nonneg _) h 15
  have q2 : (‖z‖^2)^(6+1) ≤ 0.084^14 := by rw [← pow_mul]; exact pow_le_pow_left₀ (norm_nonneg _) h 14
  rw [da6]
  have a : (2.6:ℝ) * |64/135135| * ‖z‖^(2*6+3) ≤ 2.6 * |64/135135| * 0.084^15 := mul_le_mul_of_nonneg_left q (by positivity)
  have b := mul_le_mul_of_nonneg_right q2 (show (0:ℝ) ≤ ((6+2 : ℕ) : ℝ) * (((6+1).factorial * (6+1) : ℕ) : ℝ)⁻¹ by positivity)
  refine (add_le_add a b).trans ?_
  norm_num [abs_of_pos, Nat.factorial]

theorem t19 (z : ℂ) (h : ‖z‖ ≤ 0.231) : ‖hC z (o (-512/654729075)) M19 - faddeevaW z‖ ≤ 1 / 10^15 := by
  have e := mac_err 9 z (h.trans (by norm_num))
  rw [p19, norm_sub_rev]
  refine e.trans ?_
  have q : ‖z‖^(2*9+3) ≤ 0.231^21 := pow_le_pow_left₀ (norm_nonneg _) h 21
  have q2 : (‖z‖^2)^(9+1) ≤ 0.231^20 := by rw [← pow_mul]; exact pow_le_pow_left₀ (norm_nonneg _) h 20
  rw [da9]
  have a : (2.6:ℝ) * |-512/654729075| * ‖z‖^(2*9+3) ≤ 2.6 * |-512/654729075| * 0.231^21 := mul_le_mul_of_nonneg_left q (by positivity)
  have b := mul_le_mul_of_nonneg_right q2 (show (0:ℝ) ≤ ((9+2 : ℕ) : ℝ) * (((9+1).factorial * (9+1) : ℕ) : ℝ)⁻¹ by positivity)
  refine (add_le_add a b).trans ?_
  norm_num [abs_of_pos, Nat.factorial, abs_div, abs_neg]

end Fad
end Verif
