import Verif.Proofs.GcfF8

/-! Accuracy of the series loop of `gser` in binary64, and of `gser`. -/

namespace Verif
namespace Gcf
open F64

/-- partial sums -/
noncomputable def Ss (a x : ℝ) (j : ℕ) : ℝ := ∑ k ∈ Finset.range (j + 1), serTerm a x k

theorem Ss_succ (a x : ℝ) (j : ℕ) : Ss a x (j + 1) = Ss a x j + serTerm a x (j + 1) := Finset.sum_range_succ _ _
theorem ser_zero (a x : ℝ) : serTerm a x 0 = 1 / a := by simp [serTerm]
theorem Ss_zero (a x : ℝ) : Ss a x 0 = 1 / a := by simp [Ss, ser_zero]
theorem ser_pos {a x : ℝ} (ha : 0 < a) (hx : 0 < x) (j : ℕ) : 0 < serTerm a x j := div_pos (pow_pos hx _) (prod_pos' ha _)

theorem ser_le {a x : ℝ} (ha : 0 < a) (hx : 0 < x) (hx1 : x ≤ a + 1.1) (j : ℕ) : serTerm a x j ≤ 1.1 / a := by
  have h1 : serTerm a x 1 ≤ 1.1 / a := by
    rw [serTerm_succ 0, ser_zero]
    push_cast
    have : x / (a + 1) ≤ 1.1 := by rw [div_le_iff₀ (by linarith)]; norm_num at *; linarith
    have := mul_le_mul_of_nonneg_left this (show 0 ≤ 1 / a by positivity)
    refine this.trans ?_
    apply le_of_eq; ring
  rcases j with _ | j
  · rw [ser_zero]; gcongr; norm_num
  · induction j with
    | zero => exact h1
    | succ j ih =>
      rw [serTerm_succ]
      have : x / (a + ((j + 1 + 1 : ℕ) : ℝ)) ≤ 1 := by
        push_cast
        have : (0:ℝ) ≤ j := Nat.cast_nonneg j
        rw [div_le_one (by linarith)]; norm_num at *; linarith
      have := mul_le_mul_of_nonneg_left this (ser_pos ha hx (j + 1)).le
      linarith

theorem Ss_ge {a x : ℝ} (ha : 0 < a) (hx : 0 < x) (j : ℕ) : 1 / a ≤ Ss a x j := by
  induction j with
  | zero => rw [Ss_zero]
  | succ j ih => rw [Ss_succ]; linarith [ser_pos ha hx (j + 1)]

theorem Ss_le {a x : ℝ} (ha : 0 < a) (hx : 0 < x) (hx1 : x ≤ a + 1.1) (j : ℕ) : Ss a x j ≤ (j + 1) * (1.1 / a) := by
  induction j with
  | zero => rw [Ss_zero]; push_cast; rw [zero_add, one_mul]; gcongr; norm_num
  | succ j ih => rw [Ss_succ]; push_cast; linarith [ser_le ha hx hx1 (j + 1)]

theorem ser_le_Ss {a x : ℝ} (ha : 0 < a) (hx : 0 < x) {i j : ℕ} (h : i ≤ j) : serTerm a x i ≤ Ss a x j :=
  Finset.single_le_sum (f := serTerm a x) (fun k _ => (ser_pos ha hx k).le) (Finset.mem_range.2 (by omega))

theorem ser_late {a x : ℝ} (ha : 0 < a) (ha1 : a < 100) (hx : 0 < x) (hx1 : x ≤ a + 1.1) : serTerm a x 10000 ≤ 1 / 10^50 * Ss a x 10000 := by
  have g : ∀ i : ℕ, serTerm a x (203 + i) ≤ (1/2)^i * serTerm a x 203 := by
    intro i
    induction i with
    | zero => simp
    | succ i ih =>
      rw [show 203 + (i + 1) = 203 + i + 1 from rfl, serTerm_succ]
      have : x / (a + ((203 + i + 1 : ℕ) : ℝ)) ≤ 1/2 := by
        push_cast
        have : (0:ℝ) ≤ i := Nat.cast_nonneg i
        rw [div_le_iff₀ (by linarith)]; norm_num at *; linarith
      have := mul_le_mul_of_nonneg_left this (ser_pos ha hx (203 + i)).le
      rw [pow_succ]
      linarith
  have h := g 9797
  rw [show 203 + 9797 = 10000 from rfl] at h
  have h2 : ((1:ℝ)/2)^9797 ≤ 1 / 10^50 := by
    refine (pow_le_pow_of_le_one (by norm_num) (by norm_num) (show 200 ≤ 9797 by norm_num)).trans ?_
    norm_num
  have h3 := ser_le_Ss ha hx (show 203 ≤ 10000 by norm_num)
  have p := ser_pos ha hx 203
  exact h.trans (mul_le_mul h2 h3 p.le (by norm_num))

/-- state of the loop after `j` steps -/
structure SInv (a x : F64) (j : ℕ) (ap del sum : F64) : Prop where
  apf : (j = 0 ∧ ap = a) ∨ (1 ≤ j ∧ Bin ap (a.val + j))
  df : del.isFin = true
  de : |del.val - serTerm a.val x.val j| ≤ (8 * j + 1.1) / 2^53 * serTerm a.val x.val j
  sf : sum.isFin = true
  se : |sum.val - Ss a.val x.val j| ≤ (9 * j + 2) / 2^53 * Ss a.val x.val j

theorem x_ap {ap : F64} {x B : ℝ} (h : Bin ap B) (x0 : 1 / 10^28 ≤ x) (x1 : x ≤ 330) (hB : 1/2 ≤ B) (hB1 : B ≤ 2^20) :
    |RN (x / ap.val)| < HUGE ∧ |RN (x / ap.val) - x / B| ≤ 6.2 / 2^53 * (x / B) := by
  obtain ⟨h1, h2, h3⟩ := h.err
  have xp : 0 < x := lt_of_lt_of_le (by norm_num) x0
  have ap0 : 0 < ap.val := by linarith
  have e1 : |x / ap.val - x / B| ≤ 5.01 / 2^53 * (x / B) := by
    have e : x / ap.val - x / B = x / B * ((B - ap.val) / ap.val) := by field_simp
    rw [e, abs_mul, abs_of_pos (by positivity), mul_comm, abs_div, abs_of_pos ap0, abs_sub_comm]
    refine mul_le_mul_of_nonneg_right ?_ (by positivity)
    rw [div_le_iff₀ ap0]
    refine h1.trans ?_
    have := (abs_le.1 h1).1
    norm_num at *
    linarith
  have l1 : 1 / 10^90 ≤ x / B := by
    rw [le_div_iff₀ h3]
    norm_num at *; linarith
  have l2 : x / B ≤ 10^4 := by
    rw [div_le_iff₀ h3]
    norm_num at *; linarith
  obtain ⟨k1, k2⟩ := abs_le.1 e1
  generalize x / B = w at *
  obtain ⟨r1, r2⟩ := rn_rel (y := x / ap.val) (by norm_num at *; linarith) (by norm_num at *; linarith)
  refine ⟨r1, ?_⟩
  have := abs_add_le (RN (x / ap.val) - x / ap.val) (x / ap.val - w)
  rw [sub_add_sub_cancel] at this
  refine this.trans ((add_le_add r2 e1).trans ?_)
  norm_num at *
  linarith

theorem ap_step {a ap : F64} {j : ℕ} (ha : 0 < a.val) (ha1 : a.val < 100) (hj : j + 1 ≤ 10000)
    (h : (j = 0 ∧ ap = a) ∨ (1 ≤ j ∧ Bin ap (a.val + j))) : Bin (ap + 1.0) (a.val + ((j + 1 : ℕ) : ℝ)) := by
  have fo : (1.0 : F64).isFin = true := by decide +kernel
  rcases h with ⟨rfl, rfl⟩ | ⟨h1, h2⟩
  · have fa : ap.isFin = true := isFin_of_abs (b := 100) (by rw [abs_of_pos ha]; exact ha1.le) (by norm_num)
    have s1 := (add_spec fa fo).2
    rw [one_val] at s1
    have le1 : 1 ≤ (ap + 1.0).val := by
      rw [s1]
      have := RN_mono (show (1:ℝ) ≤ ap.val + 1 by linarith)
      rwa [show RN 1 = 1 by have := RN_val (a := (1.0 : F64)) (by decide +kernel); rwa [one_val] at this] at this
    obtain ⟨_, e1⟩ := rn_mod (y := ap.val + 1) (Y := ap.val + 1) (by rw [abs_of_pos (by linarith)]) (by norm_num; linarith)
    rw [← s1] at e1
    have le2 : (ap + 1.0).val ≤ 2^20 := by
      have := (abs_le.1 e1).2
      norm_num at *; linarith
    obtain ⟨e, he, b1, b2, _⟩ := Bin_init le1 le2
    refine ⟨e, he, b1, b2, ?_⟩
    push_cast
    refine e1.trans ?_
    have := (abs_le.1 e1).1
    have p : (1:ℝ) ≤ 2^e := one_le_pow₀ (by norm_num)
    rw [pow_succ] at b2
    generalize (2:ℝ)^e = q at *
    norm_num at *
    linarith
  · have := h2.step 1 (by norm_num) fo (by rw [one_val]; norm_num) (by
      have : (j:ℝ) + 1 ≤ 10000 := by exact_mod_cast hj
      push_cast; norm_num; linarith)
    rw [show a.val + ((j + 1 : ℕ) : ℝ) = a.val + j + ((1:ℕ):ℝ) by push_cast; ring]
    exact this

theorem sinv_step {a x : F64} (ha : 1 / 10^12 ≤ a.val) (ha1 : a.val < 100) (hx0 : 1 / 10^28 ≤ x.val) (hx1 : x.val ≤ a.val + 1.1)
    {j : ℕ} (hj : j + 1 ≤ 10000) {ap del sum ap' del' sum' : F64} (I : SInv a x j ap del sum) (hT : 1 / 10^18 ≤ serTerm a.val x.val j)
    (e1 : ap' = ap + 1.0) (e2 : del' = del * (x / ap')) (e3 : sum' = sum + del') : SInv a x (j + 1) ap' del' sum' := by
  have a0 : 0 < a.val := lt_of_lt_of_le (by norm_num) ha
  have x0 : 0 < x.val := lt_of_lt_of_le (by norm_num) hx0
  have x330 : x.val ≤ 330 := by norm_num at hx1; linarith
  have fx : x.isFin = true := isFin_of_abs (b := 330) (by rw [abs_of_pos x0]; exact x330) (by norm_num)
  have hA := ap_step a0 ha1 hj I.apf
  rw [← e1] at hA
  have j0 : (0:ℝ) ≤ j := Nat.cast_nonneg j
  have jK : (j:ℝ) + 1 ≤ 10000 := by exact_mod_cast hj
  have B1 : 1/2 ≤ a.val + ((j + 1 : ℕ) : ℝ) := by push_cast; linarith
  have B2 : a.val + ((j + 1 : ℕ) : ℝ) ≤ 10101 := by push_cast; linarith
  obtain ⟨q1, q2⟩ := x_ap hA hx0 x330 B1 (B2.trans (by norm_num))
  have ap0 : ap'.val ≠ 0 := by have := hA.err.2.1; linarith
  have d1 := (div_spec fx hA.fin ap0).2.1
  rw [← d1] at q1 q2
  have fq : (x / ap').isFin = true := by rw [isFin_iff_val]; exact q1
  have T0 := ser_pos a0 x0 j
  have T1 := ser_pos a0 x0 (j + 1)
  have Tle := ser_le a0 x0 hx1 (j + 1)
  have ia : 1 / a.val ≤ 10^12 := by
    rw [div_le_iff₀ a0]; rw [div_le_iff₀ (by norm_num)] at ha; linarith
  have ia0 : 1 / 100 ≤ 1 / a.val := one_div_le_one_div_of_le a0 ha1.le
  have tle2 : serTerm a.val x.val (j + 1) ≤ 1.2 * 10^12 := by
    have : 1.1 / a.val = 1.1 * (1 / a.val) := by ring
    rw [this] at Tle
    norm_num at *; linarith
  have sS := serTerm_succ (a := a.val) (x := x.val) j
  have q0 : 1 / 10^33 ≤ x.val / (a.val + ((j + 1 : ℕ) : ℝ)) := by
    rw [le_div_iff₀ (by linarith)]
    norm_num at *; linarith
  have tge : 1 / 10^51 ≤ serTerm a.val x.val (j + 1) := by
    rw [sS]
    have := mul_le_mul hT q0 (by norm_num) T0.le
    refine le_trans (by norm_num) this
  have mm := m_rel I.de q2 T0 (lt_of_lt_of_le (by norm_num) q0) (by positivity) (by norm_num) (by
      refine (div_le_div_of_nonneg_right (show 8 * (j:ℝ) + 1.1 ≤ 90000 by norm_num; linarith) (by norm_num)).trans (by norm_num)) (by norm_num)
    (by rw [← sS]; exact le_trans (by norm_num) tge) (by rw [← sS]; exact tle2.trans (by norm_num))
  rw [← sS] at mm
  have m1 := (mul_spec I.df fq).2.1
  rw [← e2] at m1
  rw [← m1] at mm
  have fd : del'.isFin = true := by rw [isFin_iff_val]; exact mm.1
  have de : |del'.val - serTerm a.val x.val (j + 1)| ≤ (8 * ((j + 1 : ℕ) : ℝ) + 1.1) / 2^53 * serTerm a.val x.val (j + 1) := by
    refine mm.2.trans (mul_le_mul_of_nonneg_right ?_ T1.le)
    push_cast
    norm_num
    linarith
  have sS2 := Ss_succ a.val x.val j
  have S0 := Ss_ge a0 x0 j
  have S1 := Ss_ge a0 x0 (j + 1)
  have S2 := Ss_le a0 x0 hx1 (j + 1)
  have s2le : Ss a.val x.val (j + 1) ≤ 10^20 := by
    have h1 : 1.1 / a.val ≤ 1.2 * 10^12 := by
      have : 1.1 / a.val = 1.1 * (1 / a.val) := by ring
      rw [this]; norm_num at *; linarith
    have : (((j + 1 : ℕ):ℝ) + 1) * (1.1 / a.val) ≤ 10001 * (1.2 * 10^12) := mul_le_mul (by push_cast; linarith) h1 (by positivity) (by norm_num)
    refine S2.trans (this.trans (by norm_num))
  have pre : |sum.val + del'.val - Ss a.val x.val (j + 1)| ≤ (9 * j + 9.8) / 2^53 * Ss a.val x.val (j + 1) := by
    rw [sS2, show sum.val + del'.val - (Ss a.val x.val j + serTerm a.val x.val (j + 1)) = (sum.val - Ss a.val x.val j) + (del'.val - serTerm a.val x.val (j + 1)) by ring]
    refine (abs_add_le _ _).trans ((add_le_add I.se de).trans ?_)
    have u1 : (9 * (j:ℝ) + 2) / 2^53 * Ss a.val x.val j ≤ (9 * j + 9.8) / 2^53 * Ss a.val x.val j :=
      mul_le_mul_of_nonneg_right (by norm_num; linarith) (by linarith)
    have u2 : (8 * ((j + 1 : ℕ) : ℝ) + 1.1) / 2^53 * serTerm a.val x.val (j + 1) ≤ (9 * j + 9.8) / 2^53 * serTerm a.val x.val (j + 1) :=
      mul_le_mul_of_nonneg_right (by push_cast; norm_num; linarith) T1.le
    linarith
  have rel : (9 * (j:ℝ) + 9.8) / 2^53 * Ss a.val x.val (j + 1) ≤ 1 / 1000 * Ss a.val x.val (j + 1) :=
    mul_le_mul_of_nonneg_right ((div_le_div_of_nonneg_right (show 9 * (j:ℝ) + 9.8 ≤ 100000 by norm_num; linarith) (by norm_num)).trans (by norm_num)) (by linarith)
  obtain ⟨k1, k2⟩ := abs_le.1 pre
  obtain ⟨r1, r2⟩ := rn_rel (y := sum.val + del'.val) (by norm_num at *; linarith) (by norm_num at *; linarith)
  have a1 := (add_spec I.sf fd).2
  rw [← e3] at a1
  rw [← a1] at r1 r2
  refine ⟨Or.inr ⟨by omega, hA⟩, fd, de, by rw [isFin_iff_val]; exact r1, ?_⟩
  have := abs_add_le (sum'.val - (sum.val + del'.val)) (sum.val + del'.val - Ss a.val x.val (j + 1))
  rw [sub_add_sub_cancel] at this
  refine this.trans ((add_le_add r2 pre).trans ?_)
  have : sum.val + del'.val ≤ 1.001 * Ss a.val x.val (j + 1) := by norm_num at *; linarith
  generalize Ss a.val x.val (j + 1) = S at *
  push_cast
  have e4 : (9 * ((j:ℝ) + 1) + 2) / 2^53 * S = (9 * j + 9.8) / 2^53 * S + 1.2 / 2^53 * S := by ring
  rw [e4]
  norm_num at *
  linarith

theorem stop_cmp {del sum : F64} {T S : ℝ} (df : del.isFin = true) (sf : sum.isFin = true) (hd : |del.val - T| ≤ 1 / 10^10 * T) (hs : |sum.val - S| ≤ 1 / 10^10 * S)
    (T0 : 0 < T) (S1 : 1 / 100 ≤ S) (S2 : S ≤ 10^20) :
    (F64.lt (F64.abs del) (F64.abs sum * EPS) = true → T ≤ 1.001 / 2^52 * S) ∧ (F64.lt (F64.abs del) (F64.abs sum * EPS) = false → 1 / 10^18 ≤ T) := by
  obtain ⟨d1, d2⟩ := abs_le.1 hd
  obtain ⟨s1, s2⟩ := abs_le.1 hs
  have del0 : 0 < del.val := by norm_num at *; linarith
  have sum0 : 0 < sum.val := by norm_num at *; linarith
  have m := (mul_spec (a := F64.abs sum) (b := EPS) (by rw [isFin_abs]; exact sf) lit_EPS_fin).2.1
  rw [val_abs, abs_of_pos sum0, lit_EPS_val] at m
  obtain ⟨r1, r2⟩ := rn_rel (y := sum.val * 2^(-52:ℤ)) (by norm_num at *; linarith) (by norm_num at *; linarith)
  rw [← m] at r1 r2
  have fm : (F64.abs sum * EPS).isFin = true := by rw [isFin_iff_val]; exact r1
  obtain ⟨k1, k2⟩ := abs_le.1 r2
  generalize F64.abs sum * EPS = w at *
  constructor
  · intro h
    have := (lt_iff.1 h).2.2
    rw [val_abs, abs_of_pos del0] at this
    norm_num at *
    linarith
  · intro h
    rw [lt_false_iff (isFin_notNaN (by rw [isFin_abs]; exact df)) (isFin_notNaN fm), val_abs, abs_of_pos del0] at h
    norm_num at *
    linarith

theorem gserLoop_acc {a x : F64} (ha : 1 / 10^12 ≤ a.val) (ha1 : a.val < 100) (hx0 : 1 / 10^28 ≤ x.val) (hx1 : x.val ≤ a.val + 1.1) :
    ∀ (n j : ℕ) (ap del sum : F64), j + n = 10000 → SInv a x j ap del sum → 1 / 10^18 ≤ serTerm a.val x.val j →
      ∃ m ≤ 10000, (gserLoop x n ap del sum).isFin = true ∧
        |(gserLoop x n ap del sum).val - Ss a.val x.val m| ≤ (9 * m + 2) / 2^53 * Ss a.val x.val m ∧
        (m = 10000 ∨ (1 ≤ m ∧ serTerm a.val x.val m ≤ 1.001 / 2^52 * Ss a.val x.val m)) := by
  have a0 : 0 < a.val := lt_of_lt_of_le (by norm_num) ha
  have x0 : 0 < x.val := lt_of_lt_of_le (by norm_num) hx0
  intro n
  induction n with
  | zero => intro j ap del sum hj I _; exact ⟨j, by omega, I.sf, I.se, Or.inl (by omega)⟩
  | succ n ih =>
    intro j ap del sum hj I hT
    have I' := sinv_step ha ha1 hx0 hx1 (by omega) I hT rfl rfl rfl
    have jK : ((j + 1 : ℕ):ℝ) ≤ 10000 := by exact_mod_cast (show j + 1 ≤ 10000 by omega)
    have j0 : (0:ℝ) ≤ ((j + 1 : ℕ):ℝ) := Nat.cast_nonneg _
    have T0 := ser_pos a0 x0 (j + 1)
    have S1 := Ss_ge a0 x0 (j + 1)
    have ia0 : 1 / 100 ≤ 1 / a.val := one_div_le_one_div_of_le a0 ha1.le
    have ia : 1 / a.val ≤ 10^12 := by
      rw [div_le_iff₀ a0]; rw [div_le_iff₀ (by norm_num)] at ha; linarith
    have S2 := Ss_le a0 x0 hx1 (j + 1)
    have s2le : Ss a.val x.val (j + 1) ≤ 10^20 := by
      have h1 : 1.1 / a.val ≤ 1.2 * 10^12 := by
        have : 1.1 / a.val = 1.1 * (1 / a.val) := by ring
        rw [this]; norm_num at *; linarith
      have : (((j + 1 : ℕ):ℝ) + 1) * (1.1 / a.val) ≤ 10001 * (1.2 * 10^12) := mul_le_mul (by linarith) h1 (by positivity) (by norm_num)
      refine S2.trans (this.trans (by norm_num))
    have cmp := stop_cmp I'.df I'.sf
      (I'.de.trans (mul_le_mul_of_nonneg_right ((div_le_div_of_nonneg_right (show 8 * ((j + 1 : ℕ):ℝ) + 1.1 ≤ 90000 by norm_num at *; linarith) (by norm_num)).trans (by norm_num)) T0.le))
      (I'.se.trans (mul_le_mul_of_nonneg_right ((div_le_div_of_nonneg_right (show 9 * ((j + 1 : ℕ):ℝ) + 2 ≤ 100000 by norm_num at *; linarith) (by norm_num)).trans (by norm_num)) (by linarith)))
      T0 (by linarith) s2le
    unfold gserLoop
    simp only [ar_lt, ar_abs]
    split
    · rename_i hs
      exact ⟨j + 1, by omega, I'.sf, I'.se, Or.inr ⟨by omega, cmp.1 hs⟩⟩
    · rename_i hs
      exact ih _ _ _ _ (by omega) I' (cmp.2 (by simpa using hs))

/-- the series as computed, and its value -/
theorem gser_sum {a x : F64} (ha : 1 / 10^12 ≤ a.val) (ha1 : a.val < 100) (hx0 : 1 / 10^28 ≤ x.val) (hx1 : x.val ≤ a.val + 1.1) :
    ∃ G, 1 / 10^6 ≤ G ∧ G ≤ 10^30 ∧ lowerGamma a.val x.val = x.val ^ a.val * Real.exp (-x.val) * G ∧
      (gserLoop x 10000 a (1.0 / a) (1.0 / a)).isFin = true ∧ |(gserLoop x 10000 a (1.0 / a) (1.0 / a)).val - G| ≤ 1 / 10^10 * G := by
  have a0 : 0 < a.val := lt_of_lt_of_le (by norm_num) ha
  have x0 : 0 < x.val := lt_of_lt_of_le (by norm_num) hx0
  have fa : a.isFin = true := isFin_of_abs (b := 100) (by rw [abs_of_pos a0]; exact ha1.le) (by norm_num)
  have fo : (1.0 : F64).isFin = true := by decide +kernel
  have ia0 : 1 / 100 ≤ 1 / a.val := one_div_le_one_div_of_le a0 ha1.le
  have ia : 1 / a.val ≤ 10^12 := by
    rw [div_le_iff₀ a0]; rw [div_le_iff₀ (by norm_num)] at ha; linarith
  have d := (div_spec (a := (1.0 : F64)) fo fa a0.ne').2.1
  rw [one_val] at d
  obtain ⟨r1, r2⟩ := rn_rel (y := 1 / a.val) (le_trans (by norm_num) ia0) (ia.trans (by norm_num))
  rw [← d] at r1 r2
  have f1 : ((1.0 : F64) / a).isFin = true := by rw [isFin_iff_val]; exact r1
  have I : SInv a x 0 a (1.0 / a) (1.0 / a) := by
    refine ⟨Or.inl ⟨rfl, rfl⟩, f1, ?_, f1, ?_⟩
    · rw [ser_zero]; refine r2.trans (mul_le_mul_of_nonneg_right (by norm_num) (by positivity))
    · rw [Ss_zero]; refine r2.trans (mul_le_mul_of_nonneg_right (by norm_num) (by positivity))
  obtain ⟨m, hm, h1, h2, h3⟩ := gserLoop_acc ha ha1 hx0 hx1 10000 0 _ _ _ rfl I (by rw [ser_zero]; exact le_trans (by norm_num) ia0)
  have mK : (m:ℝ) ≤ 10000 := by exact_mod_cast hm
  have hm1 : 1 ≤ m := by rcases h3 with h | h <;> omega
  have m1 : (1:ℝ) ≤ m := by exact_mod_cast hm1
  have S1 := Ss_ge a0 x0 m
  have T0 := ser_pos a0 x0 m
  have hT : serTerm a.val x.val m ≤ 1.001 / 2^52 * Ss a.val x.val m := by
    rcases h3 with rfl | ⟨_, h⟩
    · exact (ser_late a0 ha1 x0 hx1).trans (mul_le_mul_of_nonneg_right (by norm_num) (by linarith))
    · exact h
  obtain ⟨t1, t2⟩ := lowerGamma_trunc a0 x0.le m (by push_cast; norm_num at hx1; linarith)
  have p := scale_pos (a := a.val) x0
  have eS : ∑ k ∈ Finset.range (m + 1), serTerm a.val x.val k = Ss a.val x.val m := rfl
  rw [eS] at t1 t2
  have tail : serTerm a.val x.val m * (x.val / (a.val + (m + 1 : ℕ) - x.val)) ≤ 1 / 10^12 * Ss a.val x.val m := by
    have : x.val / (a.val + (m + 1 : ℕ) - x.val) ≤ 115 := by
      push_cast
      norm_num at hx1
      rw [div_le_iff₀ (by linarith)]
      linarith
    have := mul_le_mul_of_nonneg_left this T0.le
    norm_num at *
    linarith
  refine ⟨lowerGamma a.val x.val / (x.val ^ a.val * Real.exp (-x.val)), ?_⟩
  have g1 : Ss a.val x.val m ≤ lowerGamma a.val x.val / (x.val ^ a.val * Real.exp (-x.val)) := by
    rw [le_div_iff₀ p]; linarith
  have g2 : lowerGamma a.val x.val / (x.val ^ a.val * Real.exp (-x.val)) ≤ (1 + 1 / 10^12) * Ss a.val x.val m := by
    rw [div_le_iff₀ p]
    have := mul_le_mul_of_nonneg_left tail p.le
    linarith
  have S2 := Ss_le a0 x0 hx1 m
  have s2le : Ss a.val x.val m ≤ 10^20 := by
    have h1 : 1.1 / a.val ≤ 1.2 * 10^12 := by
      have : 1.1 / a.val = 1.1 * (1 / a.val) := by ring
      rw [this]; norm_num at *; linarith
    have : ((m:ℝ) + 1) * (1.1 / a.val) ≤ 10001 * (1.2 * 10^12) := mul_le_mul (by linarith) h1 (by positivity) (by norm_num)
    refine S2.trans (this.trans (by norm_num))
  have h4 : |(gserLoop x 10000 a (1.0 / a) (1.0 / a)).val - Ss a.val x.val m| ≤ 2 / 10^11 * Ss a.val x.val m :=
    h2.trans (mul_le_mul_of_nonneg_right ((div_le_div_of_nonneg_right (show 9 * (m:ℝ) + 2 ≤ 100000 by linarith) (by norm_num)).trans (by norm_num)) (by linarith))
  refine ⟨?_, ?_, by field_simp, h1, ?_⟩
  · norm_num at *; linarith
  · norm_num at *; linarith
  · obtain ⟨k1, k2⟩ := abs_le.1 h4
    generalize lowerGamma a.val x.val / (x.val ^ a.val * Real.exp (-x.val)) = G at *
    rw [abs_le]
    norm_num at *
    constructor <;> linarith

theorem gser_acc [Libm F64] (L : LibmUlp) {a x : F64} (ha : 1 / 10^12 ≤ a.val) (ha1 : a.val < 100) (hx0 : 1 / 10^28 ≤ x.val) (hx1 : x.val ≤ a.val + 1.1) :
    (gser a x).isFin = true ∧ |(gser a x).val - regP a.val x.val| ≤ 9 / 10^9 + 8 / 10^13 / a.val := by
  have a0 : 0 < a.val := lt_of_lt_of_le (by norm_num) ha
  have x0 : 0 < x.val := lt_of_lt_of_le (by norm_num) hx0
  obtain ⟨G, G1, G2, hG, hf, hh⟩ := gser_sum ha ha1 hx0 hx1
  obtain ⟨lf, hl⟩ := logRes_ab L ha ha1 (x := x) hx0 (by norm_num at hx1; linarith)
  obtain ⟨j0, j1⟩ := j_bd ha
  have hg := Real.Gamma_pos_of_pos a0
  have hR : regP a.val x.val = Real.exp (Lr a.val x.val) * G := by
    have e : Real.exp (Lr a.val x.val) = x.val^a.val * Real.exp (-x.val) / Real.Gamma a.val := by
      unfold Lr
      rw [Real.exp_sub, Real.exp_log hg, Real.exp_add, Real.rpow_def_of_pos x0, mul_comm (Real.log x.val) a.val]; ring
    unfold regP
    rw [e, hG]; ring
  have hR1 : regP a.val x.val ≤ 1 := by
    have := regP_add_regQ a0 x0.le
    have := regQ_nonneg a0 x0
    linarith
  have G0 : 0 < G := lt_of_lt_of_le (by norm_num) G1
  obtain ⟨s1, s2, s3⟩ := scale_acc L lf (hl.trans (add_le_add_left (by norm_num) _)) j0 j1 hf (hh.trans (mul_le_mul_of_nonneg_right (by norm_num) G0.le)) G1 G2 hR hR1
  have ej : 8 / 10^13 / a.val = 1.6 * (5 / 10^13 / a.val) := by ring
  rw [gser_eq, s1, if_neg Bool.false_ne_true, ej]
  generalize 5 / 10^13 / a.val = j at *
  cases hc : F64.lt (-x + a * Libm.ln x - lnGamma a) (-700.0) with
  | true =>
    rw [if_pos rfl]
    refine ⟨by decide +kernel, ?_⟩
    have h1 := s2 hc
    have h2 := regP_nonneg a0 x0.le
    rw [zero_val, abs_le]
    norm_num at *
    constructor <;> linarith
  | false =>
    rw [if_neg Bool.false_ne_true]
    obtain ⟨-, t2, -, t4⟩ := s3 hc
    exact ⟨t2, t4⟩

end Gcf
end Verif
