import Verif.Proofs.Bessel2
import Verif.Proofs.OIv

/-! # Bounds on `j0` and `j1`, by interval arithmetic over a subdivision of the whole range -/

namespace Verif
open F64 OIv
set_option linter.unusedSectionVars false

/-- interval version of `hornerL` -/
def hornerO (I : OIv) : List F64 → OIv
  | [] => 0.0
  | [c] => pt c
  | c :: cs => pt c + I * hornerO I cs

theorem rel_hornerL {I : OIv} {x : F64} (h : Encl I x) : ∀ cs : List F64, Encl (hornerO I cs) (hornerL x cs)
  | [] => rel_lit _ _ _
  | [c] => rel_pt c
  | c :: d :: cs => rel_add (rel_pt c) (rel_mul h (rel_hornerL h (d :: cs)))

/-- `j0` for `|x| < 8` as a function of `y = x²` -/
def j0SmallO (I : OIv) : OIv :=
  hornerO (64.0 - I) J0R * (I - pt XJ00) * (I - pt XJ10) / hornerO I J0S

/-- `j1` for `|x| < 8` -/
def j1SmallO (X : OIv) : OIv :=
  X * hornerO (64.0 - X * X) J1R * (X * X - pt XJ01) * (X * X - pt XJ11) / hornerO (X * X) J1S

/-- break points in `y = x²` from 0 to 64 (as bit patterns) -/
def cells0 : List F64 := List.map F64.ofBits
  [0x3c67000000000000, 0x3c81400000000000, 0x3c94200000000000, 0x3ca5900000000000, 0x3cb6400000000000, 0x3cc6a00000000000,
   0x3cd6d00000000000, 0x3ce6e00000000000, 0x3cf6f00000000000, 0x3d06f00000000000, 0x3d16f00000000000, 0x3d26f00000000000,
   0x3d36f00000000000, 0x3d46f00000000000, 0x3d56f00000000000, 0x3d66f00000000000, 0x3d76f00000000000, 0x3d86f00000000000,
   0x3d96f00000000000, 0x3da6f00000000000, 0x3db6f00000000000, 0x3dc6f00000000000, 0x3dd6f00000000000, 0x3de6f00000000000,
   0x3df6f00000000000, 0x3e06f00000000000, 0x3e16f00000000000, 0x3e26f00000000000, 0x3e36f00000000000, 0x3e46f00000000000,
   0x3e56f00000000000, 0x3e66f00000000000, 0x3e76f00000000000, 0x3e86f00000000000, 0x3e96f00000000000, 0x3ea6f00000000000,
   0x3eb6f00000000000, 0x3ec6f00000000000, 0x3ed6f00000000000, 0x3ee6f00000000000, 0x3ef6f00000000000, 0x3f06f00000000000,
   0x3f16f00000000000, 0x3f26f00000000000, 0x3f36f00000000000, 0x3f46f00000000000, 0x3f56f00000000000, 0x3f66f00000000000,
   0x3f76f00000000000, 0x3f86f00000000000, 0x3f96f00000000000, 0x3fa6f00000000000, 0x3fb6f00000000000, 0x3fc6f00000000000,
   0x3fd6f00000000000, 0x3fe6f00000000000, 0x3ff6f00000000000, 0x4006f00000000000, 0x4016f00000000000, 0x4026f00000000000,
   0x4034100000000000, 0x4042a00000000000, 0x4049e00000000000, 0x4050000000000000]

/-- break points in `x` from 0 to 8 (as bit patterns) -/
def cells1 : List F64 := List.map F64.ofBits
  [0x3ff0000000000000, 0x4001000000000000, 0x400b200000000000, 0x4013400000000000, 0x4018000000000000, 0x4020000000000000]

theorem cells0_ok : cover (fun a b => (j0SmallO (mk2 a b)).inside (-1.0) 1.0) (0.0 :: cells0) = true := by decide +kernel
theorem cells1_ok : cover (fun a b => (j1SmallO (mk2 a b)).inside (-1.0) 1.0) (0.0 :: cells1) = true := by decide +kernel

theorem last_aux {l : List F64} {v : F64} (h0 : l.isEmpty = false) (h : l.getLast? = some v) :
    ∃ b t, l = b :: t ∧ (((0.0 : F64) :: b :: t).getLast (List.cons_ne_nil _ _)) = v := by
  cases l with
  | nil => cases h0
  | cons b t =>
    refine ⟨b, t, rfl, ?_⟩
    rw [List.getLast_cons (List.cons_ne_nil _ _)]
    rw [List.getLast?_eq_getLast_of_ne_nil (List.cons_ne_nil _ _)] at h
    exact Option.some.inj h

theorem cells0_last : ∃ b l, cells0 = b :: l ∧ (((0.0 : F64) :: b :: l).getLast (List.cons_ne_nil _ _)) = 64.0 := by
  exact last_aux (by decide +kernel) (by decide +kernel)

theorem cells1_last : ∃ b l, cells1 = b :: l ∧ (((0.0 : F64) :: b :: l).getLast (List.cons_ne_nil _ _)) = 8.0 := by
  exact last_aux (by decide +kernel) (by decide +kernel)

/-- a finite number is at most `f64::MAX` -/
theorem fin_le_max {a : F64} (h : a.isFin = true) : a.val ≤ (1.7976931348623157e308 : F64).val := by
  refine le_trans (le_abs_self _) ?_
  have h1 : a.mag ≤ INFMAG - 1 := by have := isFin_iff.1 h; omega
  have h2 : (1.7976931348623157e308 : F64).mag = INFMAG - 1 := by decide +kernel
  have h0 : 0 ≤ (1.7976931348623157e308 : F64).val := by
    have := (le_iff.1 (by decide +kernel : F64.le 0.0 1.7976931348623157e308 = true)).2.2
    rwa [Verif.zero_val] at this
  rw [← abs_of_nonneg h0, abs_val, abs_val, h2]
  exact ivU_mono.2 h1

variable [Libm F64] [Cfg]

theorem j0_small_bound {x : F64} (h : F64.lt x.abs 8.0 = true) :
    (j0 x).isFin = true ∧ (-1.0 : F64).val ≤ (j0 x).val ∧ (j0 x).val ≤ (1.0 : F64).val := by
  have h8 : (8.0 : F64).val = ((8:ℤ):ℝ) := val_of_int 8 (by decide +kernel)
  have h64 : (64.0 : F64).val = ((64:ℤ):ℝ) := val_of_int 64 (by decide +kernel)
  have hl := (lt_iff.1 h).2.2
  rw [h8, F64.val_abs] at hl
  have hf : x.isFin = true := isFin_iff_val.2 (lt_trans hl (lt_of_lt_of_le (by norm_num) HUGE_ge))
  have S := mul_spec hf hf
  have y0 : 0 ≤ (x * x).val := by rw [S.2.1]; exact RN_nonneg (mul_self_nonneg _)
  have y1 : (x * x).val ≤ (64.0 : F64).val := by
    rw [S.2.1, h64, ← RN_int 64 (by norm_num)]
    apply RN_mono
    have := abs_lt.1 hl
    push_cast at this ⊢
    nlinarith
  obtain ⟨b, l, e1, e2⟩ := cells0_last
  have hc := cells0_ok
  rw [e1] at hc
  obtain ⟨lo, hi, h1, h2, h3⟩ := cover_two (x := x * x) hc (by rw [Verif.zero_val]; exact y0) (by rw [e2]; exact y1)
  have hy : Encl (mk2 lo hi) (x * x) := rel_mk2 h2 h3
  have l64 : Encl (64.0 : OIv) (64.0 : F64) := rel_lit _ _ _
  have := rel_inside (rel_div (rel_mul (rel_mul (rel_hornerL (rel_sub (l64) hy) J0R) (rel_sub hy (rel_pt XJ00)))
    (rel_sub hy (rel_pt XJ10))) (rel_hornerL hy J0S)) h1
  unfold j0 rat
  simp only [ar_abs, ar_lt]
  rw [if_pos h]
  exact this

theorem j1_small_bound {x : F64} (h : F64.lt x.abs 8.0 = true) (hp : 0 ≤ x.val) :
    (j1 x).isFin = true ∧ (-1.0 : F64).val ≤ (j1 x).val ∧ (j1 x).val ≤ (1.0 : F64).val := by
  have h8 : (8.0 : F64).val = ((8:ℤ):ℝ) := val_of_int 8 (by decide +kernel)
  have hl := (lt_iff.1 h).2.2
  rw [F64.val_abs] at hl
  obtain ⟨b, l, e1, e2⟩ := cells1_last
  have hc := cells1_ok
  rw [e1] at hc
  obtain ⟨lo, hi, h1, h2, h3⟩ := cover_two (x := x) hc (by rw [Verif.zero_val]; exact hp) (by rw [e2]; exact le_trans (le_abs_self _) hl.le)
  have hx : Encl (mk2 lo hi) x := rel_mk2 h2 h3
  have hy := rel_mul hx hx
  have l64 : Encl (64.0 : OIv) (64.0 : F64) := rel_lit _ _ _
  have := rel_inside (rel_div (rel_mul (rel_mul (rel_mul hx (rel_hornerL (rel_sub (l64) hy) J1R)) (rel_sub hy (rel_pt XJ01)))
    (rel_sub hy (rel_pt XJ11))) (rel_hornerL hy J1S)) h1
  unfold j1 rat
  simp only [ar_abs, ar_lt]
  rw [if_pos h]
  exact this

/-- the asymptotic form for `|x| ≥ 8`, `S`/`C` the sine and cosine -/
def aspO (Y : OIv) (pn pd qn qd : List F64) : OIv :=
  mk2 (-1.0) 1.0 * hornerO (Y * Y) pn / hornerO (Y * Y) pd - Y * mk2 (-1.0) 1.0 * hornerO (Y * Y) qn / hornerO (Y * Y) qd

/-- break points in `z = 8/|x|` from 0 to 1 -/
def cellsA : List F64 := [0.25, 0.5, 0.75, 1.0]

theorem asp_bound (L : LibmSpec) {ax fac : F64} (hf : ax.isFin = true) (h8 : 8 ≤ ax.val) (hfac : (ax - fac * PIO4).isFin = true) (pn pd qn qd : List F64)
    (hO : cover (fun a b => (mk2 0.0 0.5 * aspO (mk2 a b) pn pd qn qd).inside (-1.0) 1.0) (0.0 :: cellsA) = true) :
    let r := asp ax pn pd qn qd fac
    let v := F64.sqrt (TWOOPI / ax) * (Libm.cos r.xx * r.nump / r.denp - r.z * Libm.sin r.xx * r.numq / r.denq)
    v.isFin = true ∧ |v.val| ≤ 1 := by
  intro r v
  have e8 : (8.0 : F64).val = ((8:ℤ):ℝ) := val_of_int 8 (by decide +kernel)
  have hax : Encl (mk2 8.0 1.7976931348623157e308) ax := rel_mk2 (by rw [e8]; exact_mod_cast h8) (fin_le_max hf)
  have l8 : Encl (8.0 : OIv) (8.0 : F64) := rel_lit _ _ _
  have hz := rel_inside (rel_div l8 hax) (l := 0.0) (h := 1.0) (by decide +kernel)
  obtain ⟨lo, hi, h1, h2, h3⟩ := cover_two (x := 8.0 / ax) hO hz.2.1 hz.2.2
  have hzE : Encl (mk2 lo hi) (8.0 / ax : F64) := rel_mk2 h2 h3
  have hq := rel_inside (rel_div (rel_pt (TWOOPI : F64)) hax) (l := F64.ofBits 1) (h := 0.25) (by decide +kernel)
  have q0 : 0 < (TWOOPI / ax : F64).val := by
    have := (lt_iff.1 (by decide +kernel : F64.lt 0.0 (F64.ofBits 1) = true)).2.2
    rw [Verif.zero_val] at this
    linarith [hq.2.1]
  obtain ⟨-, sv, -⟩ := sqrt_spec hq.1 q0
  have e25 : (0.25 : F64).val = 1/4 := by
    have := val_of_sv (x := (0.25 : F64)) 1 4 (by norm_num) (by decide +kernel)
    rw [this]; norm_num
  have hs : Encl (mk2 0.0 0.5) (F64.sqrt (TWOOPI / ax : F64)) := by
    refine rel_mk2 ?_ ?_
    · rw [sv, Verif.zero_val]; exact RN_nonneg (Real.sqrt_nonneg _)
    · have eh : RN ((0.5 : F64).val) = (0.5 : F64).val := RN_val (by decide +kernel)
      rw [sv, ← eh]
      apply RN_mono
      rw [half_val]
      have := hq.2.2
      rw [e25] at this
      exact (Real.sqrt_le_left (by norm_num)).2 (by linarith)
  have em1 : (-1.0 : F64).val = -1 := by rw [show (-1.0 : F64) = -(1.0) from rfl, val_neg, Verif.one_val]
  have hcE : Encl (mk2 (-1.0) 1.0) (Libm.cos r.xx) := by
    have := abs_le.1 (L.cos_num _ hfac).2
    exact rel_mk2 (by rw [em1]; exact this.1) (by rw [Verif.one_val]; exact this.2)
  have hsE : Encl (mk2 (-1.0) 1.0) (Libm.sin r.xx) := by
    have := abs_le.1 (L.sin_num _ hfac).2
    exact rel_mk2 (by rw [em1]; exact this.1) (by rw [Verif.one_val]; exact this.2)
  have hy := rel_mul hzE hzE
  have := rel_inside (rel_mul hs (rel_sub (rel_div (rel_mul hcE (rel_hornerL hy pn)) (rel_hornerL hy pd))
    (rel_div (rel_mul (rel_mul hzE hsE) (rel_hornerL hy qn)) (rel_hornerL hy qd)))) h1
  refine ⟨this.1, ?_⟩
  rw [em1, Verif.one_val] at this
  exact abs_le.2 ⟨this.2.1, this.2.2⟩

theorem asp0_ok : cover (fun a b => (mk2 0.0 0.5 * aspO (mk2 a b) J0PN J0PD J0QN J0QD).inside (-1.0) 1.0) (0.0 :: cellsA) = true := by
  decide +kernel
theorem asp1_ok : cover (fun a b => (mk2 0.0 0.5 * aspO (mk2 a b) J1PN J1PD J1QN J1QD).inside (-1.0) 1.0) (0.0 :: cellsA) = true := by
  decide +kernel

theorem large_ax {x : F64} (hf : x.isFin = true) (h : ¬ F64.lt x.abs 8.0 = true) : x.abs.isFin = true ∧ 8 ≤ x.abs.val := by
  have e8 : (8.0 : F64).val = ((8:ℤ):ℝ) := val_of_int 8 (by decide +kernel)
  have hfa : x.abs.isFin = true := by rw [isFin_iff_val, F64.val_abs, abs_abs]; exact isFin_iff_val.1 hf
  rw [Bool.not_eq_true, lt_false_iff (isFin_notNaN hfa) (by decide +kernel), e8] at h
  exact ⟨hfa, by exact_mod_cast h⟩

theorem xx_fin {ax fac : F64} (hf : ax.isFin = true) (h8 : 8 ≤ ax.val) (hc : (pt fac * pt PIO4).inside 0.0 8.0 = true) :
    (ax - fac * PIO4).isFin = true := by
  have e8 : (8.0 : F64).val = ((8:ℤ):ℝ) := val_of_int 8 (by decide +kernel)
  have h := rel_inside (rel_mul (rel_pt fac) (rel_pt (PIO4 : F64))) hc
  rw [e8, Verif.zero_val] at h
  have S := sub_spec hf h.1
  have h82 := h.2.2
  push_cast at h82
  rw [isFin_iff_val, S.2, abs_of_nonneg (RN_nonneg (by linarith))]
  refine lt_of_le_of_lt (RN_mono (y := ax.val) (by linarith [h.2.1])) ?_
  rw [RN_val (isFin_notNaN hf)]; exact fin_lt hf

/-- `|j0(x)| ≤ 1` for every finite `x` -/
theorem j0_bound (L : LibmSpec) {x : F64} (hf : x.isFin = true) : (j0 x).isFin = true ∧ |(j0 x).val| ≤ 1 := by
  by_cases h : F64.lt x.abs 8.0 = true
  · have := j0_small_bound h
    have em1 : (-1.0 : F64).val = -1 := by rw [show (-1.0 : F64) = -(1.0) from rfl, val_neg, Verif.one_val]
    rw [em1, Verif.one_val] at this
    exact ⟨this.1, abs_le.2 this.2⟩
  · obtain ⟨hfa, h8⟩ := large_ax hf h
    have := asp_bound L hfa h8 (xx_fin (fac := 1.0) hfa h8 (by decide +kernel)) J0PN J0PD J0QN J0QD asp0_ok
    unfold j0
    simp only [ar_abs, ar_lt, ar_sqrt]
    rw [if_neg h]
    exact this

/-- `|j1(x)| ≤ 1` for every finite `x` -/
theorem j1_bound (L : LibmSpec) {x : F64} (hf : x.isFin = true) : (j1 x).isFin = true ∧ |(j1 x).val| ≤ 1 := by
  by_cases h : F64.lt x.abs 8.0 = true
  · have em1 : (-1.0 : F64).val = -1 := by rw [show (-1.0 : F64) = -(1.0) from rfl, val_neg, Verif.one_val]
    rcases le_total 0 x.val with hp | hp
    · have := j1_small_bound h hp
      rw [em1, Verif.one_val] at this
      exact ⟨this.1, abs_le.2 this.2⟩
    · have := j1_small_bound (x := -x) (by rw [abs_neg']; exact h) (by rw [val_neg]; linarith)
      rw [em1, Verif.one_val] at this
      have hb := abs_le.2 this.2
      rcases j1_neg x with e | ⟨n, -⟩
      · rw [e, val_neg, abs_neg] at hb
        refine ⟨?_, hb⟩
        rw [isFin_iff_val]
        exact lt_of_le_of_lt hb (lt_of_lt_of_le (by norm_num) HUGE_ge)
      · rw [isFin_notNaN this.1] at n; cases n
  · obtain ⟨hfa, h8⟩ := large_ax hf h
    have := asp_bound L hfa h8 (xx_fin (fac := 3.0) hfa h8 (by decide +kernel)) J1PN J1PD J1QN J1QD asp1_ok
    unfold j1
    simp only [ar_abs, ar_lt, ar_sqrt]
    rw [if_neg h]
    split
    · rw [val_neg, abs_neg]
      refine ⟨?_, this.2⟩
      rw [isFin_iff_val, val_neg, abs_neg]
      exact lt_of_le_of_lt this.2 (lt_of_lt_of_le (by norm_num) HUGE_ge)
    · exact this

end Verif
