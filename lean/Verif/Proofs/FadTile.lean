import Verif.Model.Faddeeva
import Verif.Proofs.Erfcx
import Verif.Proofs.Dawson

/-! # The tile table of faddeeva (src/faddeeva.rs): every reachable tile is covered -/

namespace Verif
open F64

theorem lookup_ok {β : Type} {l : List β} {i : Int} {v : β} (h0 : 0 ≤ i) (h : l[i.toNat]? = some v) : lookup l i = .ok v := by
  unfold lookup; rw [if_pos h0, h]

theorem lookup_lt {β : Type} {l : List β} {i : Int} (h0 : 0 ≤ i) (h : i < l.length) : ∃ v, lookup l i = .ok v :=
  ⟨_, lookup_ok h0 (List.getElem?_eq_getElem (by omega))⟩

theorem pairs_get (L : List (Int × Int)) : ∀ k, (L.flatMap fun p => [p.1, p.2])[2*k]? = (L[k]?).map Prod.fst ∧
    (L.flatMap fun p => [p.1, p.2])[2*k+1]? = (L[k]?).map Prod.snd := by
  induction L with
  | nil => intro k; simp
  | cons a L ih =>
    intro k
    cases k with
    | zero => simp
    | succ k =>
      have := ih k
      rw [List.flatMap_cons, show 2 * (k+1) = 2 * k + 2 by ring]
      simpa using this

/-- entry `p` of the table is usable, or no argument of the Taylor branch falls into tile `p` -/
def tileOk (p : ℕ) (t : Int × Int) : Bool :=
  (decide (0 ≤ t.1) && decide (t.1 ≤ 62) && decide (1 ≤ t.2) && decide (t.2 ≤ 23)) ||
  decide (2402 ≤ (p / 50) * (p / 50) + (p % 50) * (p % 50)) || decide (p = 0) ||
  decide (49 ≤ p / 50) || decide (49 ≤ p % 50)

def tilesOk : ℕ → List (Int × Int) → Bool
  | _, [] => true
  | p, t :: ts => tileOk p t && tilesOk (p+1) ts

theorem tiles_check : tilesOk 0 tileRows.flatten = true := by decide +kernel
theorem tiles_length : tileRows.flatten.length = 2500 := by decide +kernel
theorem taylor_length : taylorRows.flatten.length = 3024 := by decide +kernel

theorem tilesOk_get : ∀ (l : List (Int × Int)) (p k : ℕ) (t : Int × Int), tilesOk p l = true → l[k]? = some t → tileOk (p + k) t = true := by
  intro l
  induction l with
  | nil => intro p k t _ h; simp at h
  | cons a l ih =>
    intro p k t h hk
    rw [tilesOk, Bool.and_eq_true] at h
    cases k with
    | zero => simp at hk; subst hk; exact h.1
    | succ k =>
      simp at hk
      have := ih (p+1) k t h.2 hk
      rwa [show p + 1 + k = p + (k + 1) by ring] at this

/-- what the table says about tile `(ix, iy)` -/
theorem tile_entry {ix iy : ℕ} (hx : ix < 49) (hy : iy < 49) : ∃ kp nk : Int,
    lookup TILES (2 * ((ix:Int) * 50 + iy)) = .ok kp ∧ lookup TILES (2 * ((ix:Int) * 50 + iy) + 1) = .ok nk ∧
    ((0 ≤ kp ∧ kp ≤ 62 ∧ 1 ≤ nk ∧ nk ≤ 23) ∨ 2402 ≤ ix * ix + iy * iy ∨ (ix = 0 ∧ iy = 0)) := by
  have hp : ix * 50 + iy < tileRows.flatten.length := by rw [tiles_length]; omega
  have hg := List.getElem?_eq_getElem hp
  set t := tileRows.flatten[ix * 50 + iy]
  obtain ⟨g1, g2⟩ := pairs_get tileRows.flatten (ix * 50 + iy)
  rw [hg] at g1 g2
  refine ⟨t.1, t.2, ?_, ?_, ?_⟩
  · refine lookup_ok (by positivity) ?_
    rw [show (2 * ((ix:Int) * 50 + iy)).toNat = 2 * (ix * 50 + iy) by omega]; exact g1
  · refine lookup_ok (by positivity) ?_
    rw [show (2 * ((ix:Int) * 50 + iy) + 1).toNat = 2 * (ix * 50 + iy) + 1 by omega]; exact g2
  · have h := tilesOk_get _ 0 _ t tiles_check hg
    rw [zero_add] at h
    unfold tileOk at h
    rw [show (ix * 50 + iy) / 50 = ix by omega, show (ix * 50 + iy) % 50 = iy by omega] at h
    simp only [Bool.or_eq_true, Bool.and_eq_true, decide_eq_true_eq] at h
    rcases h with (((⟨⟨⟨a, b⟩, c⟩, d⟩ | h) | h) | h) | h
    · exact Or.inl ⟨a, b, c, d⟩
    · exact Or.inr (Or.inl h)
    · exact Or.inr (Or.inr (by omega))
    · omega
    · omega

theorem taylor_lookup {i : Int} (h0 : 0 ≤ i) (h : i < 3024) : ∃ v : F64, lookup TAYLOR i = .ok v := by
  refine lookup_lt h0 ?_
  unfold TAYLOR
  rw [List.length_map, taylor_length]; exact_mod_cast h

theorem taylorLoop_ok {idx : Int} {dz : Cx F64} (h0 : 0 ≤ idx) : ∀ (k : ℕ) (r : Cx F64), idx + 2 * k + 1 < 3024 → ∃ v, taylorLoop idx dz k r = .ok v := by
  intro k
  induction k with
  | zero => intro r _; exact ⟨r, rfl⟩
  | succ k ih =>
    intro r h
    obtain ⟨a, ha⟩ := taylor_lookup (i := idx + 2 * ((k+1 : ℕ) : Int)) (by omega) (by omega)
    obtain ⟨b, hb⟩ := taylor_lookup (i := idx + 2 * ((k+1 : ℕ) : Int) + 1) (by omega) (by omega)
    obtain ⟨v, hv⟩ := ih ((r.mul dz).add ⟨a, b⟩) (by push_cast at h; omega)
    refine ⟨v, ?_⟩
    rw [taylorLoop, ha, hb]; exact hv

/-! ## the floating-point side: which tile a point falls into -/

theorem seven_val : (7.0 : F64).val = 7 := by have := val_of_int (x := (7.0 : F64)) 7 (by decide +kernel); rw [this]; norm_num
theorem v49 : (49.0 : F64).val = 49 := by have := val_of_int (x := (49.0 : F64)) 49 (by decide +kernel); rw [this]; norm_num

/-- `7·x < 49` in floating point for every `x < 7` -/
theorem seven_mul_lt {x : F64} (hf : x.isFin = true) (h0 : x.neg = false) (h : x.val < 7) : (7.0 * x).val < 49 := by
  have h1 : x.mag < (7.0 : F64).mag := by
    rw [← seven_val, val_pos_form h0, val_pos_form (by decide +kernel)] at h
    exact ivU_strictMono.1 h
  set c : F64 := ⟨false, (7.0 : F64).mag - 1, by decide +kernel⟩ with hc
  have h2 : x.val ≤ c.val := by
    rw [val_pos_form h0, val_pos_form (a := c) rfl]
    apply ivU_mono.2
    show x.mag ≤ (7.0 : F64).mag - 1
    omega
  have f7 : (7.0 : F64).isFin = true := by decide +kernel
  have fc : c.isFin = true := by decide +kernel
  have hlt : (7.0 * c).val < 49 := by
    have : F64.lt (7.0 * c) 49.0 = true := by decide +kernel
    have := (lt_iff.1 this).2.2
    rwa [v49] at this
  rw [(Iv.mul_spec' f7 hf).2, seven_val]
  rw [(Iv.mul_spec' f7 fc).2, seven_val] at hlt
  exact lt_of_le_of_lt (RN_mono (by linarith)) hlt

/-- the tile coordinate of `x ∈ [0, 7)` -/
theorem tile_coord {x : F64} (hf : x.isFin = true) (h0 : x.neg = false) (h : x.val < 7) :
    ∃ i : ℕ, toSigned ISIZE_MAX (7.0 * x) = i ∧ i < 49 ∧ (i:ℝ) ≤ 7 * x.val * (1 + 1/2^53) + 1/10^20 ∧ 7 * x.val ≤ ((i:ℝ) + 1) * (1 + 1/2^50) + 1/10^20 := by
  have xp : 0 ≤ x.val := val_nonneg_of_neg h0
  have f7 : (7.0 : F64).isFin = true := by decide +kernel
  have S := (Iv.mul_spec' f7 hf).2
  rw [seven_val] at S
  have hlt := seven_mul_lt hf h0 h
  have hnn : 0 ≤ (7.0 * x).val := by rw [S]; exact RN_nonneg (by positivity)
  have hfin : (7.0 * x).isFin = true := abs_fin (b := 49) (by linarith) hlt.le (by norm_num)
  refine ⟨⌊(7.0 * x).val⌋₊, ?_, ?_, ?_, ?_⟩
  · rcases eq_or_lt_of_le hnn with hz | hp
    · rw [← hz, Nat.floor_zero]
      have : (7.0 * x).isZero = true := val_eq_zero.1 hz.symm
      have hm := isZero_iff.1 this
      unfold toSigned
      rw [isFin_notNaN hfin, isFin_notInf hfin, imag_eq, ← hz]
      simp
    · rw [toSigned_nonneg hfin hp]
      congr 1
      apply Nat.min_eq_left
      have : ⌊(7.0 * x).val⌋₊ ≤ 49 := by
        apply Nat.floor_le_of_le; push_cast; linarith
      exact this.trans (by decide)
  · rw [Nat.floor_lt hnn]; exact_mod_cast hlt
  · have h1 := Nat.floor_le hnn
    have h2 := RN_err' (x := 7 * x.val) (lt_of_lt_of_le (by rw [abs_of_nonneg (by positivity)]; linarith : |7 * x.val| < 10^200) HUGE_ge)
    rw [← S, abs_of_nonneg (by positivity : (0:ℝ) ≤ 7 * x.val)] at h2
    have h3 : (1:ℝ) / 2^1075 ≤ 1/10^20 := by
      apply one_div_le_one_div_of_le (by positivity)
      have : (2:ℝ)^100 ≤ 2^1075 := pow_le_pow_right₀ (by norm_num) (by norm_num)
      exact le_trans (by norm_num) this
    generalize (1:ℝ) / 2^1075 = t at *
    have h4 := (abs_le.1 h2).2
    have e : 7 * x.val * (1 + 1/2^53) = 7 * x.val + 7 * x.val / 2^53 := by ring
    rw [e]; linarith
  · have h1 := Nat.lt_floor_add_one (7.0 * x).val
    have h2 := RN_err' (x := 7 * x.val) (lt_of_lt_of_le (by rw [abs_of_nonneg (by positivity)]; linarith : |7 * x.val| < 10^200) HUGE_ge)
    rw [← S, abs_of_nonneg (by positivity : (0:ℝ) ≤ 7 * x.val)] at h2
    have h3 : (1:ℝ) / 2^1075 ≤ 1/10^30 := by
      apply one_div_le_one_div_of_le (by positivity)
      have : (2:ℝ)^110 ≤ 2^1075 := pow_le_pow_right₀ (by norm_num) (by norm_num)
      exact le_trans (by norm_num) this
    generalize (1:ℝ) / 2^1075 = t at *
    have h4 := (abs_le.1 h2).1
    generalize (⌊(7.0 * x).val⌋₊ : ℝ) = k at *
    generalize (7.0 * x).val = v at *
    norm_num at *
    linarith


theorem rn_sq {X : ℝ} (h : X ≤ 10^50) (h0 : 0 ≤ X) : X * X * (1 - 1/2^53) - 1/10^20 ≤ RN (X * X) ∧ RN (X * X) ≤ X * X * (1 + 1/2^53) + 1/10^20 := by
  have p : 0 ≤ X * X := mul_nonneg h0 h0
  have hb : X * X ≤ 10^100 := by
    calc X * X ≤ 10^50 * 10^50 := mul_le_mul h h h0 (by positivity)
      _ = 10^100 := by norm_num
  have h2 := RN_err' (x := X * X) (lt_of_le_of_lt (by rw [abs_of_nonneg p]; exact hb) (lt_of_lt_of_le (by norm_num : (10:ℝ)^100 < 10^200) HUGE_ge))
  rw [abs_of_nonneg p] at h2
  have h3 : (1:ℝ) / 2^1075 ≤ 1/10^20 := by
    apply one_div_le_one_div_of_le (by positivity)
    have : (2:ℝ)^100 ≤ 2^1075 := pow_le_pow_right₀ (by norm_num) (by norm_num)
    exact le_trans (by norm_num) this
  generalize (1:ℝ) / 2^1075 = t at *
  rw [abs_le] at h2
  have e1 : X * X * (1 - 1/2^53) = X * X - X * X / 2^53 := by ring
  have e2 : X * X * (1 + 1/2^53) = X * X + X * X / 2^53 := by ring
  rw [e1, e2]
  constructor <;> linarith [h2.1, h2.2]

/-- an unusable tile is out of the reach of the Taylor branch -/
theorem tile_reach {X Y : ℝ} {ix iy : ℕ} (hX0 : 0 ≤ X) (hX : X < 7) (hY0 : 0 ≤ Y) (hY : Y < 7)
    (h1 : (ix:ℝ) ≤ 7 * X * (1 + 1/2^53) + 1/10^20) (h1' : 7 * X ≤ ((ix:ℝ) + 1) * (1 + 1/2^50) + 1/10^20)
    (h2 : (iy:ℝ) ≤ 7 * Y * (1 + 1/2^53) + 1/10^20) (h2' : 7 * Y ≤ ((iy:ℝ) + 1) * (1 + 1/2^50) + 1/10^20)
    (hlo : 5/100 ≤ RN (X * X) + RN (Y * Y)) (hhi : RN (X * X) + RN (Y * Y) < 49) :
    ¬ (2402 ≤ ix * ix + iy * iy ∨ (ix = 0 ∧ iy = 0)) := by
  have a := rn_sq (X := X) (hX.le.trans (by norm_num)) hX0
  have b := rn_sq (X := Y) (hY.le.trans (by norm_num)) hY0
  rintro (h | ⟨h, h'⟩)
  · have hr : (2402:ℝ) ≤ ix * ix + iy * iy := by exact_mod_cast h
    have u1 : (ix:ℝ) ≤ 7 * X + 1/10^9 := by
      have : 7 * X * (1 + 1/2^53) = 7 * X + 7 * X / 2^53 := by ring
      rw [this] at h1
      norm_num at *; linarith
    have u2 : (iy:ℝ) ≤ 7 * Y + 1/10^9 := by
      have : 7 * Y * (1 + 1/2^53) = 7 * Y + 7 * Y / 2^53 := by ring
      rw [this] at h2
      norm_num at *; linarith
    have v1 : (ix:ℝ) * ix ≤ (7 * X + 1/10^9) * (7 * X + 1/10^9) := mul_le_mul u1 u1 (by positivity) (by positivity)
    have v2 : (iy:ℝ) * iy ≤ (7 * Y + 1/10^9) * (7 * Y + 1/10^9) := mul_le_mul u2 u2 (by positivity) (by positivity)
    have w1 : X * X ≤ 49 := by nlinarith
    have w2 : Y * Y ≤ 49 := by nlinarith
    generalize RN (X * X) = A at *
    generalize RN (Y * Y) = B at *
    norm_num at *
    nlinarith
  · subst h; subst h'
    have u1 : X ≤ 0.15 := by norm_num at *; linarith
    have u2 : Y ≤ 0.15 := by norm_num at *; linarith
    have w1 : X * X ≤ 0.0225 := by nlinarith
    have w2 : Y * Y ≤ 0.0225 := by nlinarith
    generalize RN (X * X) = A at *
    generalize RN (Y * Y) = B at *
    norm_num at *
    linarith

/-- squares and sums of squares in floating point -/
theorem zz_spec {x y : F64} (hx : x.isNaN = false) (hy : y.isNaN = false) (h : F64.le 49.0 (x.abs * x.abs + y * y) = false) :
    x.isFin = true ∧ y.isFin = true ∧ |x.val| < 7 ∧ |y.val| < 7 ∧ RN (|x.val| * |x.val|) + RN (|y.val| * |y.val|) < 49 ∧
    (x.abs * x.abs + y * y).isNaN = false ∧ (x.abs * x.abs + y * y).val = RN (RN (|x.val| * |x.val|) + RN (|y.val| * |y.val|)) := by
  have yy : y * y = y.abs * y.abs := by
    rw [mul_def, mul_def]; unfold F64.mul
    have e : y.abs.um = y.um := rfl
    simp [e]
  rw [yy] at h ⊢
  have sq_num : ∀ a : F64, a.isNaN = false → (a.abs * a.abs).isNaN = false ∧ 0 ≤ (a.abs * a.abs).val ∧ (a.isInf = true → a.abs * a.abs = inf) := by
    intro a ha
    rcases fin_or_inf ha with hf | hi
    · have S := mul_spec (a := a.abs) (b := a.abs) (by simpa using hf) (by simpa using hf)
      exact ⟨S.1, by rw [S.2.1]; exact RN_nonneg (mul_self_nonneg _), fun hc => by rw [isFin_notInf hf] at hc; cases hc⟩
    · have e : a.abs = inf := by rw [isInf_cases (a := a.abs) (by simpa using hi)]; rfl
      rw [e, show inf * inf = inf by decide]
      exact ⟨by decide, by rw [inf_val]; exact le_trans (by norm_num) HUGE_ge, fun _ => rfl⟩
  obtain ⟨nx, px, ix⟩ := sq_num x hx
  obtain ⟨ny, py, iy⟩ := sq_num y hy
  have infc : F64.le 49.0 inf = true := by decide +kernel
  have nonneg_ninf : ∀ {a : F64}, a.isInf = true → 0 ≤ a.val → a.neg = false := fun {a} hi h0 => by
    apply neg_of_val_pos
    rcases eq_or_lt_of_le h0 with h | h
    · have := isInf_iff_val.1 hi
      rw [← h, abs_zero] at this
      have h3 := HUGE_ge
      rw [← this] at h3
      exact absurd h3 (by norm_num)
    · exact h
  have fxx : (x.abs * x.abs).isFin = true := by
    rcases fin_or_inf nx with f | i
    · exact f
    · exfalso
      rw [add_inf_left i ny (fun hc => by rw [nonneg_ninf i px, nonneg_ninf hc py]), isInf_cases i, nonneg_ninf i px] at h
      exact absurd h (by decide +kernel)
  have fyy : (y.abs * y.abs).isFin = true := by
    rcases fin_or_inf ny with f | i
    · exact f
    · exfalso
      rw [add_inf_right fxx i, isInf_cases i, nonneg_ninf i py] at h
      exact absurd h (by decide +kernel)
  have fx : x.isFin = true := by
    rcases fin_or_inf hx with f | i
    · exact f
    · rw [ix i] at fxx; exact absurd fxx (by decide)
  have fy : y.isFin = true := by
    rcases fin_or_inf hy with f | i
    · exact f
    · rw [iy i] at fyy; exact absurd fyy (by decide)
  have sx := (Iv.mul_spec' (a := x.abs) (b := x.abs) (by simpa using fx) (by simpa using fx)).2
  have sy := (Iv.mul_spec' (a := y.abs) (b := y.abs) (by simpa using fy) (by simpa using fy)).2
  rw [F64.val_abs] at sx sy
  have ss := add_spec fxx fyy
  rw [sx, sy] at ss
  have hlt : RN (RN (|x.val| * |x.val|) + RN (|y.val| * |y.val|)) < 49 := by
    rw [le_false_iff (by decide +kernel) ss.1, v49, ss.2] at h; exact h
  have hsum : RN (|x.val| * |x.val|) + RN (|y.val| * |y.val|) < 49 := by
    by_contra hc
    have := RN_ge_int (r := RN (|x.val| * |x.val|) + RN (|y.val| * |y.val|)) 49 (by norm_num) (by exact_mod_cast not_lt.1 hc)
    exact absurd hlt (not_lt.2 (by exact_mod_cast this))
  have hpx : 0 ≤ RN (|x.val| * |x.val|) := RN_nonneg (mul_self_nonneg _)
  have hpy : 0 ≤ RN (|y.val| * |y.val|) := RN_nonneg (mul_self_nonneg _)
  have lt7 : ∀ X : ℝ, RN (X * X) < 49 → 0 ≤ X → X < 7 := by
    intro X hX h0
    by_contra hc
    have := RN_ge_int (r := X * X) 49 (by norm_num) (by push_cast; nlinarith [not_lt.1 hc])
    exact absurd hX (not_lt.2 (by exact_mod_cast this))
  exact ⟨fx, fy, lt7 _ (by linarith) (abs_nonneg _), lt7 _ (by linarith) (abs_nonneg _), hsum, ss.1, ss.2⟩

/-- the Taylor branch never indexes out of bounds and never meets an uncovered tile -/
theorem faddeevaTaylor_ok {x y : F64} (hx : x.isNaN = false) (hy : y.isNaN = false) (h1 : F64.lt (x.abs * x.abs + y * y) 0.053 = false)
    (h2 : F64.le 49.0 (x.abs * x.abs + y * y) = false) : ∃ v, faddeevaTaylor x.abs y.abs = .ok v := by
  obtain ⟨fx, fy, lx, ly, hs, zn, zv⟩ := zz_spec hx hy h2
  have hlo : 5/100 ≤ RN (|x.val| * |x.val|) + RN (|y.val| * |y.val|) := by
    rw [lt_false_iff zn (by decide +kernel), zv] at h1
    have e : (0.053 : F64).val ≥ 52/1000 := by
      have := le_val_of_sv (x := (0.053 : F64)) 52 1000 (by norm_num) (by decide +kernel); norm_num at *; exact this
    by_contra hc
    have hc := not_le.1 hc
    have : RN (RN (|x.val| * |x.val|) + RN (|y.val| * |y.val|)) ≤ (0.0515 : F64).val := by
      refine RN_le_of_le (by decide +kernel) (hc.le.trans ?_)
      have := le_val_of_sv (x := (0.0515 : F64)) 5 100 (by norm_num) (by decide +kernel); norm_num at *; exact this
    have h3 : (0.0515 : F64).val < 52/1000 := by
      have := val_le_of_sv (x := (0.0515 : F64)) 516 10000 (by norm_num) (by decide +kernel); norm_num at *; linarith
    linarith
  obtain ⟨ix, ex, bx, ux, lx'⟩ := tile_coord (x := x.abs) (by simpa using fx) rfl (by rw [F64.val_abs]; exact lx)
  obtain ⟨iy, ey, by', uy, ly'⟩ := tile_coord (x := y.abs) (by simpa using fy) rfl (by rw [F64.val_abs]; exact ly)
  rw [F64.val_abs] at ux lx' uy ly'
  have hreach := tile_reach (abs_nonneg _) lx (abs_nonneg _) ly ux lx' uy ly' hlo hs
  obtain ⟨kp, nk, l1, l2, hk⟩ := tile_entry bx by'
  rcases hk with ⟨k0, k1, n0, n1⟩ | hk
  · have hit : iTile x.abs y.abs = 2 * ((ix:Int) * 50 + iy) := by
      unfold iTile
      simp only [ar_toS]
      rw [ex, ey]
    obtain ⟨t, ht⟩ := taylor_lookup (i := 48 * kp) (by omega) (by omega)
    obtain ⟨t', ht'⟩ := taylor_lookup (i := 48 * kp + 1) (by omega) (by omega)
    obtain ⟨r, hr⟩ := taylor_lookup (i := 48 * kp + 2 * nk) (by omega) (by omega)
    obtain ⟨i, hi⟩ := taylor_lookup (i := 48 * kp + 2 * nk + 1) (by omega) (by omega)
    obtain ⟨v, hv⟩ := taylorLoop_ok (idx := 48 * kp) (dz := ⟨x.abs - t, y.abs - t'⟩) (by omega) (nk - 1).toNat ⟨r, i⟩ (by omega)
    refine ⟨v, ?_⟩
    have hk0 : ¬ kp < 0 := by omega
    unfold faddeevaTaylor
    rw [hit]
    dsimp only
    rw [l1]
    dsimp only [bind, Except.bind]
    rw [if_neg hk0]
    show (do
      let t ← lookup TAYLOR (48 * kp)
      let tNext ← lookup TAYLOR (48 * kp + 1)
      let nk ← lookup TILES (2 * ((ix:Int) * 50 + iy) + 1)
      let r ← lookup TAYLOR (48 * kp + 2 * nk)
      let i ← lookup TAYLOR (48 * kp + 2 * nk + 1)
      taylorLoop (48 * kp) ⟨x.abs - t, y.abs - tNext⟩ (nk - 1).toNat ⟨r, i⟩ : M (Cx F64)) = .ok v
    rw [ht, ht', l2]
    show (do
      let r ← lookup TAYLOR (48 * kp + 2 * nk)
      let i ← lookup TAYLOR (48 * kp + 2 * nk + 1)
      taylorLoop (48 * kp) ⟨x.abs - t, y.abs - t'⟩ (nk - 1).toNat ⟨r, i⟩ : M (Cx F64)) = .ok v
    rw [hr, hi]
    exact hv
  · exact absurd hk hreach

end Verif
