import Verif.F64.Ops
import Verif.F64.Val
import Verif.Arith
import Verif.Proofs.Interval
import Mathlib.Tactic

/-! # Rounding-error analysis by evaluation

Straight-line floating point expressions as data: `evF` is the binary64 value, `evR` the exact value, and `bnd` computes an enclosure of the binary64
value and a bound for its distance from the exact value (integers, in units of `2⁻¹⁶⁰`).  `bnd_sound` is proved once; a use evaluates `bnd` in the kernel. -/

namespace Verif
namespace FlErr
open F64

/-- one over the unit of the bounds -/
noncomputable def U : ℝ := 2^160
theorem U_pos : 0 < U := by unfold U; positivity
theorem U_ge : 1 ≤ U := by unfold U; norm_num

/-- `a` is finite, lies between `l` and `u` units, and is within `e` units of `A` -/
structure Ap (a : F64) (A : ℝ) (l u : ℤ) (e : ℕ) : Prop where
  fin : a.isFin = true
  lo : l / U ≤ a.val
  hi : a.val ≤ u / U
  err : |a.val - A| ≤ e / U

/-- enclosure and error of a value -/
structure B where
  l : ℤ
  u : ℤ
  e : ℕ
deriving DecidableEq

/-- magnitude -/
def B.m (b : B) : ℕ := max b.l.natAbs b.u.natAbs

/-- `Ap` with the bounds as one object -/
def In (a : F64) (A : ℝ) (b : B) : Prop := Ap a A b.l b.u b.e

theorem Ap.abs {a : F64} {A : ℝ} {b : B} (h : In a A b) : |a.val| ≤ b.m / U := by
  have hU := U_pos
  have hl := h.lo
  have hu := h.hi
  rw [div_le_iff₀ hU] at hl
  rw [le_div_iff₀ hU] at hu
  rw [le_div_iff₀ hU, show |a.val| * U = |a.val * U| by rw [abs_mul, abs_of_pos hU], abs_le]
  have h1 : -(b.m : ℤ) ≤ b.l := by unfold B.m; have := le_max_left b.l.natAbs b.u.natAbs; omega
  have h2 : b.u ≤ (b.m : ℤ) := by unfold B.m; have := le_max_right b.l.natAbs b.u.natAbs; omega
  have h1' : -((b.m : ℕ) : ℝ) ≤ (b.l : ℝ) := by exact_mod_cast h1
  have h2' : (b.u : ℝ) ≤ ((b.m : ℕ) : ℝ) := by exact_mod_cast h2
  constructor <;> linarith

/-- rounding error of a number of magnitude at most `N` units -/
def rd (N : ℕ) : ℕ := N / 2^53 + 2
/-- the enclosure `[l,u]` and error `e` of the unrounded result, rounded; `none` if it might overflow -/
def rnd (l u : ℤ) (e : ℕ) : Option B :=
  let N := max l.natAbs u.natAbs
  if N ≤ 2^250 then some ⟨l - rd N, u + rd N, e + rd N⟩ else none

theorem rn_err {x : ℝ} {N : ℕ} (h : |x| ≤ N / U) (hN : N ≤ 2^250) : |x| < HUGE ∧ |RN x - x| ≤ rd N / U := by
  have hU := U_pos
  have hN' : (N:ℝ) ≤ 10^200 := by
    have : (N:ℝ) ≤ ((2^250 : ℕ) : ℝ) := by exact_mod_cast hN
    refine this.trans ?_
    norm_num
  have h1 : |x| < HUGE := by
    refine lt_of_le_of_lt h (lt_of_lt_of_le ?_ HUGE_ge)
    rw [div_lt_iff₀ hU]
    have : (2:ℝ) ≤ U := by unfold U; norm_num
    nlinarith [this]
  refine ⟨h1, ?_⟩
  have h2 := RN_err' h1
  have h3 : (1:ℝ) / 2^1075 ≤ 1 / U := by
    unfold U
    exact one_div_le_one_div_of_le (by positivity) (pow_le_pow_right₀ (by norm_num) (by norm_num))
  have h4 : |x| / 2^53 ≤ ((N / 2^53 + 1 : ℕ) : ℝ) / U := by
    rw [div_le_div_iff₀ (by norm_num) hU]
    rw [le_div_iff₀ hU] at h
    refine h.trans ?_
    have : N ≤ (N / 2^53 + 1) * 2^53 := by omega
    exact_mod_cast this
  have h5 : ((rd N : ℕ) : ℝ) / U = ((N / 2^53 + 1 : ℕ) : ℝ) / U + 1 / U := by
    unfold rd
    rw [← add_div]; congr 1; generalize N / 2^53 = m; push_cast; ring
  rw [h5]
  generalize (1:ℝ) / 2^1075 = w at *
  linarith

theorem rnd_sound {a : F64} {x A : ℝ} {l u : ℤ} {e : ℕ} {b : B} (hv : a.val = RN x) (hl : l ≤ x * U) (hu : x * U ≤ u)
    (he : |x - A| * U ≤ e) (hb : rnd l u e = some b) : In a A b := by
  have hU := U_pos
  unfold rnd at hb
  simp only at hb
  split at hb
  · rename_i hN
    simp only [Option.some.injEq] at hb
    subst hb
    have hx : |x| ≤ (max l.natAbs u.natAbs : ℕ) / U := by
      rw [le_div_iff₀ hU, show |x| * U = |x * U| by rw [abs_mul, abs_of_pos hU], abs_le]
      have h1 : -((max l.natAbs u.natAbs : ℕ) : ℤ) ≤ l := by have := le_max_left l.natAbs u.natAbs; omega
      have h2 : u ≤ ((max l.natAbs u.natAbs : ℕ) : ℤ) := by have := le_max_right l.natAbs u.natAbs; omega
      generalize max l.natAbs u.natAbs = N at h1 h2 ⊢
      have h1' : -((N : ℕ) : ℝ) ≤ (l : ℝ) := by exact_mod_cast h1
      have h2' : (u : ℝ) ≤ ((N : ℕ) : ℝ) := by exact_mod_cast h2
      constructor <;> linarith
    obtain ⟨k1, k2⟩ := rn_err hx hN
    have hf : a.isFin = true := by
      have h3 := rn_err hx hN
      rw [isFin_iff_val, hv]
      have hN' : (((max l.natAbs u.natAbs : ℕ) : ℕ) : ℝ) ≤ 2^250 := by exact_mod_cast hN
      have hr : ((rd (max l.natAbs u.natAbs) : ℕ) : ℝ) ≤ 2^250 + 2 := by
        have : rd (max l.natAbs u.natAbs) ≤ 2^250 + 2 := by unfold rd; have := Nat.div_le_self (max l.natAbs u.natAbs) (2^53); omega
        exact_mod_cast this
      have h4 : |RN x| ≤ |RN x - x| + |x| := by
        have := abs_add_le (RN x - x) x
        simpa using this
      refine lt_of_le_of_lt h4 (lt_of_le_of_lt (add_le_add k2 hx) (lt_of_lt_of_le ?_ HUGE_ge))
      rw [← add_div, div_lt_iff₀ hU]
      have : (1:ℝ) ≤ U := U_ge
      have h10 : (2:ℝ)^250 + 2 + 2^250 < 10^200 := by norm_num
      nlinarith
    rw [← hv] at k2
    have h6 := abs_le.1 k2
    have e1 : (rd (max l.natAbs u.natAbs) : ℝ) / U * U = rd (max l.natAbs u.natAbs) := div_mul_cancel₀ _ hU.ne'
    refine ⟨hf, ?_, ?_, ?_⟩
    · rw [div_le_iff₀ hU]; push_cast
      have := mul_le_mul_of_nonneg_right h6.1 hU.le
      rw [neg_mul, e1] at this
      linarith
    · rw [le_div_iff₀ hU]; push_cast
      have := mul_le_mul_of_nonneg_right h6.2 hU.le
      rw [e1] at this
      linarith
    · rw [le_div_iff₀ hU]; push_cast
      have := mul_le_mul_of_nonneg_right k2 hU.le
      rw [e1] at this
      have h7 : |a.val - A| ≤ |a.val - x| + |x - A| := abs_sub_le _ _ _
      nlinarith
  · exact absurd hb (by simp)

/-! ## Operations on bounds -/

/-- least and greatest of four products -/
def imin (a b c d : ℤ) : ℤ := min (min a b) (min c d)
def imax (a b c d : ℤ) : ℤ := max (max a b) (max c d)

theorem prod_enclose {a b al au bl bu : ℝ} (h1 : al ≤ a) (h2 : a ≤ au) (h3 : bl ≤ b) (h4 : b ≤ bu) :
    min (min (al * bl) (al * bu)) (min (au * bl) (au * bu)) ≤ a * b ∧ a * b ≤ max (max (al * bl) (al * bu)) (max (au * bl) (au * bu)) := by
  have key : ∀ x : ℝ, min (x * bl) (x * bu) ≤ x * b ∧ x * b ≤ max (x * bl) (x * bu) := by
    intro x
    rcases le_total 0 x with hx | hx
    · exact ⟨(min_le_left _ _).trans (mul_le_mul_of_nonneg_left h3 hx), (mul_le_mul_of_nonneg_left h4 hx).trans (le_max_right _ _)⟩
    · exact ⟨(min_le_right _ _).trans (mul_le_mul_of_nonpos_left h4 hx), (mul_le_mul_of_nonpos_left h3 hx).trans (le_max_left _ _)⟩
  have key2 : min (al * b) (au * b) ≤ a * b ∧ a * b ≤ max (al * b) (au * b) := by
    rcases le_total 0 b with hx | hx
    · exact ⟨(min_le_left _ _).trans (mul_le_mul_of_nonneg_right h1 hx), (mul_le_mul_of_nonneg_right h2 hx).trans (le_max_right _ _)⟩
    · exact ⟨(min_le_right _ _).trans (mul_le_mul_of_nonpos_right h2 hx), (mul_le_mul_of_nonpos_right h1 hx).trans (le_max_left _ _)⟩
  constructor
  · refine le_trans ?_ key2.1
    exact min_le_min (key al).1 (key au).1
  · refine le_trans key2.2 ?_
    exact max_le_max (key al).2 (key au).2

/-- the unit, as an integer -/
def UZ : ℤ := 2^160
def UN : ℕ := 2^160
theorem UZ_cast : (UZ : ℝ) = U := by unfold UZ U; norm_num
theorem UN_cast : (UN : ℝ) = U := by unfold UN U; norm_num

/-- floor and ceiling of `a/UZ` -/
theorem fdiv_le (a : ℤ) : ((a / UZ : ℤ) : ℝ) * U ≤ a := by
  have h := Int.ediv_mul_le a (b := UZ) (by decide)
  rw [← UZ_cast]; exact_mod_cast h
theorem le_cdiv (a : ℤ) : (a : ℝ) ≤ ((a / UZ + 1 : ℤ) : ℝ) * U := by
  have h := Int.lt_ediv_add_one_mul_self a (b := UZ) (by decide)
  rw [← UZ_cast]; exact_mod_cast h.le
theorem le_cdivN (a d : ℕ) (hd : 0 < d) : (a : ℝ) ≤ ((a / d + 1 : ℕ) : ℝ) * d := by
  have h := Nat.lt_div_mul_add (a := a) hd
  have : a ≤ (a / d + 1) * d := by rw [Nat.add_mul, one_mul]; omega
  exact_mod_cast this

def B.add (a b : B) : Option B := rnd (a.l + b.l) (a.u + b.u) (a.e + b.e)
def B.sub (a b : B) : Option B := rnd (a.l - b.u) (a.u - b.l) (a.e + b.e)
def B.neg (a : B) : B := ⟨-a.u, -a.l, a.e⟩
def B.mul (a b : B) : Option B :=
  rnd (imin (a.l * b.l) (a.l * b.u) (a.u * b.l) (a.u * b.u) / UZ) (imax (a.l * b.l) (a.l * b.u) (a.u * b.l) (a.u * b.u) / UZ + 1)
    ((a.m * b.e + a.e * (b.m + b.e)) / UN + 1)
/-- quotient; the divisor must be positive and far enough from zero -/
def B.div (a b : B) : Option B :=
  if (b.e : ℤ) < b.l then
    rnd ((if 0 ≤ a.l then a.l * UZ / b.u else a.l * UZ / b.l)) ((if 0 ≤ a.u then a.u * UZ / b.l + 1 else a.u * UZ / b.u + 1))
      (((a.e + (a.m * b.e) / b.l.toNat + 1) * UN) / (b.l.toNat - b.e) + 1)
  else none

theorem scale_lo {x : ℝ} {l : ℤ} (h : l / U ≤ x) : (l:ℝ) ≤ x * U := by rwa [div_le_iff₀ U_pos] at h
theorem scale_hi {x : ℝ} {l : ℤ} (h : x ≤ l / U) : x * U ≤ l := by rwa [le_div_iff₀ U_pos] at h
theorem scale_err {x : ℝ} {l : ℕ} (h : x ≤ l / U) : x * U ≤ l := by rwa [le_div_iff₀ U_pos] at h

theorem add_sound {a b : F64} {X Y : ℝ} {p q r : B} (ha : In a X p) (hb : In b Y q) (h : p.add q = some r) : In (a + b) (X + Y) r := by
  obtain ⟨s1, s2⟩ := add_spec ha.fin hb.fin
  refine rnd_sound s2 ?_ ?_ ?_ h
  · push_cast; have := scale_lo ha.lo; have := scale_lo hb.lo; linarith
  · push_cast; have := scale_hi ha.hi; have := scale_hi hb.hi; linarith
  · push_cast
    have h1 := scale_err ha.err; have h2 := scale_err hb.err
    have : |a.val + b.val - (X + Y)| ≤ |a.val - X| + |b.val - Y| := by
      rw [show a.val + b.val - (X + Y) = (a.val - X) + (b.val - Y) by ring]; exact abs_add_le _ _
    have hU := U_pos
    nlinarith

theorem sub_sound {a b : F64} {X Y : ℝ} {p q r : B} (ha : In a X p) (hb : In b Y q) (h : p.sub q = some r) : In (a - b) (X - Y) r := by
  obtain ⟨s1, s2⟩ := sub_spec ha.fin hb.fin
  refine rnd_sound s2 ?_ ?_ ?_ h
  · push_cast; have := scale_lo ha.lo; have := scale_hi hb.hi; linarith
  · push_cast; have := scale_hi ha.hi; have := scale_lo hb.lo; linarith
  · push_cast
    have h1 := scale_err ha.err; have h2 := scale_err hb.err
    have : |a.val - b.val - (X - Y)| ≤ |a.val - X| + |b.val - Y| := by
      rw [show a.val - b.val - (X - Y) = (a.val - X) - (b.val - Y) by ring]; exact abs_sub _ _
    have hU := U_pos
    nlinarith

theorem neg_sound {a : F64} {X : ℝ} {p : B} (ha : In a X p) : In (-a) (-X) p.neg := by
  refine ⟨by rw [isFin_neg]; exact ha.fin, ?_, ?_, ?_⟩
  · rw [val_neg]; have := ha.hi; show ((-p.u : ℤ) : ℝ) / U ≤ _; push_cast; rw [neg_div]; linarith
  · rw [val_neg]; have := ha.lo; show _ ≤ ((-p.l : ℤ) : ℝ) / U; push_cast; rw [neg_div]; linarith
  · rw [val_neg, show -a.val - -X = -(a.val - X) by ring, abs_neg]; exact ha.err

theorem mul_sound {a b : F64} {X Y : ℝ} {p q r : B} (ha : In a X p) (hb : In b Y q) (h : p.mul q = some r) : In (a * b) (X * Y) r := by
  have hU := U_pos
  obtain ⟨s1, s2, -⟩ := mul_spec ha.fin hb.fin
  obtain ⟨e1, e2⟩ := prod_enclose (scale_lo ha.lo) (scale_hi ha.hi) (scale_lo hb.lo) (scale_hi hb.hi)
  refine rnd_sound s2 ?_ ?_ ?_ h
  · have h1 := fdiv_le (imin (p.l * q.l) (p.l * q.u) (p.u * q.l) (p.u * q.u))
    have h2 : ((imin (p.l * q.l) (p.l * q.u) (p.u * q.l) (p.u * q.u) : ℤ) : ℝ) ≤ a.val * U * (b.val * U) := by
      unfold imin; push_cast; exact e1
    refine le_of_mul_le_mul_right (h1.trans (h2.trans (le_of_eq ?_))) hU
    ring
  · have h1 := le_cdiv (imax (p.l * q.l) (p.l * q.u) (p.u * q.l) (p.u * q.u))
    have h2 : a.val * U * (b.val * U) ≤ ((imax (p.l * q.l) (p.l * q.u) (p.u * q.l) (p.u * q.u) : ℤ) : ℝ) := by
      unfold imax; push_cast; exact e2
    refine le_of_mul_le_mul_right (le_trans (le_of_eq ?_) (h2.trans h1)) hU
    ring
  · have hA := scale_err (Ap.abs ha)
    have hB := scale_err (Ap.abs hb)
    have hea := scale_err ha.err
    have heb := scale_err hb.err
    have h1 := le_cdivN (p.m * q.e + p.e * (q.m + q.e)) UN (by decide)
    rw [UN_cast] at h1
    refine le_of_mul_le_mul_right (le_trans ?_ h1) hU
    push_cast
    have hY : |Y| * U ≤ q.m + q.e := by
      have : |Y| ≤ |b.val| + |b.val - Y| := by
        have := abs_sub b.val (b.val - Y); rwa [sub_sub_cancel] at this
      nlinarith
    have h3 : |a.val * b.val - X * Y| ≤ |a.val| * |b.val - Y| + |a.val - X| * |Y| := by
      rw [show a.val * b.val - X * Y = a.val * (b.val - Y) + (a.val - X) * Y by ring, ← abs_mul, ← abs_mul]
      exact abs_add_le _ _
    have h4 : (|a.val| * U) * (|b.val - Y| * U) ≤ p.m * q.e := mul_le_mul hA heb (by positivity) (by positivity)
    have h5 : (|a.val - X| * U) * (|Y| * U) ≤ p.e * (q.m + q.e) := mul_le_mul hea hY (by positivity) (by positivity)
    have : |a.val * b.val - X * Y| * U * U ≤ (|a.val| * |b.val - Y| + |a.val - X| * |Y|) * U * U := by
      have := mul_le_mul_of_nonneg_right (mul_le_mul_of_nonneg_right h3 hU.le) hU.le
      exact this
    nlinarith

theorem div_sound {a b : F64} {X Y : ℝ} {p q r : B} (ha : In a X p) (hb : In b Y q) (h : p.div q = some r) : In (a / b) (X / Y) r := by
  have hU := U_pos
  unfold B.div at h
  split at h
  swap
  · exact absurd h (by simp)
  rename_i hl
  have hl0 : 0 < q.l := by omega
  have lb := scale_lo hb.lo
  have ub := scale_hi hb.hi
  have la := scale_lo ha.lo
  have ua := scale_hi ha.hi
  have hl0' : (0:ℝ) < q.l := by exact_mod_cast hl0
  have hbpos : 0 < b.val := by
    by_contra hc
    have := mul_nonpos_of_nonpos_of_nonneg (not_lt.1 hc) hU.le
    linarith
  have hbU : 0 < b.val * U := mul_pos hbpos hU
  have hu0' : (0:ℝ) < q.u := lt_of_lt_of_le hbU ub
  have hu0 : 0 < q.u := by exact_mod_cast hu0'
  obtain ⟨s1, s2, -⟩ := div_spec ha.fin hb.fin hbpos.ne'
  have heq : a.val / b.val * U = (a.val * U) * U / (b.val * U) := by field_simp
  have fl : ∀ (x d : ℤ), 0 < d → ((x * UZ / d : ℤ) : ℝ) ≤ x * U / d := by
    intro x d hd
    have hd' : (0:ℝ) < d := by exact_mod_cast hd
    rw [le_div_iff₀ hd', ← UZ_cast]
    exact_mod_cast Int.ediv_mul_le (x * UZ) hd.ne'
  have cl : ∀ (x d : ℤ), 0 < d → (x:ℝ) * U / d ≤ ((x * UZ / d + 1 : ℤ) : ℝ) := by
    intro x d hd
    have hd' : (0:ℝ) < d := by exact_mod_cast hd
    rw [div_le_iff₀ hd', ← UZ_cast]
    exact_mod_cast (Int.lt_ediv_add_one_mul_self (x * UZ) hd).le
  refine rnd_sound s2 ?_ ?_ ?_ h
  · rw [heq]
    split
    · rename_i hp
      refine (fl _ _ hu0).trans ?_
      have hp' : (0:ℝ) ≤ p.l := by exact_mod_cast hp
      rw [div_le_div_iff₀ hu0' hbU]
      have : (p.l:ℝ) * U * (b.val * U) ≤ (a.val * U) * U * q.u := by
        apply mul_le_mul (mul_le_mul_of_nonneg_right la hU.le) ub hbU.le
        apply mul_nonneg (hp'.trans la) hU.le
      exact this
    · rename_i hp
      refine (fl _ _ hl0).trans ?_
      have hp' : (p.l:ℝ) ≤ 0 := by exact_mod_cast (not_le.1 hp).le
      rw [div_le_div_iff₀ hl0' hbU]
      have h1 : (p.l:ℝ) * U * (b.val * U) ≤ p.l * U * q.l := mul_le_mul_of_nonpos_left lb (mul_nonpos_of_nonpos_of_nonneg hp' hU.le)
      have h2 : (p.l:ℝ) * U * q.l ≤ (a.val * U) * U * q.l := by
        apply mul_le_mul_of_nonneg_right (mul_le_mul_of_nonneg_right la hU.le) hl0'.le
      exact h1.trans h2
  · rw [heq]
    split
    · rename_i hp
      refine le_trans ?_ (cl _ _ hl0)
      have hp' : (0:ℝ) ≤ p.u := by exact_mod_cast hp
      rw [div_le_div_iff₀ hbU hl0']
      have h1 : (p.u:ℝ) * U * q.l ≤ p.u * U * (b.val * U) := mul_le_mul_of_nonneg_left lb (mul_nonneg hp' hU.le)
      have h2 : (a.val * U) * U * q.l ≤ p.u * U * q.l := mul_le_mul_of_nonneg_right (mul_le_mul_of_nonneg_right ua hU.le) hl0'.le
      exact h2.trans h1
    · rename_i hp
      refine le_trans ?_ (cl _ _ hu0)
      have hp' : (p.u:ℝ) ≤ 0 := by exact_mod_cast (not_le.1 hp).le
      rw [div_le_div_iff₀ hbU hu0']
      have h1 : (a.val * U) * U * q.u ≤ p.u * U * q.u := mul_le_mul_of_nonneg_right (mul_le_mul_of_nonneg_right ua hU.le) hu0'.le
      have h2 : (p.u:ℝ) * U * q.u ≤ p.u * U * (b.val * U) := mul_le_mul_of_nonpos_left ub (mul_nonpos_of_nonpos_of_nonneg hp' hU.le)
      exact h1.trans h2
  · have hA := scale_err (Ap.abs ha)
    have hea := scale_err ha.err
    have heb := scale_err hb.err
    have htn : ((q.l.toNat : ℕ) : ℝ) = (q.l : ℝ) := by
      have : ((q.l.toNat : ℕ) : ℤ) = q.l := Int.toNat_of_nonneg hl0.le
      exact_mod_cast this
    have hle : q.e < q.l.toNat := by omega
    have hsub : ((q.l.toNat - q.e : ℕ) : ℝ) = (q.l : ℝ) - q.e := by rw [Nat.cast_sub hle.le, htn]
    have hd0 : (0:ℝ) < (q.l : ℝ) - q.e := by rw [← hsub]; exact_mod_cast Nat.sub_pos_of_lt hle
    have hY : (q.l : ℝ) - q.e ≤ Y * U := by
      have h1 := (abs_le.1 (le_refl |b.val - Y|)).2
      nlinarith
    have hYU : 0 < Y * U := lt_of_lt_of_le hd0 hY
    have hYpos : 0 < Y := by
      by_contra hc
      have := mul_nonpos_of_nonpos_of_nonneg (not_lt.1 hc) hU.le
      linarith
    -- |a/b|·eb
    have h1 := le_cdivN (p.m * q.e) q.l.toNat (by omega)
    rw [htn] at h1
    have h2 := le_cdivN ((p.e + (p.m * q.e) / q.l.toNat + 1) * UN) (q.l.toNat - q.e) (Nat.sub_pos_of_lt hle)
    rw [hsub] at h2
    generalize ((p.e + (p.m * q.e) / q.l.toNat + 1) * UN) / (q.l.toNat - q.e) = z at h2 ⊢
    have h3 : a.val / b.val - X / Y = ((a.val - X) - a.val / b.val * (b.val - Y)) / Y := by field_simp; ring
    have h4 : |a.val / b.val * (b.val - Y)| * U ≤ ((p.m * q.e / q.l.toNat : ℕ) : ℝ) + 1 := by
      rw [abs_mul, abs_div, abs_of_pos hbpos]
      have e : |a.val| / b.val * |b.val - Y| * U = (|a.val| * U) * (|b.val - Y| * U) / (b.val * U) := by field_simp
      rw [e, div_le_iff₀ hbU]
      have h5 : (|a.val| * U) * (|b.val - Y| * U) ≤ p.m * q.e := mul_le_mul hA heb (by positivity) (by positivity)
      refine h5.trans ?_
      push_cast at h1 ⊢
      refine h1.trans ?_
      exact mul_le_mul_of_nonneg_left lb (by positivity)
    have h6 : |(a.val - X) - a.val / b.val * (b.val - Y)| * U ≤ p.e + (((p.m * q.e / q.l.toNat : ℕ) : ℝ) + 1) := by
      have := abs_sub (a.val - X) (a.val / b.val * (b.val - Y))
      nlinarith
    rw [h3, abs_div, abs_of_pos hYpos]
    have e : |(a.val - X) - a.val / b.val * (b.val - Y)| / Y * U = (|(a.val - X) - a.val / b.val * (b.val - Y)| * U) * U / (Y * U) := by
      field_simp
    rw [e, div_le_iff₀ hYU]
    have h7 : (|(a.val - X) - a.val / b.val * (b.val - Y)| * U) * U ≤ (p.e + (((p.m * q.e / q.l.toNat : ℕ) : ℝ) + 1)) * U :=
      mul_le_mul_of_nonneg_right h6 hU.le
    refine h7.trans ?_
    push_cast at h2 ⊢
    rw [UN_cast] at h2
    rw [← add_assoc]
    refine h2.trans ?_
    exact mul_le_mul_of_nonneg_left hY (by positivity)

/-! ## Literals -/

def litB (m k : ℕ) : Option B := rnd ((m * UZ / (10^k : ℕ) : ℤ)) (m * UZ / (10^k : ℕ) + 1) 0

theorem lit_sound {m k : ℕ} {r : B} (h : litB m k = some r) : In (OfScientific.ofScientific m true k : F64) ((m : ℝ) / 10^k) r := by
  have e : (OfScientific.ofScientific m true k : F64) = F64.mk' false (m * 2^1074) (10^k) := if_pos rfl
  have v : (F64.mk' false (m * 2^1074) (10^k)).val = RN ((m:ℝ) / 10^k) := by
    rw [F64.mk'_val _ _ _ (by positivity)]
    congr 1
    have : (0:ℝ) < 2^1074 := by positivity
    rw [Nat.cast_mul, Nat.cast_pow, Nat.cast_pow, Nat.cast_ofNat, Nat.cast_ofNat]
    generalize (2:ℝ)^1074 = u at *
    simp only [Bool.false_eq_true, if_false, one_mul]
    field_simp
  rw [e]
  have hp : (0:ℝ) < ((10^k : ℕ) : ℝ) := by positivity
  have hpz : (0:ℤ) < ((10^k : ℕ) : ℤ) := by positivity
  have eq : (m:ℝ) / 10^k * U = ((m * UZ : ℤ) : ℝ) / ((10^k : ℕ) : ℝ) := by push_cast; rw [UZ_cast]; ring
  refine rnd_sound v ?_ ?_ ?_ h
  · rw [eq, le_div_iff₀ hp]
    exact_mod_cast Int.ediv_mul_le (m * UZ) hpz.ne'
  · rw [eq, div_le_iff₀ hp]
    exact_mod_cast (Int.lt_ediv_add_one_mul_self (m * UZ) hpz).le
  · simp

/-! ## Expressions -/

inductive Ex where
  | lit (m k : ℕ)
  | var (i : ℕ)
  | neg (a : Ex)
  | add (a b : Ex)
  | sub (a b : Ex)
  | mul (a b : Ex)
  | div (a b : Ex)

def evF (ρ : ℕ → F64) : Ex → F64
  | .lit m k => OfScientific.ofScientific m true k
  | .var i => ρ i
  | .neg a => -(evF ρ a)
  | .add a b => evF ρ a + evF ρ b
  | .sub a b => evF ρ a - evF ρ b
  | .mul a b => evF ρ a * evF ρ b
  | .div a b => evF ρ a / evF ρ b

noncomputable def evR (ρ : ℕ → ℝ) : Ex → ℝ
  | .lit m k => (m : ℝ) / 10^k
  | .var i => ρ i
  | .neg a => -(evR ρ a)
  | .add a b => evR ρ a + evR ρ b
  | .sub a b => evR ρ a - evR ρ b
  | .mul a b => evR ρ a * evR ρ b
  | .div a b => evR ρ a / evR ρ b

def op2 (f : B → B → Option B) (a b : Option B) : Option B :=
  match a, b with
  | some x, some y => f x y
  | _, _ => none

def bnd (β : ℕ → B) : Ex → Option B
  | .lit m k => litB m k
  | .var i => some (β i)
  | .neg a => match bnd β a with
    | some x => some x.neg
    | none => none
  | .add a b => op2 B.add (bnd β a) (bnd β b)
  | .sub a b => op2 B.sub (bnd β a) (bnd β b)
  | .mul a b => op2 B.mul (bnd β a) (bnd β b)
  | .div a b => op2 B.div (bnd β a) (bnd β b)

theorem op2_some {f : B → B → Option B} {a b : Option B} {r : B} (h : op2 f a b = some r) : ∃ x y, a = some x ∧ b = some y ∧ f x y = some r := by
  unfold op2 at h
  split at h
  · rename_i x y; exact ⟨x, y, rfl, rfl, h⟩
  · exact absurd h (by simp)

theorem bnd_sound {ρ : ℕ → F64} {σ : ℕ → ℝ} {β : ℕ → B} (hv : ∀ i, In (ρ i) (σ i) (β i)) : ∀ (x : Ex) (r : B), bnd β x = some r → In (evF ρ x) (evR σ x) r
  | .lit m k, r, h => lit_sound h
  | .var i, r, h => by
    simp only [bnd, Option.some.injEq] at h
    subst h; exact hv i
  | .neg a, r, h => by
    simp only [bnd] at h
    split at h
    · rename_i x hx
      simp only [Option.some.injEq] at h
      subst h
      exact neg_sound (bnd_sound hv a x hx)
    · exact absurd h (by simp)
  | .add a b, r, h => by
    obtain ⟨x, y, h1, h2, h3⟩ := op2_some h
    exact add_sound (bnd_sound hv a x h1) (bnd_sound hv b y h2) h3
  | .sub a b, r, h => by
    obtain ⟨x, y, h1, h2, h3⟩ := op2_some h
    exact sub_sound (bnd_sound hv a x h1) (bnd_sound hv b y h2) h3
  | .mul a b, r, h => by
    obtain ⟨x, y, h1, h2, h3⟩ := op2_some h
    exact mul_sound (bnd_sound hv a x h1) (bnd_sound hv b y h2) h3
  | .div a b, r, h => by
    obtain ⟨x, y, h1, h2, h3⟩ := op2_some h
    exact div_sound (bnd_sound hv a x h1) (bnd_sound hv b y h2) h3

/-- the form in which it is used: error at most `e` units, enclosure `[l,u]`, checked by evaluation -/
def within (β : ℕ → B) (x : Ex) (l u : ℤ) (e : ℕ) : Bool :=
  match bnd β x with
  | some r => decide (l ≤ r.l) && decide (r.u ≤ u) && decide (r.e ≤ e)
  | none => false

theorem within_sound {ρ : ℕ → F64} {σ : ℕ → ℝ} {β : ℕ → B} {x : Ex} {l u : ℤ} {e : ℕ} (hv : ∀ i, In (ρ i) (σ i) (β i)) (h : within β x l u e = true) :
    In (evF ρ x) (evR σ x) ⟨l, u, e⟩ := by
  unfold within at h
  split at h
  · rename_i r hr
    simp only [Bool.and_eq_true, decide_eq_true_eq] at h
    have k := bnd_sound hv x r hr
    have hU := U_pos
    have c1 : (l:ℝ) ≤ r.l := by exact_mod_cast h.1.1
    have c2 : (r.u:ℝ) ≤ u := by exact_mod_cast h.1.2
    have c3 : (r.e:ℝ) ≤ e := by exact_mod_cast h.2
    refine ⟨k.fin, le_trans (by gcongr) k.lo, k.hi.trans (by gcongr), k.err.trans (by gcongr)⟩
  · exact absurd h (by simp)

end FlErr
end Verif
