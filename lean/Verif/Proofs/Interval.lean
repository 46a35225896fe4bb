import Verif.Model.Utils
import Verif.F64.Ops
import Verif.Proofs.Utils

/-! Values of concrete numbers, and interval arithmetic with `F64` end points evaluated by the kernel. -/

namespace Verif
namespace F64

theorem val_of_sv {x : F64} (n : ℤ) (d : ℕ) (hd : 0 < d) (h : x.sv * d = n * 2^1074) : x.val = n / d := by
  unfold val
  rw [div_eq_div_iff U_pos.ne' (by exact_mod_cast hd.ne')]
  have := congrArg (fun z : ℤ => (z : ℝ)) h
  simp only [Int.cast_mul, Int.cast_pow, Int.cast_ofNat, Int.cast_natCast] at this
  exact this

theorem val_le_of_sv {x : F64} (n : ℤ) (d : ℕ) (hd : 0 < d) (h : x.sv * d ≤ n * 2^1074) : x.val ≤ n / d := by
  unfold val
  rw [div_le_div_iff₀ U_pos (by exact_mod_cast hd)]
  have : ((x.sv * d : ℤ) : ℝ) ≤ ((n * 2^1074 : ℤ) : ℝ) := Int.cast_le.2 h
  simp only [Int.cast_mul, Int.cast_pow, Int.cast_ofNat, Int.cast_natCast] at this
  exact this

theorem le_val_of_sv {x : F64} (n : ℤ) (d : ℕ) (hd : 0 < d) (h : n * 2^1074 ≤ x.sv * d) : (n:ℝ) / d ≤ x.val := by
  unfold val
  rw [div_le_div_iff₀ (by exact_mod_cast hd) U_pos]
  have : ((n * 2^1074 : ℤ) : ℝ) ≤ ((x.sv * d : ℤ) : ℝ) := Int.cast_le.2 h
  simp only [Int.cast_mul, Int.cast_pow, Int.cast_ofNat, Int.cast_natCast] at this
  exact this

theorem val_of_int {x : F64} (n : ℤ) (h : x.sv = n * 2^1074) : x.val = n := by
  have := val_of_sv (x := x) n 1 (by norm_num) (by rw [h]; simp)
  simpa using this

theorem val_lt_of_lt {a b : F64} (h : F64.lt a b = true) : a.val < b.val := (lt_iff.1 h).2.2
theorem val_le_of_le {a b : F64} (h : F64.le a b = true) : a.val ≤ b.val := (le_iff.1 h).2.2

theorem lt_false_iff {a b : F64} (ha : a.isNaN = false) (hb : b.isNaN = false) : F64.lt a b = false ↔ b.val ≤ a.val := by
  rw [← not_lt, ← Bool.not_eq_true, lt_iff]
  simp [ha, hb]

theorem le_false_iff {a b : F64} (ha : a.isNaN = false) (hb : b.isNaN = false) : F64.le a b = false ↔ b.val < a.val := by
  rw [← not_le, ← Bool.not_eq_true, le_iff]
  simp [ha, hb]

theorem lt_nan_left {a b : F64} (h : a.isNaN = true) : F64.lt a b = false := by unfold lt; rw [h]; rfl
theorem lt_nan_right {a b : F64} (h : b.isNaN = true) : F64.lt a b = false := by unfold lt; rw [h]; simp
theorem le_nan_left {a b : F64} (h : a.isNaN = true) : F64.le a b = false := by unfold le; rw [h]; rfl
theorem le_nan_right {a b : F64} (h : b.isNaN = true) : F64.le a b = false := by unfold le; rw [h]; simp
theorem eq_nan_left {a b : F64} (h : a.isNaN = true) : F64.eq a b = false := by unfold eq; rw [h]; rfl
theorem eq_nan_right {a b : F64} (h : b.isNaN = true) : F64.eq a b = false := by unfold eq; rw [h]; simp

theorem max_val {a b : F64} (ha : a.isNaN = false) (hb : b.isNaN = false) :
    (max a b).isNaN = false ∧ (max a b).val = Max.max a.val b.val := by
  unfold max; rw [ha, hb]
  simp only [Bool.false_eq_true, if_false]
  split
  · rename_i h; rw [key_lt] at h; exact ⟨hb, (max_eq_right h.le).symm⟩
  · rename_i h; rw [key_lt, not_lt] at h; exact ⟨ha, (max_eq_left h).symm⟩

theorem min_val {a b : F64} (ha : a.isNaN = false) (hb : b.isNaN = false) :
    (min a b).isNaN = false ∧ (min a b).val = Min.min a.val b.val := by
  unfold min; rw [ha, hb]
  simp only [Bool.false_eq_true, if_false]
  split
  · rename_i h; rw [key_lt] at h; exact ⟨hb, (min_eq_right h.le).symm⟩
  · rename_i h; rw [key_lt, not_lt] at h; exact ⟨ha, (min_eq_left h).symm⟩

end F64

/-- an interval with `F64` end points -/
structure Iv where
  lo : F64
  hi : F64

namespace Iv
open F64

/-- both end points finite -/
def ok (i : Iv) : Bool := i.lo.isFin && i.hi.isFin
/-- membership (by value) -/
def Mem (i : Iv) (x : F64) : Prop := i.lo.val ≤ x.val ∧ x.val ≤ i.hi.val

/-- a point -/
def pt (c : F64) : Iv := ⟨c, c⟩
def neg (i : Iv) : Iv := ⟨-i.hi, -i.lo⟩
def add (i j : Iv) : Iv := ⟨i.lo + j.lo, i.hi + j.hi⟩
def sub (i j : Iv) : Iv := ⟨i.lo - j.hi, i.hi - j.lo⟩
def mul (i j : Iv) : Iv :=
  ⟨F64.min (F64.min (i.lo * j.lo) (i.lo * j.hi)) (F64.min (i.hi * j.lo) (i.hi * j.hi)),
   F64.max (F64.max (i.lo * j.lo) (i.lo * j.hi)) (F64.max (i.hi * j.lo) (i.hi * j.hi))⟩
def fma (i j k : Iv) : Iv :=
  ⟨F64.min (F64.min (F64.fma i.lo j.lo k.lo) (F64.fma i.lo j.hi k.lo)) (F64.min (F64.fma i.hi j.lo k.lo) (F64.fma i.hi j.hi k.lo)),
   F64.max (F64.max (F64.fma i.lo j.lo k.hi) (F64.fma i.lo j.hi k.hi)) (F64.max (F64.fma i.hi j.lo k.hi) (F64.fma i.hi j.hi k.hi))⟩
def div (i j : Iv) : Iv :=
  ⟨F64.min (F64.min (i.lo / j.lo) (i.lo / j.hi)) (F64.min (i.hi / j.lo) (i.hi / j.hi)),
   F64.max (F64.max (i.lo / j.lo) (i.lo / j.hi)) (F64.max (i.hi / j.lo) (i.hi / j.hi))⟩
/-- convex hull -/
def hull (i j : Iv) : Iv := ⟨F64.min i.lo j.lo, F64.max i.hi j.hi⟩
def sub' (i j : Iv) : Bool := F64.le j.lo i.lo && F64.le i.hi j.hi

theorem ok_iff {i : Iv} : i.ok = true ↔ i.lo.isFin = true ∧ i.hi.isFin = true := by unfold ok; simp

theorem Mem.fin {i : Iv} {x : F64} (hi : i.ok = true) (h : i.Mem x) : x.isFin = true := by
  rw [ok_iff] at hi
  rw [isFin_iff_val, abs_lt]
  exact ⟨lt_of_lt_of_le (fin_gt hi.1) h.1, lt_of_le_of_lt h.2 (fin_lt hi.2)⟩

theorem mem_pt (c : F64) : (pt c).Mem c := ⟨le_refl _, le_refl _⟩

theorem mem_neg {i : Iv} {x : F64} (h : i.Mem x) : i.neg.Mem (-x) := by
  unfold neg Mem; rw [val_neg, val_neg, val_neg]; exact ⟨neg_le_neg h.2, neg_le_neg h.1⟩

theorem mem_add {i j : Iv} {x y : F64} (hi : i.ok = true) (hj : j.ok = true) (hx : i.Mem x) (hy : j.Mem y) :
    (i.add j).Mem (x + y) := by
  have fx := hx.fin hi
  have fy := hy.fin hj
  rw [ok_iff] at hi hj
  unfold add Mem
  rw [(add_spec fx fy).2]
  simp only
  rw [(add_spec hi.1 hj.1).2, (add_spec hi.2 hj.2).2]
  exact ⟨RN_mono (add_le_add hx.1 hy.1), RN_mono (add_le_add hx.2 hy.2)⟩

theorem mem_sub {i j : Iv} {x y : F64} (hi : i.ok = true) (hj : j.ok = true) (hx : i.Mem x) (hy : j.Mem y) :
    (i.sub j).Mem (x - y) := by
  have fx := hx.fin hi
  have fy := hy.fin hj
  rw [ok_iff] at hi hj
  unfold sub Mem
  rw [(sub_spec fx fy).2]
  simp only
  rw [(sub_spec hi.1 hj.2).2, (sub_spec hi.2 hj.1).2]
  exact ⟨RN_mono (sub_le_sub hx.1 hy.2), RN_mono (sub_le_sub hx.2 hy.1)⟩

theorem bilin_bounds {a b c d x y : ℝ} (hx : a ≤ x ∧ x ≤ b) (hy : c ≤ y ∧ y ≤ d) :
    Min.min (Min.min (a*c) (a*d)) (Min.min (b*c) (b*d)) ≤ x*y ∧ x*y ≤ Max.max (Max.max (a*c) (a*d)) (Max.max (b*c) (b*d)) := by
  have key1 : ∀ t : ℝ, Min.min (a*t) (b*t) ≤ x*t ∧ x*t ≤ Max.max (a*t) (b*t) := by
    intro t
    rcases le_total 0 t with ht | ht
    · exact ⟨le_trans (min_le_left _ _) (mul_le_mul_of_nonneg_right hx.1 ht), le_trans (mul_le_mul_of_nonneg_right hx.2 ht) (le_max_right _ _)⟩
    · exact ⟨le_trans (min_le_right _ _) (mul_le_mul_of_nonpos_right hx.2 ht), le_trans (mul_le_mul_of_nonpos_right hx.1 ht) (le_max_left _ _)⟩
  have key2 : Min.min (x*c) (x*d) ≤ x*y ∧ x*y ≤ Max.max (x*c) (x*d) := by
    rcases le_total 0 x with ht | ht
    · exact ⟨le_trans (min_le_left _ _) (mul_le_mul_of_nonneg_left hy.1 ht), le_trans (mul_le_mul_of_nonneg_left hy.2 ht) (le_max_right _ _)⟩
    · exact ⟨le_trans (min_le_right _ _) (mul_le_mul_of_nonpos_left hy.2 ht), le_trans (mul_le_mul_of_nonpos_left hy.1 ht) (le_max_left _ _)⟩
  have kc := key1 c
  have kd := key1 d
  constructor
  · refine le_trans ?_ key2.1
    rw [le_min_iff]
    constructor
    · refine le_trans ?_ kc.1
      rw [le_min_iff]
      exact ⟨le_trans (min_le_left _ _) (min_le_left _ _), le_trans (min_le_right _ _) (min_le_left _ _)⟩
    · refine le_trans ?_ kd.1
      rw [le_min_iff]
      exact ⟨le_trans (min_le_left _ _) (min_le_right _ _), le_trans (min_le_right _ _) (min_le_right _ _)⟩
  · refine le_trans key2.2 ?_
    rw [max_le_iff]
    constructor
    · refine le_trans kc.2 ?_
      rw [max_le_iff]
      exact ⟨le_trans (le_max_left _ _) (le_max_left _ _), le_trans (le_max_left _ _) (le_max_right _ _)⟩
    · refine le_trans kd.2 ?_
      rw [max_le_iff]
      exact ⟨le_trans (le_max_right _ _) (le_max_left _ _), le_trans (le_max_right _ _) (le_max_right _ _)⟩

theorem RN_min (x y : ℝ) : RN (Min.min x y) = Min.min (RN x) (RN y) := by
  rcases le_total x y with h | h
  · rw [min_eq_left h, min_eq_left (RN_mono h)]
  · rw [min_eq_right h, min_eq_right (RN_mono h)]
theorem RN_max (x y : ℝ) : RN (Max.max x y) = Max.max (RN x) (RN y) := by
  rcases le_total x y with h | h
  · rw [max_eq_right h, max_eq_right (RN_mono h)]
  · rw [max_eq_left h, max_eq_left (RN_mono h)]

theorem min4_val {a b c d : F64} {p q r s : ℝ} (ha : a.isNaN = false ∧ a.val = RN p) (hb : b.isNaN = false ∧ b.val = RN q)
    (hc : c.isNaN = false ∧ c.val = RN r) (hd : d.isNaN = false ∧ d.val = RN s) :
    (F64.min (F64.min a b) (F64.min c d)).val = RN (Min.min (Min.min p q) (Min.min r s)) := by
  have h1 := min_val ha.1 hb.1
  have h2 := min_val hc.1 hd.1
  rw [(min_val h1.1 h2.1).2, h1.2, h2.2, ha.2, hb.2, hc.2, hd.2, RN_min, RN_min, RN_min]
theorem max4_val {a b c d : F64} {p q r s : ℝ} (ha : a.isNaN = false ∧ a.val = RN p) (hb : b.isNaN = false ∧ b.val = RN q)
    (hc : c.isNaN = false ∧ c.val = RN r) (hd : d.isNaN = false ∧ d.val = RN s) :
    (F64.max (F64.max a b) (F64.max c d)).val = RN (Max.max (Max.max p q) (Max.max r s)) := by
  have h1 := max_val ha.1 hb.1
  have h2 := max_val hc.1 hd.1
  rw [(max_val h1.1 h2.1).2, h1.2, h2.2, ha.2, hb.2, hc.2, hd.2, RN_max, RN_max, RN_max]

theorem mul_spec' {a b : F64} (ha : a.isFin = true) (hb : b.isFin = true) :
    (a * b).isNaN = false ∧ (a * b).val = RN (a.val * b.val) := ⟨(mul_spec ha hb).1, (mul_spec ha hb).2.1⟩
theorem div_spec' {a b : F64} (ha : a.isFin = true) (hb : b.isFin = true) (h0 : b.val ≠ 0) :
    (a / b).isNaN = false ∧ (a / b).val = RN (a.val / b.val) := ⟨(div_spec ha hb h0).1, (div_spec ha hb h0).2.1⟩

theorem mem_mul {i j : Iv} {x y : F64} (hi : i.ok = true) (hj : j.ok = true) (hx : i.Mem x) (hy : j.Mem y) :
    (i.mul j).Mem (x * y) := by
  have fx := hx.fin hi
  have fy := hy.fin hj
  rw [ok_iff] at hi hj
  have hb := bilin_bounds hx hy
  unfold mul Mem
  rw [(mul_spec fx fy).2.1]
  simp only
  rw [min4_val (mul_spec' hi.1 hj.1) (mul_spec' hi.1 hj.2) (mul_spec' hi.2 hj.1) (mul_spec' hi.2 hj.2),
    max4_val (mul_spec' hi.1 hj.1) (mul_spec' hi.1 hj.2) (mul_spec' hi.2 hj.1) (mul_spec' hi.2 hj.2)]
  exact ⟨RN_mono hb.1, RN_mono hb.2⟩

theorem mem_fma {i j k : Iv} {x y z : F64} (hi : i.ok = true) (hj : j.ok = true) (hk : k.ok = true)
    (hx : i.Mem x) (hy : j.Mem y) (hz : k.Mem z) : (i.fma j k).Mem (F64.fma x y z) := by
  have fx := hx.fin hi
  have fy := hy.fin hj
  have fz := hz.fin hk
  rw [ok_iff] at hi hj hk
  have hb := bilin_bounds hx hy
  unfold fma Mem
  rw [(fma_spec fx fy fz).2]
  simp only
  rw [min4_val (fma_spec hi.1 hj.1 hk.1) (fma_spec hi.1 hj.2 hk.1) (fma_spec hi.2 hj.1 hk.1) (fma_spec hi.2 hj.2 hk.1),
    max4_val (fma_spec hi.1 hj.1 hk.2) (fma_spec hi.1 hj.2 hk.2) (fma_spec hi.2 hj.1 hk.2) (fma_spec hi.2 hj.2 hk.2)]
  rw [min_add_add_right, min_add_add_right, min_add_add_right, max_add_add_right, max_add_add_right, max_add_add_right]
  exact ⟨RN_mono (add_le_add hb.1 hz.1), RN_mono (add_le_add hb.2 hz.2)⟩

theorem mem_div {i j : Iv} {x y : F64} (hi : i.ok = true) (hj : j.ok = true)
    (h0 : F64.lt 0.0 j.lo = true ∨ F64.lt j.hi 0.0 = true) (hx : i.Mem x) (hy : j.Mem y) :
    (i.div j).Mem (x / y) := by
  have fx := hx.fin hi
  have fy := hy.fin hj
  rw [ok_iff] at hi hj
  have z0 : (0.0 : F64).val = 0 := by rw [zero_lit]; exact zero_val
  have hne : j.lo.val ≠ 0 ∧ j.hi.val ≠ 0 ∧ y.val ≠ 0 ∧ (j.hi.val)⁻¹ ≤ (y.val)⁻¹ ∧ (y.val)⁻¹ ≤ (j.lo.val)⁻¹ := by
    rcases h0 with h | h
    · have := val_lt_of_lt h; rw [z0] at this
      have hy0 := lt_of_lt_of_le this hy.1
      have hh0 := lt_of_lt_of_le hy0 hy.2
      exact ⟨this.ne', hh0.ne', hy0.ne', inv_anti₀ hy0 hy.2, inv_anti₀ this hy.1⟩
    · have := val_lt_of_lt h; rw [z0] at this
      have hy0 := lt_of_le_of_lt hy.2 this
      have hh0 := lt_of_le_of_lt hy.1 hy0
      exact ⟨hh0.ne, this.ne, hy0.ne, (inv_le_inv_of_neg this hy0).2 hy.2, (inv_le_inv_of_neg hy0 hh0).2 hy.1⟩
  obtain ⟨n1, n2, n3, h4, h5⟩ := hne
  have hb := bilin_bounds (y := (y.val)⁻¹) hx ⟨h4, h5⟩
  unfold div Mem
  rw [(div_spec fx fy n3).2.1]
  simp only
  rw [min4_val (div_spec' hi.1 hj.1 n1) (div_spec' hi.1 hj.2 n2) (div_spec' hi.2 hj.1 n1) (div_spec' hi.2 hj.2 n2),
    max4_val (div_spec' hi.1 hj.1 n1) (div_spec' hi.1 hj.2 n2) (div_spec' hi.2 hj.1 n1) (div_spec' hi.2 hj.2 n2)]
  simp only [div_eq_mul_inv]
  rw [min_comm (i.lo.val * _), min_comm (i.hi.val * _), max_comm (i.lo.val * _), max_comm (i.hi.val * _)]
  exact ⟨RN_mono hb.1, RN_mono hb.2⟩

theorem mem_sub' {i j : Iv} {x : F64} (h : i.sub' j = true) (hx : i.Mem x) : j.Mem x := by
  unfold sub' at h
  rw [Bool.and_eq_true] at h
  exact ⟨le_trans (val_le_of_le h.1) hx.1, le_trans hx.2 (val_le_of_le h.2)⟩

theorem mem_hull_left {i j : Iv} {x : F64} (hi : i.ok = true) (hj : j.ok = true) (hx : i.Mem x) : (i.hull j).Mem x := by
  rw [ok_iff] at hi hj
  unfold hull Mem
  simp only
  rw [(min_val (isFin_notNaN hi.1) (isFin_notNaN hj.1)).2, (max_val (isFin_notNaN hi.2) (isFin_notNaN hj.2)).2]
  exact ⟨le_trans (min_le_left _ _) hx.1, le_trans hx.2 (le_max_left _ _)⟩

theorem mem_hull_right {i j : Iv} {x : F64} (hi : i.ok = true) (hj : j.ok = true) (hx : j.Mem x) : (i.hull j).Mem x := by
  rw [ok_iff] at hi hj
  unfold hull Mem
  simp only
  rw [(min_val (isFin_notNaN hi.1) (isFin_notNaN hj.1)).2, (max_val (isFin_notNaN hi.2) (isFin_notNaN hj.2)).2]
  exact ⟨le_trans (min_le_right _ _) hx.1, le_trans hx.2 (le_max_right _ _)⟩

theorem mem_of_le {l h x : F64} (h1 : F64.le l x = true) (h2 : F64.le x h = true) : (Iv.mk l h).Mem x :=
  ⟨val_le_of_le h1, val_le_of_le h2⟩

end Iv
end Verif
