import Verif.Model.Utils
import Verif.F64.Ops

/-!
# Vocabulary used in the property statements

`F64.val x : ℝ` is the real number a finite `f64` denotes (`Verif.F64.Val`); `x.isNaN`, `x.isFin`, `x.isInf` are the IEEE classes; `RN r`
is the real number `r` rounded to binary64 (to nearest, ties to even; `±2^1024` stands for infinity).
-/

namespace Verif

/-- the call panics -/
def Panics {β : Type} (m : M β) : Prop := m = .error .panic
/-- the call returns `v` -/
def Returns {β : Type} (m : M β) (v : β) : Prop := m = .ok v

namespace F64
/-- normal number: finite and at least `2^-1022` in magnitude -/
def Normal (x : F64) : Prop := x.isFin = true ∧ (2:ℝ)^(-1022 : ℤ) ≤ |x.val|
/-- `x` lies in the closed interval (and is not NaN) -/
def Mem (x : F64) (lo hi : ℝ) : Prop := x.isNaN = false ∧ lo ≤ x.val ∧ x.val ≤ hi
/-- `x` is a finite integer -/
def IsInt (x : F64) : Prop := x.isFin = true ∧ ∃ i : ℤ, x.val = i
/-- `q` is `1 - p` rounded and clamped to `[0, 1]` (NaN if `p` is NaN) -/
def IsCompl (p q : F64) : Prop :=
  (p.isNaN = true ∧ q.isNaN = true) ∨
  (p.isNaN = false ∧ q.isNaN = false ∧ q.val = Max.max 0 (Min.min 1 (RN (1 - p.val))))
/-- `a` and `b` are equal, or both NaN -/
example (a b : F64) : Same a b ↔ (a = b ∨ (a.isNaN = true ∧ b.isNaN = true)) := Iff.rfl
end F64

end Verif
