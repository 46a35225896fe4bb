import Verif.Arith

/-!
# Exact real arithmetic with undefined values

`XR` is the real line with one extra value `undef` for the result of an undefined operation: a division by zero, the square root
of a negative number, the logarithm of a number that is not positive, a power of a number that is not positive, and anything computed
from `undef`.  Running the (generic) model at `XR` gives the program in exact arithmetic, and "no division by zero occurs" is "the result is
not `undef`".  Comparisons with `undef` are false, as with NaN.
-/

namespace Verif

/-- a real number, or undefined -/
inductive XR where
  | real : ℝ → XR
  | undef : XR

namespace XR

noncomputable def lift1 (f : ℝ → ℝ) : XR → XR
  | real a => real (f a)
  | undef => undef

noncomputable def lift2 (f : ℝ → ℝ → ℝ) : XR → XR → XR
  | real a, real b => real (f a b)
  | _, _ => undef

noncomputable def rel (p : ℝ → ℝ → Bool) : XR → XR → Bool
  | real a, real b => p a b
  | _, _ => false

noncomputable instance : Add XR := ⟨lift2 (· + ·)⟩
noncomputable instance : Sub XR := ⟨lift2 (· - ·)⟩
noncomputable instance : Mul XR := ⟨lift2 (· * ·)⟩
noncomputable instance : Neg XR := ⟨lift1 (- ·)⟩

open Classical in
/-- division; by zero it is undefined -/
noncomputable def div : XR → XR → XR
  | real a, real b => if b = 0 then undef else real (a / b)
  | _, _ => undef
noncomputable instance : Div XR := ⟨div⟩

noncomputable instance : OfScientific XR := ⟨fun m s e => real (OfScientific.ofScientific m s e)⟩

open Classical in
noncomputable def sqrt : XR → XR
  | real a => if a < 0 then undef else real (Real.sqrt a)
  | undef => undef

open Classical in
noncomputable def ln : XR → XR
  | real a => if a ≤ 0 then undef else real (Real.log a)
  | undef => undef

open Classical in
noncomputable def powf : XR → XR → XR
  | real a, real b => if a ≤ 0 then undef else real (a ^ b)
  | _, _ => undef

noncomputable instance : Arith XR where
  lt := rel Arith.lt
  le := rel Arith.le
  eq := rel Arith.eq
  abs := lift1 Arith.abs
  sqrt := sqrt
  floor := lift1 Arith.floor
  fract := lift1 Arith.fract
  max := lift2 Arith.max
  min := lift2 Arith.min
  fma a b c := a * b + c
  ofNat n := real n
  ofInt i := real i
  toU mx a := match a with | real a => Arith.toU mx a | undef => 0
  toS mx a := match a with | real a => Arith.toS mx a | undef => 0
  isNaN a := match a with | real _ => false | undef => true
  isInf _ := false
  signPos a := match a with | real a => Arith.signPos a | undef => true
  copysign := lift2 Arith.copysign
  inf := undef
  nan := undef
  eps := real Arith.eps
  minPos := real Arith.minPos
  pi := real Arith.pi
  frac2Pi := real Arith.frac2Pi
  fracPi4 := real Arith.fracPi4
  frac2SqrtPi := real Arith.frac2SqrtPi
  frac1Sqrt2 := real Arith.frac1Sqrt2
  frexp a := match a with | real a => (real (Arith.frexp a).1, (Arith.frexp a).2) | undef => (undef, 0)
  ldexp a k := lift1 (fun a => Arith.ldexp a k) a

noncomputable instance : Libm XR where
  exp := lift1 Real.exp
  ln := ln
  sin := lift1 Real.sin
  cos := lift1 Real.cos
  sinh := lift1 Real.sinh
  cosh := lift1 Real.cosh
  powf := powf

/-! ## forward rules -/

theorem add_real (a b : ℝ) : (real a + real b : XR) = real (a + b) := (rfl)
theorem sub_real (a b : ℝ) : (real a - real b : XR) = real (a - b) := (rfl)
theorem mul_real (a b : ℝ) : (real a * real b : XR) = real (a * b) := (rfl)
theorem neg_real (a : ℝ) : (-(real a) : XR) = real (-a) := (rfl)
theorem div_real (a : ℝ) {b : ℝ} (h : b ≠ 0) : (real a / real b : XR) = real (a / b) := if_neg h
theorem ofNat_real (n : ℕ) : (Arith.ofNat n : XR) = real n := (rfl)
theorem ofInt_real (n : ℤ) : (Arith.ofInt n : XR) = real n := (rfl)
theorem lit_real (m : ℕ) (s : Bool) (e : ℕ) : (OfScientific.ofScientific m s e : XR) = real (OfScientific.ofScientific m s e) := (rfl)
theorem sqrt_real {a : ℝ} (h : 0 ≤ a) : (Arith.sqrt (real a) : XR) = real (Real.sqrt a) := if_neg (not_lt.2 h)

/-! ## backward rules: what a defined result says about the operands -/

theorem add_inv {a b : XR} {r : ℝ} (h : a + b = real r) : ∃ x y, a = real x ∧ b = real y ∧ r = x + y := by
  cases a <;> cases b <;> first | (cases h; exact ⟨_, _, rfl, rfl, rfl⟩) | exact XR.noConfusion h
theorem sub_inv {a b : XR} {r : ℝ} (h : a - b = real r) : ∃ x y, a = real x ∧ b = real y ∧ r = x - y := by
  cases a <;> cases b <;> first | (cases h; exact ⟨_, _, rfl, rfl, rfl⟩) | exact XR.noConfusion h
theorem mul_inv {a b : XR} {r : ℝ} (h : a * b = real r) : ∃ x y, a = real x ∧ b = real y ∧ r = x * y := by
  cases a <;> cases b <;> first | (cases h; exact ⟨_, _, rfl, rfl, rfl⟩) | exact XR.noConfusion h
theorem neg_inv {a : XR} {r : ℝ} (h : -a = real r) : ∃ x, a = real x ∧ r = -x := by
  cases a <;> first | (cases h; exact ⟨_, rfl, rfl⟩) | exact XR.noConfusion h
theorem div_inv {a b : XR} {r : ℝ} (h : a / b = real r) : ∃ x y, a = real x ∧ b = real y ∧ y ≠ 0 ∧ r = x / y := by
  cases a with
  | undef => cases b <;> exact XR.noConfusion h
  | real x => cases b with
    | undef => exact XR.noConfusion h
    | real y =>
      by_cases hy : y = 0
      · have : (real x / real y : XR) = undef := if_pos hy
        rw [this] at h; cases h
      · rw [div_real x hy] at h; cases h; exact ⟨_, _, rfl, rfl, hy, rfl⟩
theorem sqrt_inv {a : XR} {r : ℝ} (h : Arith.sqrt a = real r) : ∃ x, a = real x ∧ 0 ≤ x ∧ r = Real.sqrt x := by
  cases a with
  | undef => exact XR.noConfusion h
  | real x =>
    by_cases hx : x < 0
    · have : (Arith.sqrt (real x) : XR) = undef := if_pos hx
      rw [this] at h; cases h
    · rw [sqrt_real (not_lt.1 hx)] at h; cases h; exact ⟨_, rfl, not_lt.1 hx, rfl⟩

end XR
end Verif
