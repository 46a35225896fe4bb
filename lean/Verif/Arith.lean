import Mathlib.Analysis.SpecialFunctions.Trigonometric.Basic
import Mathlib.Analysis.SpecialFunctions.Log.Base
import Mathlib.Analysis.SpecialFunctions.Pow.Real
import Mathlib.Analysis.Real.Sqrt
import Verif.F64.Basic

/-!
# The arithmetic interface over which the crate is transcribed

The Rust functions of /repo/src are transcribed over a type `α` with `+ - * /`, negation and decimal
literals (`Add … OfScientific`, so that at `ℝ` these are literally Mathlib's operations), plus the two classes here.

* `α = F64`: what the Rust program computes, bit for bit.  `Libm F64` stays a parameter.
* `α = ℝ`: the same program in exact arithmetic.
-/

namespace Verif

/-- How a Rust call can fail to return a value. -/
inductive Err
  /-- `panic!`, `assert!`, index out of bounds, `unwrap`, or arithmetic overflow with overflow checks enabled -/
  | panic
  /-- the model ran out of its iteration budget (a theorem is needed to exclude this) -/
  | fuel
deriving DecidableEq

/-- A Rust call: a value, a panic, or (model artefact) exhausted fuel. -/
abbrev M := Except Err

/-- Build configuration on which the crate's semantics depends. -/
class Cfg where
  /-- `cfg(target_feature = "fma")`, src/utils.rs:124-132 -/
  fma : Bool
  /-- overflow checks (`debug_assertions`): integer overflow panics; otherwise it wraps -/
  checks : Bool

/-- The `f64` operations (other than `+ - * /`, negation, literals and libm calls) used in /repo/src. -/
class Arith (α : Type) where
  lt : α → α → Bool
  le : α → α → Bool
  eq : α → α → Bool
  abs : α → α
  sqrt : α → α
  floor : α → α
  fract : α → α
  max : α → α → α
  min : α → α → α
  /-- fused multiply-add -/
  fma : α → α → α → α
  /-- `n as f64` for unsigned integers -/
  ofNat : Nat → α
  /-- `i as f64` for signed integers -/
  ofInt : Int → α
  /-- `x as uN` (saturating), `mx` = `uN::MAX` -/
  toU : Nat → α → Nat
  /-- `x as iN` (saturating), `mx` = `iN::MAX` -/
  toS : Nat → α → Int
  isNaN : α → Bool
  isInf : α → Bool
  /-- `f64::is_sign_positive` -/
  signPos : α → Bool
  copysign : α → α → α
  inf : α
  nan : α
  /-- `f64::EPSILON` -/
  eps : α
  /-- `f64::MIN_POSITIVE` -/
  minPos : α
  /-- `core::f64::consts::PI` -/
  pi : α
  /-- `FRAC_2_PI` -/
  frac2Pi : α
  /-- `FRAC_PI_4` -/
  fracPi4 : α
  /-- `FRAC_2_SQRT_PI` -/
  frac2SqrtPi : α
  /-- `FRAC_1_SQRT_2` -/
  frac1Sqrt2 : α
  /-- `utils::frexp`, see `Verif.Model.Utils` for the F64 instance -/
  frexp : α → α × Int
  /-- `utils::ldexp` with the exponents (`±512`) used in the crate -/
  ldexp : α → Int → α

/-- The libm functions Rust's `f64` methods call. -/
class Libm (α : Type) where
  exp : α → α
  ln : α → α
  sin : α → α
  cos : α → α
  sinh : α → α
  cosh : α → α
  powf : α → α → α

/-- Rust's `<`, `<=`, `==` on `f64` as Booleans -/
scoped infix:50 " <ᶠ " => Arith.lt
scoped infix:50 " ≤ᶠ " => Arith.le
scoped infix:50 " ==ᶠ " => Arith.eq

/-- Decimal literals at `F64` are correctly rounded. -/
instance : OfScientific F64 where
  ofScientific m s e :=
    if s then F64.mk' false (m * 2^1074) (10^e) else F64.mk' false (m * 10^e * 2^1074) 1

/-- Exact real arithmetic.  `inf`/`nan` do not exist in ℝ; the fields are unused placeholders. -/
noncomputable instance : Arith ℝ where
  lt a b := decide (a < b)
  le a b := decide (a ≤ b)
  eq a b := decide (a = b)
  abs a := |a|
  sqrt := Real.sqrt
  floor a := ⌊a⌋
  fract a := if 0 ≤ a then Int.fract a else -Int.fract (-a)
  max := Max.max
  min := Min.min
  fma a b c := a * b + c
  ofNat n := n
  ofInt i := i
  toU mx a := Nat.min ⌊a⌋₊ mx
  toS mx a := if 0 ≤ a then (Nat.min ⌊a⌋₊ mx : Nat) else -((Nat.min ⌊-a⌋₊ (mx+1) : Nat) : Int)
  isNaN _ := false
  isInf _ := false
  signPos a := decide (0 ≤ a)
  copysign a b := if 0 ≤ b then |a| else -|a|
  inf := 0
  nan := 0
  eps := 1 / 2^52
  minPos := 1 / 2^1022
  pi := Real.pi
  frac2Pi := 2 / Real.pi
  fracPi4 := Real.pi / 4
  frac2SqrtPi := 2 / Real.sqrt Real.pi
  frac1Sqrt2 := 1 / Real.sqrt 2
  frexp a := if a = 0 then (0, 0) else (a / 2 ^ (⌊Real.logb 2 |a|⌋ + 1), ⌊Real.logb 2 |a|⌋ + 1)
  ldexp a k := a * 2 ^ k

noncomputable instance : Libm ℝ where
  exp := Real.exp
  ln := Real.log
  sin := Real.sin
  cos := Real.cos
  sinh := Real.sinh
  cosh := Real.cosh
  powf := fun x y => x ^ y

end Verif
