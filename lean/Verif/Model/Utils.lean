import Verif.Arith

/-!
# Model of /repo/src/utils.rs and of the constants in /repo/src/lib.rs
-/

namespace Verif

/-- `usize::MAX` on the 64-bit targets modelled -/
abbrev USIZE_MAX : Nat := 2^64 - 1
/-- `u64::MAX` -/
abbrev U64_MAX : Nat := 2^64 - 1
/-- `u32::MAX` -/
abbrev U32_MAX : Nat := 2^32 - 1
/-- `i32::MAX` -/
abbrev I32_MAX : Nat := 2^31 - 1
/-- `isize::MAX` -/
abbrev ISIZE_MAX : Nat := 2^63 - 1

/-- An unsigned operation whose exact result is `r`, on a type with maximum `mx`: in range it is `r`; on overflow it
panics when overflow checks are on and wraps modulo `mx+1` otherwise. -/
def wrapU [Cfg] (mx r : Nat) : M Nat :=
  if r ≤ mx then .ok r else if Cfg.checks then .error .panic else .ok (r % (mx + 1))

/-- A signed operation whose exact result is `r` on the range `[-mx-1, mx]` -/
def wrapS [Cfg] (mx : Nat) (r : Int) : M Int :=
  if -(mx : Int) - 1 ≤ r ∧ r ≤ mx then .ok r
  else if Cfg.checks then .error .panic
  else .ok ((r + mx + 1) % (2 * (mx + 1)) - mx - 1)

/-! ## `frexp`, `ldexp` on bit patterns -/

namespace F64

/-- src/utils.rs:38-64 `frexp`.  `bits >> 63`, `(bits >> 52) & 0x7ff`, `bits & 0xfffffffffffff | 0x3fe0000000000000` are the
same 64-bit operations; `sign * …` is the rounded product with `±1.0`. -/
def frexp (x : F64) : F64 × Int :=
  if x.eq 0.0 then (0.0, 0)
  else
    let bits := x.toBits
    let sign : F64 := if (bits >>> 63) ≠ 0#64 then -1.0 else 1.0
    let exponent : Int := (((bits >>> 52) &&& 0x7ff#64).toNat : Int) - 1023
    let mantissa := sign * ofBits ((bits &&& 0xfffffffffffff#64) ||| 0x3fe0000000000000#64)
    (mantissa, exponent + 1)

/-- src/utils.rs:67-97 `ldexp`, with the `i32` addition `exponent + exp` at line 81 subject to overflow (`exp` ranges over `i32`). -/
def ldexpM [Cfg] (x : F64) (exp : Int) : M F64 :=
  if x.eq 0.0 || exp = 0 then .ok x
  else do
    let bits := x.toBits
    let exponent : Int := (((bits >>> 52) &&& 0x7ff#64).toNat : Int)
    let newExponent ← wrapS I32_MAX (exponent + exp)
    if ¬ (0 ≤ newExponent ∧ newExponent ≤ 0x7ff) then
      pure (if (bits >>> 63) ≠ 0#64 then ninf else inf)
    else
      pure (ofBits ((bits &&& 0x800fffffffffffff#64) ||| (BitVec.ofNat 64 newExponent.toNat <<< 52)))

/-- src/utils.rs:67-97 `ldexp` where the `i32` addition cannot overflow (the calls in bessel.rs pass `-512`);
`ldexpM_eq` in `Verif.Proofs.Utils` relates it to `ldexpM`. -/
def ldexp (x : F64) (exp : Int) : F64 :=
  if x.eq 0.0 || exp = 0 then x
  else
    let bits := x.toBits
    let exponent : Int := (((bits >>> 52) &&& 0x7ff#64).toNat : Int)
    let newExponent := exponent + exp
    if ¬ (0 ≤ newExponent ∧ newExponent ≤ 0x7ff) then
      (if (bits >>> 63) ≠ 0#64 then ninf else inf)
    else
      ofBits ((bits &&& 0x800fffffffffffff#64) ||| (BitVec.ofNat 64 newExponent.toNat <<< 52))

end F64

/-- Rust's `f64`.  Constants from `core::f64::consts` are given by their bit patterns. -/
instance : Arith F64 where
  lt := F64.lt
  le := F64.le
  eq := F64.eq
  abs := F64.abs
  sqrt := F64.sqrt
  floor := F64.floor
  fract := F64.fract
  max := F64.max
  min := F64.min
  fma := F64.fma
  ofNat := F64.ofNat
  ofInt := F64.ofInt
  toU := F64.toUnsigned
  toS := F64.toSigned
  isNaN := F64.isNaN
  isInf := F64.isInf
  signPos := F64.isSignPos
  copysign := F64.copysign
  inf := F64.inf
  nan := F64.nan
  eps := ⟨false, 0x3cb0000000000000, by decide⟩
  minPos := ⟨false, 0x0010000000000000, by decide⟩
  pi := ⟨false, 0x400921fb54442d18, by decide⟩
  frac2Pi := ⟨false, 0x3fe45f306dc9c883, by decide⟩
  fracPi4 := ⟨false, 0x3fe921fb54442d18, by decide⟩
  frac2SqrtPi := ⟨false, 0x3ff20dd750429b6d, by decide⟩
  frac1Sqrt2 := ⟨false, 0x3fe6a09e667f3bcd, by decide⟩
  frexp := F64.frexp
  ldexp := F64.ldexp

variable {α : Type} [Add α] [Sub α] [Mul α] [Div α] [Neg α] [OfScientific α] [Arith α] [Libm α] [Cfg]

/-! ## constants, src/lib.rs:36-38 -/

/-- src/lib.rs:36 `EPS` -/
def EPS {α} [Arith α] : α := Arith.eps
/-- src/lib.rs:37 `FPMIN` -/
def FPMIN {α} [Arith α] [Div α] : α := Arith.minPos / EPS
/-- src/lib.rs:38 `INV_SQRT_PI` -/
def INV_SQRT_PI {α} [OfScientific α] : α := 0.5641895835477563

/-- `f64::clamp(0.0, 1.0)` -/
def clamp01 {α} [OfScientific α] [Arith α] (x : α) : α :=
  let x := if x <ᶠ 0.0 then 0.0 else x
  if 1.0 <ᶠ x then 1.0 else x

/-! ## src/utils.rs -/

/-- src/utils.rs:29 the block product `(k..k + l).fold(1f64, |acc, i| acc * (z + i as f64))` -/
def rfBlock (z : α) (k l : Nat) : α :=
  (List.range l).foldl (fun acc i => acc * (z + Arith.ofNat (k + i))) 1.0

/-- src/utils.rs:27-32 the `while k < n` loop of `rising_factorial`; `k += m` can overflow `usize`. -/
def rfLoop (z : α) (n m : Nat) : Nat → Nat → α → M α
  | 0, _, _ => .error .fuel
  | fuel+1, k, r =>
    if k < n then do
      let l := Nat.min m (n - k)
      let t := rfBlock z k l
      let k' ← wrapU USIZE_MAX (k + m)
      rfLoop z n m fuel k' (r * t)
    else .ok r

/-- src/utils.rs:22 block length `(n as f64).sqrt().floor().min(60f64) as usize` -/
def rfM (α : Type) [OfScientific α] [Arith α] (n : Nat) : Nat :=
  Arith.toU USIZE_MAX (Arith.min (Arith.floor (Arith.sqrt (Arith.ofNat n : α))) 60.0)

/-- src/utils.rs:21-34 `rising_factorial` (fuel `n+1`: one more than the number of blocks can be) -/
def risingFactorial (z : α) (n : Nat) : M α :=
  rfLoop z n (rfM α n) (n+1) 0 1.0

/-- src/utils.rs:14-16 `factorial` -/
def factorial (n : Nat) : M α := risingFactorial (1.0 : α) n

/-- src/utils.rs:101-107 `sign` -/
def sign (a b : α) : α := if Arith.signPos b then Arith.abs a else -(Arith.abs a)

/-- src/utils.rs:123-133 `mul_add` -/
def mulAdd (x mul add : α) : α := if Cfg.fma then Arith.fma x mul add else x * mul + add

/-- src/utils.rs:113-119 `polynomial` (Horner, leading coefficient first) -/
def polynomial (x : α) (coeffs : List α) : α :=
  coeffs.foldl (fun acc c => mulAdd acc x c) 0.0

end Verif
