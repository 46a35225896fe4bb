import Verif.Model.Utils
import Verif.Tables.Erfcx

/-!
# Model of /repo/src/error.rs
-/

namespace Verif
variable {α : Type} [Add α] [Sub α] [Mul α] [Div α] [Neg α] [OfScientific α] [Arith α] [Libm α] [Cfg]

/-- src/error.rs:283-312 `COF` -/
def COF : List α :=
  [-1.3026537197817094, 6.419697923564902e-1, 1.9476473204185836e-2, -9.56151478680863e-3,
   -9.46595344482036e-4, 3.66839497852761e-4, 4.2523324806907e-5, -2.0278578112534e-5,
   -1.624290004647e-6, 1.303655835580e-6, 1.5626441722e-8, -8.5238095915e-8,
   6.529054439e-9, 5.059343495e-9, -9.91364156e-10, -2.27365122e-10,
   9.6467911e-11, 2.394038e-12, -6.886027e-12, 8.94487e-13,
   3.13092e-13, -1.12708e-13, 3.81e-16, 7.106e-15,
   -1.523e-15, -9.4e-17, 1.21e-16, -2.8e-17]

/-- src/error.rs:326-330 one step of the Clenshaw loop of `erfccheb`, state `(d, dd)` -/
def clenshawStep (ty : α) (s : α × α) (c : α) : α × α := (ty * s.1 - s.2 + c, s.1)

/-- src/error.rs:326-330 `for j in (1..NCOEF - 1).rev()`: coefficients 26 down to 1 -/
def clenshaw (ty : α) (cs : List α) : α × α := cs.foldl (clenshawStep ty) (0.0, 0.0)

/-- the coefficients `COF[26], …, COF[1]` visited by the loop (`COF[27]` is never used) -/
def cofRev : List α := (((COF : List α).drop 1).take 26).reverse

/-- src/error.rs:319-332 `erfccheb` -/
def erfccheb (z : α) : M α :=
  if 0.0 ≤ᶠ z then
    let t := 2.0 / (2.0 + z)
    let ty := 4.0 * t - 2.0
    let s := clenshaw ty cofRev
    .ok (t * Libm.exp (-(z * z) + 0.5 * ((COF : List α).headD 0.0 + ty * s.1) - s.2))
  else .error .panic

/-- src/error.rs:27-33 `erf` -/
def erf (x : α) : M α :=
  if 0.0 ≤ᶠ x then (fun v => 1.0 - v) <$> erfccheb x
  else (fun v => v - 1.0) <$> erfccheb (-x)

/-- src/error.rs:48-54 `erfc` -/
def erfc (x : α) : M α :=
  if 0.0 ≤ᶠ x then erfccheb x
  else (fun v => 2.0 - v) <$> erfccheb (-x)

/-- src/error.rs:81-84 one Halley step of `inverfc` -/
def inverfcStep (pp x : α) : M α := do
  let v ← erfc x
  let err := v - pp
  pure (x + err / (Arith.frac2SqrtPi * Libm.exp (-(x * x)) - x * err))

/-- src/error.rs:77-85 `inverfc` before the final sign -/
def inverfcCore (pp : α) : M α := do
  let t := Arith.sqrt (-2.0 * Libm.ln (pp / 2.0))
  let x := -Arith.frac1Sqrt2 * ((2.30753 + t * 0.27061) / (1.0 + t * (0.99229 + t * 0.04481)) - t)
  let x ← inverfcStep pp x
  inverfcStep pp x

/-- src/error.rs:69-91 `inverfc` -/
def inverfc (p : α) : M α :=
  if 2.0 ≤ᶠ p then .ok (-100.0)
  else if p ≤ᶠ 0.0 then .ok 100.0
  else do
    let pp := if p <ᶠ 1.0 then p else 2.0 - p
    let x ← inverfcCore pp
    pure (if p <ᶠ 1.0 then x else -x)

/-- src/error.rs:105-107 `inverf` -/
def inverf (p : α) : M α := inverfc (1.0 - p)

/-! ## `erfcx` -/

/-- a table literal at `α` -/
def ofDec (d : Int × Nat) : α :=
  if d.1 < 0 then -(OfScientific.ofScientific d.1.natAbs true d.2) else OfScientific.ofScientific d.1.natAbs true d.2

/-- Indexing a table with an index computed in signed arithmetic and cast with `as usize`: a negative index becomes
huge; out of bounds panics. -/
def lookup {β : Type} (l : List β) (i : Int) : M β :=
  match (if 0 ≤ i then l[i.toNat]? else none) with
  | some v => .ok v
  | none => .error .panic

/-- src/error.rs:362-1259 `CHEBYSHEV_COEFFS_0` -/
def CHEB0 : List α := cheb0Rows.flatten.map ofDec
/-- src/error.rs:1261-4846 `CHEBYSHEV_COEFFS_1` -/
def CHEB1 : List α := cheb1Rows.flatten.map ofDec

/-- src/error.rs:130-151 the Horner evaluation of the degree-9 polynomial with the ten looked-up coefficients (leading first) -/
def horner10 (t c9 c8 c7 c6 c5 c4 c3 c2 c1 c0 : α) : α :=
  ((((((((c9 * t + c8) * t + c7) * t + c6) * t + c5) * t + c4) * t + c3) * t + c2) * t + c1) * t + c0

/-- src/error.rs:117-123: `(lij, t)`, the table row and the reduced coordinate -/
def chebIndex (x : α) : Int × α :=
  let loff : Int := (-2 + 1) * 64 + 0
  let (xm, je) := Arith.frexp x
  let ip := Arith.toS I32_MAX (128.0 * xm)
  let lij := je * 64 + ip - loff
  (lij, (256.0 * xm) - Arith.ofInt (1 + 2 * ip))

/-- src/error.rs:110-152 `cheb_interpolant`.  (`i32` arithmetic cannot overflow: `je` comes from an 11-bit field and
`ip` is at most 128.) -/
def chebInterpolant (x : α) : M α := do
  let (lij, t) := chebIndex x
  let p := lij * 8
  let q := lij * 2
  if ¬ (0 ≤ p ∧ 0 ≤ q) then throw .panic
  let c9 ← lookup CHEB1 (p + 7)
  let c8 ← lookup CHEB1 (p + 6)
  let c7 ← lookup CHEB1 (p + 5)
  let c6 ← lookup CHEB1 (p + 4)
  let c5 ← lookup CHEB1 (p + 3)
  let c4 ← lookup CHEB1 (p + 2)
  let c3 ← lookup CHEB1 (p + 1)
  let c2 ← lookup CHEB1 p
  let c1 ← lookup CHEB0 (q + 1)
  let c0 ← lookup CHEB0 q
  pure (horner10 t c9 c8 c7 c6 c5 c4 c3 c2 c1 c0)

/-- src/error.rs:182-210 Maclaurin series -/
def erfcxMaclaurin (x : α) : α :=
  (((((((((((((1.984126984126984e-4 * x - 5.344009079373427e-4)
    * x + 1.388888888888889e-3)
    * x - 3.4736059015927274e-3)
    * x + 8.333333333333333e-3)
    * x - 1.910483245876e-2)
    * x + 4.1666666666666664e-2)
    * x - 8.597174606442e-2)
    * x + 1.6666666666666666e-1)
    * x - 3.0090111122547003e-1)
    * x + 5e-1)
    * x - 7.522527780636751e-1)
    * x + 1.0)
    * x - Arith.frac2SqrtPi)
    * x + 1.0

/-- src/error.rs:236-256 asymptotic expansion, 12 < x < 23.2 -/
def erfcxAsy10 (r : α) : α :=
  ((((((((((3.607337150008376e5 * (r * r)
    - 3.7971970000088164e4) * (r * r)
    + 4.467290588245667e3) * (r * r)
    - 5.956387450994222e2) * (r * r)
    + 9.163673001529573e1) * (r * r)
    - 1.6661223639144676e1) * (r * r)
    + 3.7024941420321507) * (r * r)
    - 1.057855469152043) * (r * r)
    + 4.2314218766081724e-1) * (r * r)
    - 2.8209479177387814e-1) * (r * r)
    + 5.641895835477563e-1) * r

/-- src/error.rs:258-266 asymptotic expansion, 23.2 ≤ x < 150 -/
def erfcxAsy6 (r : α) : α :=
  ((((((9.163673001529573e1 * (r * r) - 1.6661223639144676e1) * (r * r)
    + 3.7024941420321507) * (r * r)
    - 1.057855469152043) * (r * r)
    + 4.2314218766081724e-1) * (r * r)
    - 2.8209479177387814e-1) * (r * r)
    + 5.641895835477563e-1) * r

/-- src/error.rs:269-273 asymptotic expansion, 150 ≤ x < 6.9e7 -/
def erfcxAsy3 (r : α) : α :=
  ((((-1.057855469152043) * (r * r) + 4.2314218766081724e-1) * (r * r)
    - 2.8209479177387814e-1) * (r * r)
    + 5.641895835477563e-1) * r

/-- src/error.rs:175-277 `erfcx` -/
def erfcx (x : α) : M α :=
  let ax := Arith.abs x
  if ax <ᶠ 0.125 then .ok (erfcxMaclaurin x)
  else if x <ᶠ 0.0 then
    if x <ᶠ -26.7 then .ok Arith.inf
    else if x <ᶠ -6.1 then .ok (2.0 * Libm.exp (x * x))
    else (fun v => 2.0 * Libm.exp (x * x) - v) <$> chebInterpolant (-x)
  else if x ≤ᶠ 12.0 then chebInterpolant x
  else
    let r := 1.0 / x
    if x <ᶠ 150.0 then
      if x <ᶠ 23.2 then .ok (erfcxAsy10 r) else .ok (erfcxAsy6 r)
    else if x <ᶠ 6.9e7 then .ok (erfcxAsy3 r)
    else .ok (INV_SQRT_PI / x)

end Verif
