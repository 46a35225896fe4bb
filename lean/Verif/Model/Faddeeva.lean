import Verif.Model.Dawson
import Verif.Model.Error
import Verif.Tables.Faddeeva

/-!
# Model of /repo/src/faddeeva.rs

`num_complex::Complex64` (external crate, version 0.4 as in Cargo.toml) is modelled by the structure `Cx` with the
operations of its source: textbook multiplication and the special cases of `exp`.
-/

namespace Verif
variable {α : Type} [Add α] [Sub α] [Mul α] [Div α] [Neg α] [OfScientific α] [Arith α] [Libm α] [Cfg]

/-- `num_complex::Complex<f64>` -/
structure Cx (α : Type) where
  re : α
  im : α

namespace Cx
/-- num_complex `impl Mul for Complex<T>` -/
def mul (a b : Cx α) : Cx α := ⟨a.re * b.re - a.im * b.im, a.re * b.im + a.im * b.re⟩
/-- num_complex `impl Add for Complex<T>` -/
def add (a b : Cx α) : Cx α := ⟨a.re + b.re, a.im + b.im⟩
/-- num_complex `impl Sub for Complex<T>` -/
def sub (a b : Cx α) : Cx α := ⟨a.re - b.re, a.im - b.im⟩
/-- num_complex `impl Add<T> for Complex<T>` -/
def addR (a : Cx α) (r : α) : Cx α := ⟨a.re + r, a.im⟩
/-- num_complex `impl Mul<Complex<f64>> for f64` -/
def rmul (r : α) (a : Cx α) : Cx α := ⟨r * a.re, r * a.im⟩
/-- `f64::is_finite` -/
def isFinite (x : α) : Bool := !(Arith.isInf x) && !(Arith.isNaN x)
/-- num_complex `Complex::exp` (with its treatment of infinities and NaN) -/
def exp (a : Cx α) : Cx α :=
  let polar : Cx α := ⟨Libm.exp a.re * Libm.cos a.im, Libm.exp a.re * Libm.sin a.im⟩
  if Arith.isInf a.re then
    if a.re <ᶠ 0.0 then
      if !isFinite a.im then ⟨0.0, 0.0⟩ else polar
    else if a.im ==ᶠ 0.0 || !isFinite a.im then
      ⟨a.re, if Arith.isInf a.im then Arith.nan else a.im⟩
    else polar
  else if Arith.isNaN a.re && a.im ==ᶠ 0.0 then a
  else polar
end Cx

/-- src/faddeeva.rs:279-281 `im_w_of_x` -/
def imWOfX (x : α) : M α := (fun d => 2.0 * d * INV_SQRT_PI) <$> dawson x

/-- src/faddeeva.rs:85-134 the Maclaurin polynomials: complex Horner evaluation `((c₀·z + c₁)·z + …)·z + 1.` -/
def cxHorner (z : Cx α) : Cx α → List (Cx α) → Cx α
  | r, [] => (r.mul z).addR 1.0
  | r, c :: cs => cxHorner z ((r.mul z).add c) cs

/-- src/faddeeva.rs:86-89, shared by the three polynomials -/
def macl4 : List (Cx α) :=
  [⟨0.0, -7.522527780636751e-1⟩, ⟨-1.0, 0.0⟩, ⟨0.0, Arith.frac2SqrtPi⟩]
/-- src/faddeeva.rs:97-108 -/
def macl13 : List (Cx α) :=
  [⟨1.388888888888889e-3, 0.0⟩, ⟨0.0, -3.4736059015927274e-3⟩, ⟨-8.333333333333333e-3, 0.0⟩,
   ⟨0.0, 1.910483245876e-2⟩, ⟨4.1666666666666664e-2, 0.0⟩, ⟨0.0, -8.597174606442e-2⟩,
   ⟨-1.6666666666666666e-1, 0.0⟩, ⟨0.0, 3.0090111122547003e-1⟩, ⟨5e-1, 0.0⟩] ++ macl4
/-- src/faddeeva.rs:116-133 -/
def macl19 : List (Cx α) :=
  [⟨-2.7557319223985893e-6, 0.0⟩, ⟨0.0, 8.38275934019361e-6⟩, ⟨2.48015873015873e-5, 0.0⟩,
   ⟨0.0, -7.125345439164569e-5⟩, ⟨-1.984126984126984e-4, 0.0⟩, ⟨0.0, 5.344009079373427e-4⟩] ++ macl13

/-- src/faddeeva.rs:82-137 the three Maclaurin polynomials -/
def faddeevaSmall (z : Cx α) (zz : α) : Cx α :=
  if zz <ᶠ 0.00689 then
    if zz <ᶠ 4e-7 then cxHorner z ⟨5e-1, 0.0⟩ macl4
    else cxHorner z ⟨0.0, 5.344009079373427e-4⟩ macl13
  else cxHorner z ⟨0.0, -8.823957200203801e-7⟩ macl19

/-- src/faddeeva.rs:172-213 `(((c·r2 + c₁)·r2 + …) + cₙ)·r` : first multiplication is real × complex, additions are of reals -/
def cxAsy (r2 r : Cx α) : Cx α → List α → Cx α
  | s, [] => s.mul r
  | s, [c] => (s.addR c).mul r
  | s, c :: cs => cxAsy r2 r ((s.addR c).mul r2) cs

/-- src/faddeeva.rs:173-175 -/
def asyTail3 : List α := [4.2314218766081724e-1, 2.8209479177387814e-1, 5.641895835477563e-1]
/-- src/faddeeva.rs:179-189 -/
def asyTail11 : List α :=
  [3.607337150008376e5, 3.7971970000088164e4, 4.467290588245667e3, 5.956387450994222e2, 9.163673001529573e1,
   1.6661223639144676e1, 3.7024941420321507, 1.057855469152043] ++ asyTail3
/-- src/faddeeva.rs:194-212 -/
def asyTail19 : List α :=
  [4.770230321244615e14, 2.7258458978540656e13, 1.652027816881252e12, 1.0658243979879044e11, 7.350513089571754e9,
   5.444824510793892e8, 4.355859608635114e7, 3.787704007508795e6] ++ asyTail11

/-- src/faddeeva.rs:165-214 the asymptotic expansions for `49 ≤ |z|² ≤ 4.8e15` -/
def faddeevaAsy (xs yabs zz : α) : Cx α :=
  let zm2 := 1.0 / zz
  let r : Cx α := ⟨yabs * zm2, xs * zm2⟩
  let zm4 := zm2 * zm2
  let r2 : Cx α := ⟨zm4 * (xs + yabs) * (xs - yabs), -2.0 * zm4 * xs * yabs⟩
  if 540.0 <ᶠ zz then
    if 22500.0 <ᶠ zz then cxAsy r2 r (Cx.rmul 1.057855469152043 r2) asyTail3
    else cxAsy r2 r (Cx.rmul 3.787704007508795e6 r2) asyTail11
  else cxAsy r2 r (Cx.rmul 8.824926094302537e15 r2) asyTail19

/-- src/faddeeva.rs:143-224 the branch `|z|² ≥ 49` -/
def faddeevaLarge (x y xabs yabs zz : α) : Cx α :=
  let xs := if y <ᶠ 0.0 then -x else x
  let fin := fun (res : Cx α) =>
    if y <ᶠ 0.0 then
      (Cx.rmul 2.0 (Cx.exp ⟨(yabs - xs) * (xs + yabs), 2.0 * xs * y⟩)).sub res
    else res
  if 4.8e15 <ᶠ zz then
    if yabs <ᶠ xabs then
      let yax := yabs / xs
      let denom := INV_SQRT_PI / (xs + yax * yabs)
      fin ⟨denom * yax, denom⟩
    else if Arith.isInf yabs then
      if Arith.isNaN xabs || y <ᶠ 0.0 then ⟨Arith.nan, Arith.nan⟩ else ⟨0.0, 0.0⟩
    else
      let xya := xs / yabs
      let denom := INV_SQRT_PI / (xya * xs + yabs)
      fin ⟨denom, denom * xya⟩
  else fin (faddeevaAsy xs yabs zz)

/-- src/faddeeva.rs:314-525 `TILES`, the flat array of 5000 `i8` -/
def TILES : List Int := tileRows.flatten.flatMap fun p => [p.1, p.2]
/-- src/faddeeva.rs:527- `TAYLOR_COEFFS`, the flat array of `2*24*63` values -/
def TAYLOR : List α := taylorRows.flatten.map ofDec

/-- src/faddeeva.rs:253-259 the Horner loop `for k in (1..nk).rev()`, `k` counting down to 1 -/
def taylorLoop (idx : Int) (dz : Cx α) : Nat → Cx α → M (Cx α)
  | 0, res => .ok res
  | k+1, res => do
    let cr ← lookup TAYLOR (idx + 2 * (k+1 : Nat))
    let ci ← lookup TAYLOR (idx + 2 * (k+1 : Nat) + 1)
    taylorLoop idx dz k ((res.mul dz).add ⟨cr, ci⟩)

/-- src/faddeeva.rs:237-238 `i_tile` (in `isize`; `|z|² < 49` here, so the products are small) -/
def iTile (xabs yabs : α) : Int :=
  2 * (Arith.toS ISIZE_MAX (7.0 * xabs) * 50 + Arith.toS ISIZE_MAX (7.0 * yabs))

/-- src/faddeeva.rs:237-259 Taylor expansion around a tile centre -/
def faddeevaTaylor (xabs yabs : α) : M (Cx α) := do
  let it := iTile xabs yabs
  let kp ← lookup TILES it
  if kp < 0 then throw .panic
  let idx := 48 * kp
  let t ← lookup TAYLOR idx
  let tNext ← lookup TAYLOR (idx + 1)
  let dz : Cx α := ⟨xabs - t, yabs - tNext⟩
  let nk ← lookup TILES (it + 1)
  let r ← lookup TAYLOR (idx + 2 * nk)
  let i ← lookup TAYLOR (idx + 2 * nk + 1)
  taylorLoop idx dz (nk - 1).toNat ⟨r, i⟩

/-- src/faddeeva.rs:261-272 undoing the reduction to the first quadrant -/
def faddeevaReflect (x y : α) (res : Cx α) : α × α :=
  if y <ᶠ 0.0 then
    let e := Cx.rmul 2.0 (Cx.exp ⟨(y - x) * (x + y), -2.0 * x * y⟩)
    if x <ᶠ 0.0 then
      let r := e.sub res
      (r.re, r.im)
    else
      let r := e.sub ⟨res.re, -res.im⟩
      (r.re, r.im)
  else if x <ᶠ 0.0 then (res.re, -res.im)
  else (res.re, res.im)

/-- src/faddeeva.rs:34-273 `faddeeva` -/
def faddeeva (re im : α) : M (α × α) :=
  let z : Cx α := ⟨re, im⟩
  let x := re
  let xabs := Arith.abs re
  let y := im
  let yabs := Arith.abs im
  let zz := xabs * xabs + y * y
  if yabs <ᶠ 1e-8 * xabs then do
    let wi ← imWOfX x
    let e2 : α := if 27.0 <ᶠ xabs then 0.0 else Libm.exp (-xabs * xabs)
    if yabs ==ᶠ 0.0 then pure (e2, wi)
    else pure (e2 + y * 2.0 * (x * wi - INV_SQRT_PI), wi - 2.0 * x * y * e2)
  else if xabs <ᶠ 1e-8 * yabs then do
    let wr ← erfcx y
    if xabs ==ᶠ 0.0 then pure (wr, 0.0)
    else pure (wr, x * (2.0 * (INV_SQRT_PI - y * wr)))
  else if zz <ᶠ 0.053 then
    let r := faddeevaSmall z zz
    .ok (r.re, r.im)
  else if 49.0 ≤ᶠ zz then
    let r := faddeevaLarge x y xabs yabs zz
    .ok (r.re, r.im)
  else if Arith.isNaN xabs then .ok (xabs, xabs)
  else if Arith.isNaN y then .ok (y, y)
  else do
    let res ← faddeevaTaylor xabs yabs
    pure (faddeevaReflect x y res)

end Verif
