import Verif.Model.Utils

/-!
# Model of /repo/src/gamma.rs
-/

namespace Verif
variable {α : Type} [Add α] [Sub α] [Mul α] [Div α] [Neg α] [OfScientific α] [Arith α] [Libm α] [Cfg]

/-- src/lib.rs:40-59 quadrature abscissae `Y` -/
def quadY : List α :=
  [0.0021695375159141994, 0.011413521097787704, 0.027972308950302116, 0.05172701560049242,
   0.08250222548434094, 0.12007019910960293, 0.1641528330075247, 0.21442376986779355,
   0.27051082840644336, 0.33199876341447887, 0.39843234186401943, 0.46931971407375483,
   0.5441360555665797, 0.6223274528803108, 0.7033150046559717, 0.7864991076831345,
   0.8712638961906152, 0.9569818015262914]

/-- src/lib.rs:60-79 quadrature weights `W` -/
def quadW : List α :=
  [0.005565719664244557, 0.01291594728406542, 0.020181515297735382, 0.027298621498568734,
   0.03421381077029954, 0.04087575092364326, 0.04723508349026558, 0.05324471397775969,
   0.0588601442453248, 0.06403979735501548, 0.06874532383573641, 0.07294188500565309,
   0.07659841064587064, 0.07968782891207167, 0.0821872667043397, 0.08407821897966195,
   0.08534668573933872, 0.08598327567039482]

/-- src/gamma.rs:503-511 `LG5N7` without its first entry, and -/
def lg5n7Tail : List α :=
  [76.18009172948503, -86.50532032927205, 24.01409824118972, -1.2317395783752254,
   0.0012086577526594748, -0.00000539702438713199]
/-- its first entry -/
def lg5n7Head : α := 1.000000000189712

/-- src/gamma.rs:36-39 the Lanczos sum (`skip(1)`: index `i` starts at 1) -/
def lanczosSum (z : α) : α :=
  (List.zip (List.range 6) lg5n7Tail).foldl (fun s ic => s + ic.2 / (z + Arith.ofNat (ic.1 + 1))) 0.0

/-- src/gamma.rs:33-42 `ln_gamma` -/
def lnGamma (z : α) : α :=
  let z := z - 1.0
  let base := z + 5.0 + 0.5
  let s := lanczosSum z + lg5n7Head
  Libm.ln (Arith.sqrt (2.0 * Arith.pi)) + Libm.ln s - base + Libm.ln base * (z + 0.5)

/-! ## `gamma` -/

/-- src/gamma.rs:61 -/
def GAMMA_MAX_INPUT : α := 171.6243769563027

/-- src/gamma.rs:99-105 `while z >= 3.5 { z -= 1.0; f *= z }`, returning `(z, f)` -/
def gammaDown : Nat → α → α → M (α × α)
  | 0, _, _ => .error .fuel
  | fuel+1, z, f =>
    if 3.5 ≤ᶠ z then
      let z := z - 1.0
      gammaDown fuel z (f * z)
    else .ok (z, f)

/-- src/gamma.rs:108-122 `while z <= 2.5 { f *= z; if f.is_infinite() { return 0.0 } z += 1.0 }`; `none` is the early return -/
def gammaUp : Nat → α → α → M (Option (α × α))
  | 0, _, _ => .error .fuel
  | fuel+1, z, f =>
    if z ≤ᶠ 2.5 then
      let f := f * z
      if Arith.isInf f then .ok none
      else gammaUp fuel (z + 1.0) f
    else .ok (some (z, f))

/-- src/gamma.rs:129-145 coefficients for `3 < z` -/
def gammaPolyHi : List α :=
  [0.000016738398919923317, 0.00009594018409379352, 0.00045576674678513316, 0.002149849572114427,
   0.008882603286354344, 0.03435019819741738, 0.11526048279921955, 0.3462685533605687,
   0.8588538228806464, 1.7769198047099783, 2.5925711651299808, 2.549256966718529]

/-- src/gamma.rs:146-162 coefficients for `z < 3` -/
def gammaPolyLo : List α :=
  [7.377657774398435e-7, 0.000048420884483658204, 0.00013276357775573943, 0.0009142528632013879,
   0.003228437222320849, 0.01457680369337953, 0.04673516042481417, 0.15595585685363436,
   0.38477912014818527, 0.8911679480264766, 1.3170871791928587, 1.6083594219855455]

/-- src/gamma.rs:127-165 the core approximation `g` on `[2.5, 3.5]` -/
def gammaCore (z : α) : α :=
  if 3.0 <ᶠ z then polynomial (z - 3.25) gammaPolyHi
  else if z <ᶠ 3.0 then polynomial (z - 2.75) gammaPolyLo
  else 2.0

/-- loop budget of `gamma`; `gamma_terminates` shows that it is never exhausted -/
abbrev gammaFuel : Nat := 250

/-- src/gamma.rs:58-166 `gamma` -/
def gamma (z : α) : M α :=
  if GAMMA_MAX_INPUT <ᶠ z then .ok Arith.inf
  else if z ==ᶠ 0.0 then .ok (Arith.copysign Arith.inf z)
  else if Arith.fract z ==ᶠ 0.0 then
    if z <ᶠ 0.0 then .ok Arith.nan
    else do
      -- `z as usize - 1`
      let k := Arith.toU USIZE_MAX z
      let k' ← if k = 0 then (if Cfg.checks then .error .panic else .ok USIZE_MAX) else .ok (k - 1)
      factorial k'
  else if z ==ᶠ -Arith.inf then .ok Arith.nan
  else if Arith.isNaN z then .ok Arith.nan
  else if 3.5 <ᶠ z then do
    let (z, f) ← gammaDown gammaFuel z 1.0
    pure (gammaCore z * f)
  else if z <ᶠ 2.5 then do
    match ← gammaUp gammaFuel z 1.0 with
    | none => pure 0.0
    | some (z, f) => pure (gammaCore z * (1.0 / f))
  else pure (gammaCore z * 1.0)

/-! ## incomplete gamma -/

/-- src/gamma.rs:285-293 the loop of `gser`, `(ap, del, sum)`; returns the final `sum` -/
def gserLoop (x : α) : Nat → α → α → α → α
  | 0, _, _, sum => sum
  | n+1, ap, del, sum =>
    let ap := ap + 1.0
    let del := del * (x / ap)
    let sum := sum + del
    if Arith.abs del <ᶠ Arith.abs sum * EPS then sum else gserLoop x n ap del sum

/-- src/gamma.rs:285-318 `gser`.  The code after `break` (lines 295-305) and after the loop (310-317) is the same. -/
def gser (a x : α) : α :=
  let gln := lnGamma a
  let sum := gserLoop x 10000 a (1.0 / a) (1.0 / a)
  let logResult := -x + a * Libm.ln x - gln
  if 700.0 <ᶠ logResult then sum * Arith.inf
  else if logResult <ᶠ -700.0 then 0.0
  else sum * Libm.exp logResult

/-- src/gamma.rs:334-336, 339-341 etc.: replace a tiny denominator by `FPMIN` -/
def guardTiny (d : α) : α := if Arith.abs d <ᶠ FPMIN then FPMIN else d

/-- src/gamma.rs:329-346 the loop of `gcf`, counter `i`, state `(b, c, d, h)`; returns `h` -/
def gcfLoop (a : α) : Nat → Nat → α → α → α → α → α
  | 0, _, _, _, _, h => h
  | n+1, i, b, c, d, h =>
    let an := -(Arith.ofNat i) * (Arith.ofNat i - a)
    let b := b + 2.0
    let d := guardTiny (an * d + b)
    let c := guardTiny (b + an / c)
    let d := 1.0 / d
    let del := d * c
    let h := h * del
    if Arith.abs (del - 1.0) <ᶠ EPS then h else gcfLoop a n (i+1) b c d h

/-- src/gamma.rs:321-359 `gcf` -/
def gcf (a x : α) : α :=
  let gln := lnGamma a
  let b := x + 1.0 - a
  let c := 1.0 / FPMIN
  let d := 1.0 / b
  let h := gcfLoop a 10000 1 b c d d
  let logResult := -x + a * Libm.ln x - gln
  if 700.0 <ᶠ logResult then h * Arith.inf
  else if logResult <ᶠ -700.0 then 0.0
  else Libm.exp logResult * h

/-- src/gamma.rs:376-380 the far end `xu` of the quadrature interval -/
def gammpXu (a1 x sqrta1 : α) : α :=
  if a1 <ᶠ x then Arith.max (a1 + 11.5 * sqrta1) (x + 6.0 * sqrta1)
  else Arith.max 0.0 (Arith.min (a1 - 7.5 * sqrta1) (x - 5.0 * sqrta1))

/-- src/gamma.rs:369-412 `gammpapprox` up to `ans` -/
def gammpapproxAns (a x : α) : α :=
  let a1 := a - 1.0
  let lna1 := Libm.ln a1
  let sqrta1 := Arith.sqrt a1
  let gln := lnGamma a
  let xu := gammpXu a1 x sqrta1
  let logValues : List α := (List.zip quadY quadW).map fun yw =>
    let t := x + (xu - x) * yw.1
    Libm.ln yw.2 + (-(t - a1) + a1 * (Libm.ln t - lna1))
  let logMax := logValues.foldl Arith.max (-Arith.inf)
  let sum := logValues.foldl
    (fun sum lv => if -700.0 <ᶠ lv - logMax then sum + Libm.exp (lv - logMax) else sum) 0.0
  let logScale := a1 * (lna1 - 1.0) - gln
  let logAns := logMax + Libm.ln sum + Libm.ln (xu - x) + logScale
  if 700.0 <ᶠ logAns then Arith.inf
  else if logAns <ᶠ -700.0 then 0.0
  else Libm.exp logAns

/-- src/gamma.rs:414-420 `gammpapprox`, `IncGamma::P` -/
def gammpapproxP (a x : α) : α := clamp01 (1.0 - gammpapproxAns a x)
/-- src/gamma.rs:414-420 `gammpapprox`, `IncGamma::Q` -/
def gammpapproxQ (a x : α) : α := clamp01 (gammpapproxAns a x)

/-- src/gamma.rs:189-224 `gammp` -/
def gammp (a x : α) : M α :=
  if 0.0 ≤ᶠ x && 0.0 <ᶠ a then
    if x ==ᶠ 0.0 then .ok 0.0
    else if x <ᶠ a * EPS then .ok 0.0
    else if a + 20.0 * (Arith.sqrt a + 1.0) <ᶠ x then .ok 1.0
    else if 100 ≤ Arith.toU USIZE_MAX a then
      if x <ᶠ 0.2 * a then .ok (gser a x) else .ok (gammpapproxP a x)
    else if x <ᶠ a + 1.0 then .ok (gser a x)
    else .ok (clamp01 (1.0 - gcf a x))
  else .error .panic

/-- src/gamma.rs:246-282 `gammq` -/
def gammq (a x : α) : M α :=
  if 0.0 ≤ᶠ x && 0.0 <ᶠ a then
    if x ==ᶠ 0.0 then .ok 1.0
    else if x <ᶠ a * EPS then .ok 1.0
    else if a + 20.0 * (Arith.sqrt a + 1.0) <ᶠ x then .ok 0.0
    else if 100 ≤ Arith.toU USIZE_MAX a then
      if x <ᶠ 0.2 * a then .ok (clamp01 (1.0 - gser a x)) else .ok (gammpapproxQ a x)
    else if x <ᶠ a + 1.0 then .ok (clamp01 (1.0 - gser a x))
    else .ok (gcf a x)
  else .error .panic

/-! ## `invgammp` -/

/-- src/gamma.rs:454-474 initial guess; `afac` is computed in the first branch only (0 otherwise) -/
def invgammpGuess (p a a1 lna1 gln : α) : α × α :=
  if 1.0 <ᶠ a then
    let afac := Libm.exp (a1 * (lna1 - 1.0) - gln)
    let pp := if p <ᶠ 0.5 then p else 1.0 - p
    let t := Arith.sqrt (-2.0 * Libm.ln pp)
    let x := (2.30753 + t * 0.27061) / (1.0 + t * (0.99229 + t * 0.04481)) - t
    let x := if p <ᶠ 0.5 then -x else x
    let w := 1.0 - 1.0 / (9.0 * a) - x / (3.0 * Arith.sqrt a)
    (Arith.max 1e-3 (a * (w * w * w)), afac)
  else
    let t := 1.0 - a * (0.253 + a * 0.12)
    if p <ᶠ t then (Libm.powf (p / t) (1.0 / a), 0.0)
    else (1.0 - Libm.ln (1.0 - (p - t) / (1.0 - t)), 0.0)

/-- src/gamma.rs:476-496 the Halley iteration -/
def invgammpLoop (p a a1 lna1 gln afac : α) : Nat → α → M α
  | 0, x => .ok x
  | n+1, x =>
    if x ≤ᶠ 0.0 then .ok 0.0
    else do
      let g ← gammp a x
      let err := g - p
      let t := if 1.0 <ᶠ a then afac * Libm.exp (-(x - a1) + a1 * (Libm.ln x - lna1))
        else Libm.exp (-x + a1 * Libm.ln x - gln)
      let u := err / t
      let t := u / (1.0 - 0.5 * Arith.min 1.0 (u * (a1 / x - 1.0)))
      let x := x - t
      let x := if x ≤ᶠ 0.0 then 0.5 * (x + t) else x
      if Arith.abs t <ᶠ Arith.max (x * EPS) EPS then .ok x
      else invgammpLoop p a a1 lna1 gln afac n x

/-- src/gamma.rs:440-497 `invgammp`.  `ln_gamma(a)` etc. are computed before the assertion but have no effect. -/
def invgammp (p a : α) : M α :=
  let gln := lnGamma a
  let a1 := a - 1.0
  let lna1 := Libm.ln a1
  if 0.0 <ᶠ a then
    if 1.0 ≤ᶠ p then .ok (Arith.max 100.0 (a + 100.0 * Arith.sqrt a))
    else if p ≤ᶠ 0.0 then .ok 0.0
    else
      let g := invgammpGuess p a a1 lna1 gln
      invgammpLoop p a a1 lna1 gln g.2 12 g.1
  else .error .panic

end Verif
