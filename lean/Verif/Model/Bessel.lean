import Verif.Model.Utils
import Verif.Tables.Bessel

/-!
# Model of /repo/src/bessel.rs (numerical part; the caches are in `Verif.Model.Cache`)
-/

namespace Verif
variable {α : Type} [Add α] [Sub α] [Mul α] [Div α] [Neg α] [OfScientific α] [Arith α] [Libm α] [Cfg]

/-! ## building blocks -/

/-- src/bessel.rs:893-898, 914-923 Horner evaluation `c₀ + t·(c₁ + t·(…))`, from the last coefficient down -/
def hornerL (t : α) : List α → α
  | [] => 0.0
  | [c] => c
  | c :: cs => c + t * hornerL t cs

/-- src/bessel.rs:982-988 `poly` : the same polynomial, written `ans * x + coef[i]`.  The argument `n` of the Rust function always is
`coef.len() - 1` (checked by `bessel_table_lengths`), so the whole list is used. -/
def poly (x : α) : List α → α
  | [] => 0.0
  | [c] => c
  | c :: cs => poly x cs * x + c

/-- src/bessel.rs:890-900 `rat` (`n + 1` = number of coefficients in every call) -/
def rat (x : α) (r s : List α) : α × α × α :=
  let y := x * x
  let z := 64.0 - y
  (y, hornerL z r, hornerL y s)

/-- src/bessel.rs:1075 -/
def XJ00 : α := 5.783185962946785
/-- src/bessel.rs:1076 -/
def XJ10 : α := 3.047126234366209e1
/-- src/bessel.rs:1077 -/
def XJ01 : α := 1.468197064212389e1
/-- src/bessel.rs:1078 -/
def XJ11 : α := 4.92184563216946e1
/-- src/bessel.rs:1079 -/
def TWOOPI : α := Arith.frac2Pi
/-- src/bessel.rs:1080 -/
def PIO4 : α := Arith.fracPi4

/-- result of `asp` -/
structure Asp (α : Type) where
  z : α
  xx : α
  nump : α
  denp : α
  numq : α
  denq : α

/-- src/bessel.rs:903-925 `asp` -/
def asp (ax : α) (pn pd qn qd : List α) (fac : α) : Asp α :=
  let z := 8.0 / ax
  let y := z * z
  ⟨z, ax - fac * PIO4, hornerL y pn, hornerL y pd, hornerL y qn, hornerL y qd⟩

/-- src/bessel.rs:928-937 `j0` -/
def j0 (x : α) : α :=
  let ax := Arith.abs x
  if ax <ᶠ 8.0 then
    let r := rat x J0R J0S
    r.2.1 * (r.1 - XJ00) * (r.1 - XJ10) / r.2.2
  else
    let r := asp ax J0PN J0PD J0QN J0QD 1.0
    Arith.sqrt (TWOOPI / ax) * (Libm.cos r.xx * r.nump / r.denp - r.z * Libm.sin r.xx * r.numq / r.denq)

/-- src/bessel.rs:940-954 `j1` -/
def j1 (x : α) : α :=
  let ax := Arith.abs x
  if ax <ᶠ 8.0 then
    let r := rat x J1R J1S
    x * r.2.1 * (r.1 - XJ01) * (r.1 - XJ11) / r.2.2
  else
    let r := asp ax J1PN J1PD J1QN J1QD 3.0
    let ans := Arith.sqrt (TWOOPI / ax) * (Libm.cos r.xx * r.nump / r.denp - r.z * Libm.sin r.xx * r.numq / r.denq)
    if x <ᶠ 0.0 then -ans else ans

/-- src/bessel.rs:957-967 `y0` -/
def y0 (x : α) : α :=
  if x <ᶠ 8.0 then
    let j0x := j0 x
    let r := rat x Y0R Y0S
    r.2.1 / r.2.2 + TWOOPI * j0x * Libm.ln x
  else
    let r := asp x Y0PN Y0PD Y0QN Y0QD 1.0
    Arith.sqrt (TWOOPI / x) * (Libm.sin r.xx * r.nump / r.denp + r.z * Libm.cos r.xx * r.numq / r.denq)

/-- src/bessel.rs:970-980 `y1` -/
def y1 (x : α) : α :=
  if x <ᶠ 8.0 then
    let j1x := j1 x
    let r := rat x Y1R Y1S
    x * r.2.1 / r.2.2 + TWOOPI * (j1x * Libm.ln x - 1.0 / x)
  else
    let r := asp x Y1PN Y1PD Y1QN Y1QD 3.0
    Arith.sqrt (TWOOPI / x) * (Libm.sin r.xx * r.nump / r.denp + r.z * Libm.cos r.xx * r.numq / r.denq)

/-- src/bessel.rs:991-1000 `i0` -/
def i0 (x : α) : α :=
  let ax := Arith.abs x
  if ax <ᶠ 15.0 then
    let y := x * x
    poly y I0P / poly (225.0 - y) I0Q
  else
    let z := 1.0 - 15.0 / ax
    Libm.exp ax * poly z I0PP / (Arith.sqrt ax * poly z I0QQ)

/-- src/bessel.rs:1003-1017 `i1`; note `x.exp()` (not `ax.exp()`) on line 1010 -/
def i1 (x : α) : α :=
  let ax := Arith.abs x
  if ax <ᶠ 15.0 then
    let y := x * x
    x * poly y I1P / poly (225.0 - y) I1Q
  else
    let z := 1.0 - 15.0 / ax
    let ans := Libm.exp x * poly z I1PP / (Arith.sqrt ax * poly z I1QQ)
    if x <ᶠ 0.0 then -ans else ans

/-- src/bessel.rs:1020-1029 `k0` -/
def k0 (x : α) : α :=
  if x ≤ᶠ 1.0 then
    let z := x * x
    let term := poly z K0PI * Libm.ln x / poly (1.0 - z) K0QI
    poly z K0P / poly (1.0 - z) K0Q - term
  else
    let z := 1.0 / x
    Libm.exp (-x) * poly z K0PP / (Arith.sqrt x * poly z K0QQ)

/-- src/bessel.rs:1032-1041 `k1` -/
def k1 (x : α) : α :=
  if x ≤ᶠ 1.0 then
    let z := x * x
    let term := poly z K1PI * Libm.ln x / poly (1.0 - z) K1QI
    x * (poly z K1P / poly (1.0 - z) K1Q + term) + 1.0 / x
  else
    let z := 1.0 / x
    Libm.exp (-x) * poly z K1PP / (Arith.sqrt x * poly z K1QQ)

/-- src/bessel.rs:1046-1050 the Clenshaw loop of `chebev` over `c[m-1], …, c[1]`; state `(d, dd)` -/
def chebevLoop (x : α) (cs : List α) : α × α :=
  cs.foldl (fun s c => (2.0 * x * s.1 - s.2 + c, s.1)) (0.0, 0.0)

/-- src/bessel.rs:1043-1052 `chebev` (`m` = number of coefficients in every call) -/
def chebev (x : α) (c : List α) : α :=
  let s := chebevLoop x c.tail.reverse
  x * s.1 - s.2 + 0.5 * c.headD 0.0

/-! ## integer order -/

/-- src/bessel.rs:47-51, 116-120: `k` steps of the upward recurrence `b₊ = j·tox·b - b₋`; returns `(b₋, b)` -/
def upMinus (tox bm b : α) : Nat → α × α
  | 0 => (bm, b)
  | k+1 =>
    let s := upMinus tox bm b k
    (s.2, Arith.ofNat (k+1) * tox * s.2 - s.1)

/-- src/bessel.rs:206-210: `k` steps of `b₊ = j·tox·b + b₋` -/
def upPlus (tox bm b : α) : Nat → α × α
  | 0 => (bm, b)
  | k+1 =>
    let s := upPlus tox bm b k
    (s.2, Arith.ofNat (k+1) * tox * s.2 + s.1)

/-- loop state of the downward recurrence of `Jn` -/
structure JState (α : Type) where
  ans : α
  bj : α
  bjp : α
  sum : α
  jsum : Bool

/-- `f64::MAX_EXP / 2` -/
abbrev IEXP : Int := 512

/-- src/bessel.rs:61-77 one iteration of the downward recurrence of `Jn` -/
def jnStep (tox : α) (n j : Nat) (s : JState α) : JState α :=
  let bjm := Arith.ofNat j * tox * s.bj - s.bjp
  let bjp := s.bj
  let bj := bjm
  let big : Bool := decide (IEXP < (Arith.frexp bj).2)
  let sc := fun (v : α) => if big then Arith.ldexp v (-IEXP) else v
  let bj := sc bj
  let bjp := sc bjp
  let ans := sc s.ans
  let sum := sc s.sum
  let sum := if s.jsum then sum + bj else sum
  ⟨if j = n then bjp else ans, bj, bjp, sum, !s.jsum⟩

/-- src/bessel.rs:60-78 `for j in (1..=m).rev()` -/
def jnDown (tox : α) (n : Nat) : Nat → JState α → JState α
  | 0, s => s
  | j+1, s => jnDown tox n j (jnStep tox n (j+1) s)

/-- src/bessel.rs:55 the starting order `m`, with the `u32` addition -/
def jnStart (α : Type) [Mul α] [OfScientific α] [Arith α] (n : Nat) : M Nat := do
  let s ← wrapU U32_MAX (n + Arith.toU U32_MAX (Arith.sqrt (160.0 * (Arith.ofNat n : α))))
  pure (2 * (s / 2))

/-- src/bessel.rs:29-88 `Jn` (`n` ranges over `u32`) -/
def Jn (n : Nat) (x : α) : M α :=
  if n = 0 then .ok (j0 x)
  else if n = 1 then .ok (j1 x)
  else if x * x ≤ᶠ 8.0 * Arith.minPos then .ok 0.0
  else do
    let ax := Arith.abs x
    let tox := 2.0 / ax
    let ans ←
      if Arith.ofNat n <ᶠ ax then
        pure (upMinus tox (j0 ax) (j1 ax) (n - 1)).2
      else do
        let m ← jnStart α n
        let s := jnDown tox n m ⟨0.0, 1.0, 0.0, 0.0, false⟩
        pure (s.ans / (2.0 * s.sum - s.bj))
    pure (if x <ᶠ 0.0 && decide (n % 2 = 1) then -ans else ans)

/-- src/bessel.rs:107-123 `Yn` -/
def Yn (n : Nat) (x : α) : α :=
  if n = 0 then y0 x
  else if n = 1 then y1 x
  else (upMinus (2.0 / x) (y0 x) (y1 x) (n - 1)).2

/-- loop state of the downward recurrence of `In` -/
structure IState (α : Type) where
  ans : α
  bi : α
  bip : α

/-- src/bessel.rs:158-169 one iteration of the downward recurrence of `In` -/
def inStep (tox : α) (n j : Nat) (s : IState α) : IState α :=
  let bim := Arith.ofNat j * tox * s.bi + s.bip
  let bip := s.bi
  let bi := bim
  let big : Bool := decide (IEXP < (Arith.frexp bi).2)
  let sc := fun (v : α) => if big then Arith.ldexp v (-IEXP) else v
  let bi := sc bi
  let bip := sc bip
  let ans := sc s.ans
  ⟨if j = n then bip else ans, bi, bip⟩

/-- src/bessel.rs:157-170 the downward loop -/
def inDown (tox : α) (n : Nat) : Nat → IState α → IState α
  | 0, s => s
  | j+1, s => inDown tox n j (inStep tox n (j+1) s)

/-- src/bessel.rs:157 `2 * (n + (acc * n_f64).sqrt() as u32)`, with the `u32` operations -/
def inStart (α : Type) [Mul α] [OfScientific α] [Arith α] (n : Nat) : M Nat := do
  let s ← wrapU U32_MAX (n + Arith.toU U32_MAX (Arith.sqrt (200.0 * (Arith.ofNat n : α))))
  wrapU U32_MAX (2 * s)

/-- src/bessel.rs:142-178 `In` -/
def In (n : Nat) (x : α) : M α :=
  if n = 0 then .ok (i0 x)
  else if n = 1 then .ok (i1 x)
  else if x * x ≤ᶠ 8.0 * Arith.minPos then .ok 0.0
  else do
    let tox := 2.0 / Arith.abs x
    let m ← inStart α n
    let s := inDown tox n (m - 1) ⟨0.0, 1.0, 0.0⟩
    let ans := s.ans * (i0 x / s.bi)
    pure (if x <ᶠ 0.0 && decide (n % 2 = 1) then -ans else ans)

/-- src/bessel.rs:197-213 `Kn` -/
def Kn (n : Nat) (x : α) : α :=
  if n = 0 then k0 x
  else if n = 1 then k1 x
  else (upPlus (2.0 / x) (k0 x) (k1 x) (n - 1)).2

/-! ## fractional order -/

/-- the loop bound `MAXIT`, src/bessel.rs:234, 579 -/
def MAXIT : Nat := 10000

/-- result tuple of `besseljy` / `besselik` -/
abbrev Quad (α : Type) := α × α × α × α

/-- src/bessel.rs:262-285 first continued fraction of `besseljy`: `MAXIT - i` iterations left; returns `(h, isign)`.
Running out of iterations is the panic of line 284. -/
def jyCF1 (xi2 : α) : Nat → α → α → α → α → Int → M (α × Int)
  | 0, _, _, _, _, _ => .error .panic
  | k+1, b, d, c, h, isign =>
    let b := b + xi2
    let d := guardTiny' (b - d)
    let c := guardTiny' (b - 1.0 / c)
    let d := 1.0 / d
    let del := c * d
    let h := h * del
    let isign := if d <ᶠ 0.0 then -isign else isign
    if Arith.abs (del - 1.0) ≤ᶠ EPS then .ok (h, isign)
    else jyCF1 xi2 k b d c h isign
where
  /-- src/bessel.rs:265-267, 269-271 -/
  guardTiny' (d : α) : α := if Arith.abs d <ᶠ FPMIN then FPMIN else d

/-- src/bessel.rs:297-302 `nl` downward steps; state `(rjl, rjpl, fact)` -/
def jyDown (xi : α) : Nat → α × α × α → α × α × α
  | 0, s => s
  | k+1, (rjl, rjpl, fact) =>
    let rjtemp := fact * rjl + rjpl
    let fact := fact - xi
    jyDown xi k (rjtemp, fact * rjtemp - rjl, fact)

/-- src/bessel.rs:339-356 the Temme series of `besseljy`; returns `(sum, sum1)` -/
def jyTemme (xmu xmu2 r d : α) : Nat → Nat → α → α → α → α → α → α → M (α × α)
  | 0, _, _, _, _, _, _, _ => .error .panic
  | k+1, i, ff, c, p, q, sum, sum1 =>
    let i' : α := Arith.ofNat i
    let ff := (i' * ff + p + q) / (i' * i' - xmu2)
    let c := c * (d / i')
    let p := p / (i' - xmu)
    let q := q / (i' + xmu)
    let del := c * (ff + r * q)
    let sum := sum + del
    let del1 := c * p - i' * del
    let sum1 := sum1 + del1
    if Arith.abs del <ᶠ (1.0 + Arith.abs sum) * EPS then .ok (sum, sum1)
    else jyTemme xmu xmu2 r d k (i+1) ff c p q sum sum1

/-- quantities shared by the two Temme series, src/bessel.rs:308-322 / 631-645 -/
structure TemmeInit (α : Type) where
  pimu : α
  fact : α
  d : α
  e : α
  fact2 : α
  gam1 : α
  gam2 : α
  gampl : α
  gammi : α

/-- src/bessel.rs:308-322 / 631-645 -/
def temmeInit (x xmu : α) : TemmeInit α :=
  let x2 := 0.5 * x
  let pimu := Arith.pi * xmu
  let fact := if Arith.abs pimu <ᶠ EPS then 1.0 else pimu / Libm.sin pimu
  let d := -(Libm.ln x2)
  let e := xmu * d
  let fact2 := if Arith.abs e <ᶠ EPS then 1.0 else Libm.sinh e / e
  let xx := 8.0 * (xmu * xmu) - 1.0
  let gam1 := chebev xx C1
  let gam2 := chebev xx C2
  ⟨pimu, fact, d, e, fact2, gam1, gam2, gam2 - xmu * gam1, gam2 + xmu * gam1⟩

/-- src/bessel.rs:308-360 the branch `x < XMIN`; returns `(rjmu, rymu, ry1)` -/
def jySmall (x xmu xmu2 xi xi2 w f : α) : M (α × α × α) := do
  let t := temmeInit x xmu
  let ff := TWOOPI * t.fact * (t.gam1 * Libm.cosh t.e + t.gam2 * t.fact2 * t.d)
  let e := Libm.exp t.e
  let p := e / (t.gampl * Arith.pi)
  let q := 1.0 / (e * Arith.pi * t.gammi)
  let pimu2 := 0.5 * t.pimu
  let fact3 := if Arith.abs pimu2 <ᶠ EPS then 1.0 else Libm.sin pimu2 / pimu2
  let r := Arith.pi * pimu2 * fact3 * fact3
  let x2 := 0.5 * x
  let d := -(x2 * x2)
  let (sum, sum1) ← jyTemme xmu xmu2 r d MAXIT 1 ff 1.0 p q (ff + r * q) p
  let rymu := -sum
  let ry1 := -sum1 * xi2
  let rymup := xmu * xi * rymu - ry1
  pure (w / (rymup - f * rymu), rymu, ry1)

/-- src/bessel.rs:379-409 second continued fraction (complex); returns `(p, q)` -/
def jyCF2 (br : α) : Nat → Nat → α → α → α → α → α → α → α → α → M (α × α)
  | 0, _, _, _, _, _, _, _, _, _ => .error .panic
  | k+1, i, a, bi, cr, ci, dr, di, p, q =>
    let i' : α := Arith.ofNat i
    let a := a + 2.0 * i'
    let bi := bi + 2.0
    let dr := a * dr + br
    let di := a * di + bi
    let dr := if Arith.abs dr + Arith.abs di <ᶠ FPMIN then FPMIN else dr
    let fact := a / (cr * cr + ci * ci)
    let cr := br + cr * fact
    let ci := bi - ci * fact
    let cr := if Arith.abs cr + Arith.abs ci <ᶠ FPMIN then FPMIN else cr
    let den := dr * dr + di * di
    let dr := dr / den
    let di := di / -den
    let dlr := cr * dr - ci * di
    let dli := cr * di + ci * dr
    let temp := p * dlr - q * dli
    let q := p * dli + q * dlr
    let p := temp
    if Arith.abs (dlr - 1.0) + Arith.abs dli <ᶠ EPS then .ok (p, q)
    else jyCF2 br k (i+1) a bi cr ci dr di p q

/-- src/bessel.rs:362-409 initialisation and run of the second continued fraction -/
def jyPQ (x xmu2 xi : α) : M (α × α) :=
  let a := 0.25 - xmu2
  let p := -0.5 * xi
  let q : α := 1.0
  let br := 2.0 * x
  let bi : α := 2.0
  let fact := a * xi / (p * p + q * q)
  let cr := br + q * fact
  let ci := bi + p * fact
  let den := br * br + bi * bi
  let dr := br / den
  let di := -bi / den
  let dlr := cr * dr - ci * di
  let dli := cr * di + ci * dr
  let temp := p * dlr - q * dli
  let q := p * dli + q * dlr
  jyCF2 br (MAXIT - 1) 1 a bi cr ci dr di temp q

/-- src/bessel.rs:362-415 the branch `x ≥ XMIN`; returns `(rjmu, rymu, ry1)` -/
def jyLarge (x xmu xmu2 xi w f rjl : α) : M (α × α × α) := do
  let (p, q) ← jyPQ x xmu2 xi
  let gam := (p - f) / q
  let rjmuTemp := Arith.sqrt (w / ((p - f) * gam + q))
  let rjmu := if rjl <ᶠ 0.0 then -rjmuTemp else rjmuTemp
  let rymu := gam * rjmu
  let rymup := rymu * (p + q / gam)
  pure (rjmu, rymu, xmu * xi * rymu - rymup)

/-- src/bessel.rs:420-424 `k` upward steps; returns `(rymu, ry1)` -/
def jyUp (xmu xi2 rymu ry1 : α) : Nat → α × α
  | 0 => (rymu, ry1)
  | k+1 =>
    let s := jyUp xmu xi2 rymu ry1 k
    (s.2, (xmu + Arith.ofNat (k+1)) * xi2 * s.2 - s.1)

/-- src/bessel.rs:243-247 the number `nl` of recurrence steps -/
def jyNl (nu x : α) : Nat :=
  if x <ᶠ 2.0 then Arith.toU USIZE_MAX (nu + 0.5)
  else Nat.max 0 (Arith.toU USIZE_MAX (nu - x + 1.5))

/-- src/bessel.rs:254-257 the start value `h` of the continued fraction -/
def cf1Start (nu xi : α) : α :=
  let h := nu * xi
  if h <ᶠ FPMIN then FPMIN else h

/-- src/bessel.rs:233-429 `besseljy` -/
def besseljy (nu x : α) : M (Quad α) :=
  if x ≤ᶠ 0.0 || nu <ᶠ 0.0 then .error .panic
  else do
    let nl := jyNl nu x
    let xmu := nu - Arith.ofNat nl
    let xmu2 := xmu * xmu
    let xi := 1.0 / x
    let xi2 := 2.0 * xi
    let w := xi2 / Arith.pi
    let h0 := cf1Start nu xi
    let (h, isign) ← jyCF1 xi2 MAXIT (xi2 * nu) 0.0 h0 h0 1
    let rjl1 := Arith.ofInt isign * FPMIN
    let rjp1 := h * rjl1
    let s := jyDown xi nl (rjl1, rjp1, nu * xi)
    let rjl := if s.1 ==ᶠ 0.0 then EPS else s.1
    let f := s.2.1 / rjl
    let (rjmu, rymu, ry1) ←
      if x <ᶠ 2.0 then jySmall x xmu xmu2 xi xi2 w f
      else jyLarge x xmu xmu2 xi w f rjl
    let fact := rjmu / rjl
    let u := jyUp xmu xi2 rymu ry1 nl
    pure (rjl1 * fact, u.1, rjp1 * fact, nu * xi * u.1 - u.2)

/-- src/bessel.rs:601-614 first continued fraction of `besselik`; returns `h` -/
def ikCF1 (xi2 : α) : Nat → α → α → α → α → M α
  | 0, _, _, _, _ => .error .panic
  | k+1, b, d, c, h =>
    let b := b + xi2
    let d := 1.0 / (b + d)
    let c := b + 1.0 / c
    let del := c * d
    let h := h * del
    if Arith.abs (del - 1.0) ≤ᶠ EPS then .ok h
    else ikCF1 xi2 k b d c h

/-- src/bessel.rs:620-625; state `(ril, ripl, fact)` -/
def ikDown (xi : α) : Nat → α × α × α → α × α × α
  | 0, s => s
  | k+1, (ril, ripl, fact) =>
    let ritemp := fact * ril + ripl
    let fact := fact - xi
    ikDown xi k (ritemp, fact * ritemp + ril, fact)

/-- src/bessel.rs:655-672 the Temme series of `besselik`; returns `(sum, sum1)` -/
def ikTemme (xmu xmu2 d : α) : Nat → Nat → α → α → α → α → α → α → M (α × α)
  | 0, _, _, _, _, _, _, _ => .error .panic
  | k+1, i, ff, c, p, q, sum, sum1 =>
    let i' : α := Arith.ofNat i
    let ff := (i' * ff + p + q) / (i' * i' - xmu2)
    let c := c * (d / i')
    let p := p / (i' - xmu)
    let q := q / (i' + xmu)
    let del := c * ff
    let sum := sum + del
    let del1 := c * (p - i' * ff)
    let sum1 := sum1 + del1
    if Arith.abs del <ᶠ Arith.abs sum * EPS then .ok (sum, sum1)
    else ikTemme xmu xmu2 d k (i+1) ff c p q sum sum1

/-- src/bessel.rs:631-674 the branch `x < XMIN`; returns `(rkmu, rk1)` -/
def ikSmall (x xmu xmu2 xi2 : α) : M (α × α) := do
  let t := temmeInit x xmu
  let ff := t.fact * (t.gam1 * Libm.cosh t.e + t.gam2 * t.fact2 * t.d)
  let e := Libm.exp t.e
  let p := 0.5 * e / t.gampl
  let q := 0.5 / (e * t.gammi)
  let x2 := 0.5 * x
  let d := x2 * x2
  let (sum, sum1) ← ikTemme xmu xmu2 d MAXIT 1 ff 1.0 p q ff p
  pure (sum, sum1 * xi2)

/-- src/bessel.rs:688-709 Steed's algorithm; returns `(h, s)` -/
def ikCF2 : Nat → Nat → α → α → α → α → α → α → α → α → α → α → M (α × α)
  | 0, _, _, _, _, _, _, _, _, _, _, _ => .error .panic
  | k+1, i, a, b, c, d, h, delh, q, q1, q2, s =>
    let i' : α := Arith.ofNat i
    let a := a - 2.0 * i'
    let c := -a * c / (i' + 1.0)
    let qNew := (q1 - b * q2) / a
    let q1 := q2
    let q2 := qNew
    let q := q + c * qNew
    let b := b + 2.0
    let d := 1.0 / (b + a * d)
    let delh := delh * (b * d - 1.0)
    let h := h + delh
    let dels := q * delh
    let s := s + dels
    if Arith.abs (dels / s) ≤ᶠ EPS then .ok (h, s)
    else ikCF2 k (i+1) a b c d h delh q q1 q2 s

/-- src/bessel.rs:676-712 the branch `x ≥ XMIN`; returns `(rkmu, rk1)` -/
def ikLarge (x xmu xmu2 xi : α) : M (α × α) := do
  let b := 2.0 * (1.0 + x)
  let d := 1.0 / b
  let a1 := 0.25 - xmu2
  let (h, s) ← ikCF2 (MAXIT - 1) 1 (-a1) b a1 d d d a1 0.0 1.0 (1.0 + a1 * d)
  let h := h * a1
  let rkmu := Arith.sqrt (Arith.pi / (2.0 * x)) * Libm.exp (-x) / s
  pure (rkmu, rkmu * (xmu + x + 0.5 - h) * xi)

/-- src/bessel.rs:718-723 `k` upward steps; returns `(rkmu, rk1)` -/
def ikUp (xmu xi2 rkmu rk1 : α) : Nat → α × α
  | 0 => (rkmu, rk1)
  | k+1 =>
    let s := ikUp xmu xi2 rkmu rk1 k
    (s.2, (xmu + Arith.ofNat (k+1)) * xi2 * s.2 + s.1)

/-- src/bessel.rs:578-728 `besselik` -/
def besselik (nu x : α) : M (Quad α) :=
  if x ≤ᶠ 0.0 || nu <ᶠ 0.0 then .error .panic
  else do
    let nl := Arith.toU USIZE_MAX (nu + 0.5)
    let xmu := nu - Arith.ofNat nl
    let xmu2 := xmu * xmu
    let xi := 1.0 / x
    let xi2 := 2.0 * xi
    let h0 := cf1Start nu xi
    let h ← ikCF1 xi2 MAXIT (xi2 * nu) 0.0 h0 h0
    let ril1 : α := FPMIN
    let rip1 := h * ril1
    let t := ikDown xi nl (ril1, rip1, nu * xi)
    let f := t.2.1 / t.1
    let (rkmu, rk1) ←
      if x <ᶠ 2.0 then ikSmall x xmu xmu2 xi2
      else ikLarge x xmu xmu2 xi
    let rkmup := xmu * xi * rkmu - rk1
    let rimu := xi / (f * rkmu - rkmup)
    let u := ikUp xmu xi2 rkmu rk1 nl
    pure ((rimu * ril1) / t.1, u.1, (rimu * rip1) / t.1, nu * xi * u.1 - u.2)

/-- src/bessel.rs:784-787 `Jnu_Ynu` -/
def JnuYnu (nu x : α) : M (α × α) := do
  let (jo, yo, _, _) ← besseljy nu x
  pure (jo, yo)

/-- src/bessel.rs:840-843 `Inu_Knu` -/
def InuKnu (nu x : α) : M (α × α) := do
  let (io, ko, _, _) ← besselik nu x
  pure (io, ko)

end Verif
