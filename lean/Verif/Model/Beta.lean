import Verif.Model.Gamma

/-!
# Model of /repo/src/beta.rs
-/

namespace Verif
variable {α : Type} [Add α] [Sub α] [Mul α] [Div α] [Neg α] [OfScientific α] [Arith α] [Libm α] [Cfg]

/-- src/beta.rs:33-36 `beta` -/
def beta (z w : α) : M α :=
  if 0.0 <ᶠ z && 0.0 <ᶠ w then .ok (Libm.exp (lnGamma z + lnGamma w - lnGamma (z + w)))
  else .error .panic

/-- src/beta.rs:93-122 one iteration of the loop of `betacf` (both half steps); state `(c, d, h)`, returns the new state and `del` -/
def betacfStep (a b x qab qap qam : α) (m : Nat) (c d h : α) : α × α × α × α :=
  let m := Arith.ofNat m
  let m2 := 2.0 * m
  let aa := m * (b - m) * x / ((qam + m2) * (a + m2))
  let d := guardTiny (1.0 + aa * d)
  let c := guardTiny (1.0 + aa / c)
  let d := 1.0 / d
  let h := h * (d * c)
  let aa := -(a + m) * (qab + m) * x / ((a + m2) * (qap + m2))
  let d := guardTiny (1.0 + aa * d)
  let c := guardTiny (1.0 + aa / c)
  let d := 1.0 / d
  let del := d * c
  (c, d, h * del, del)

/-- src/beta.rs:92-123 the loop of `betacf` with its `break` -/
def betacfLoop (a b x qab qap qam : α) : Nat → Nat → α → α → α → α
  | 0, _, _, _, h => h
  | n+1, m, c, d, h =>
    let r := betacfStep a b x qab qap qam m c d h
    if Arith.abs (r.2.2.2 - 1.0) ≤ᶠ EPS then r.2.2.1
    else betacfLoop a b x qab qap qam n (m+1) r.1 r.2.1 r.2.2.1

/-- src/beta.rs:81-124 `betacf` (`for m in 1..10000`: 9999 iterations) -/
def betacf (a b x : α) : α :=
  let qab := a + b
  let qap := a + 1.0
  let qam := a - 1.0
  let d := guardTiny (1.0 - qab * x / qap)
  let d := 1.0 / d
  betacfLoop a b x qab qap qam 9999 1 1.0 d d

/-- src/beta.rs:126-160 `betaiapprox`.  The exponent on line 149 is transcribed as written:
`a1 * (t.ln() - lnmu) + b1 * (1.0 - t).ln() - lnmuc`. -/
def betaiapprox (a b x : α) : α :=
  let a1 := a - 1.0
  let b1 := b - 1.0
  let mu := a / (a + b)
  let lnmu := Libm.ln mu
  let lnmuc := Libm.ln (1.0 - mu)
  let t := Arith.sqrt (a * b / ((a + b) * (a + b) * (a + b + 1.0)))
  let fin := fun (xu : α) =>
    let sum := (List.zip quadY quadW).foldl (fun sum yw =>
      let t := x + (xu - x) * yw.1
      sum + yw.2 * Libm.exp (a1 * (Libm.ln t - lnmu) + b1 * Libm.ln (1.0 - t) - lnmuc)) 0.0
    let ans := sum * (xu - x) *
      Libm.exp (a1 * lnmu - lnGamma a + b1 * lnmuc - lnGamma b + lnGamma (a + b))
    if 0.0 <ᶠ ans then 1.0 - ans else -ans
  if a / (a + b) <ᶠ x then
    if 1.0 ≤ᶠ x then 1.0
    else fin (Arith.min 1.0 (Arith.max (mu + 10.0 * t) (x + 5.0 * t)))
  else
    if x ≤ᶠ 0.0 then 0.0
    else fin (Arith.max 0.0 (Arith.min (mu - 10.0 * t) (x - 5.0 * t)))

/-- src/beta.rs:62-78 `betai` -/
def betai (a b x : α) : M α :=
  if !(0.0 <ᶠ a && 0.0 <ᶠ b) then .error .panic
  else if !(0.0 ≤ᶠ x && x ≤ᶠ 1.0) then .error .panic
  else if x ==ᶠ 0.0 || x ==ᶠ 1.0 then .ok x
  else
    let switch : α := Arith.ofNat 3000
    if switch <ᶠ a && switch <ᶠ b then .ok (betaiapprox a b x)
    else
      let bt := Libm.exp (lnGamma (a + b) - lnGamma a - lnGamma b + a * Libm.ln x + b * Libm.ln (1.0 - x))
      if x <ᶠ (a + 1.0) / (a + b * 2.0) then .ok (bt * betacf a b x / a)
      else .ok (1.0 - bt * betacf b a (1.0 - x) / b)

/-- src/beta.rs:187-211 initial guess of `invbetai` -/
def invbetaiGuess (p a b : α) : α :=
  if 1.0 ≤ᶠ a && 1.0 ≤ᶠ b then
    let pp := if p <ᶠ 0.5 then p else 1.0 - p
    let t := Arith.sqrt (-2.0 * Libm.ln pp)
    let x := (2.30753 + t * 0.27061) / (1.0 + t * (0.99229 + t * 0.04481)) - t
    let x := if p <ᶠ 0.5 then -x else x
    let al := (x * x - 3.0) / 6.0
    let h := 2.0 / (1.0 / (2.0 * a - 1.0) + 1.0 / (2.0 * b - 1.0))
    let w := (x * Arith.sqrt (al + h) / h)
      - (1.0 / (2.0 * b - 1.0) - 1.0 / (2.0 * a - 1.0)) * (al + 5.0 / 6.0 - 2.0 / (3.0 * h))
    a / (a + b * Libm.exp (2.0 * w))
  else
    let lna := Libm.ln (a / (a + b))
    let lnb := Libm.ln (b / (a + b))
    let t := Libm.exp (a * lna) / a
    let u := Libm.exp (b * lnb) / b
    let w := t + u
    if p <ᶠ t / w then Libm.powf (a * w * p) (1.0 / a)
    else 1.0 - Libm.powf (b * w * (1.0 - p)) (1.0 / b)

/-- src/beta.rs:213-231 the iteration of `invbetai` (`j` counts from 0) -/
def invbetaiLoop (p a b a1 b1 afac : α) : Nat → Nat → α → M α
  | 0, _, x => .ok x
  | n+1, j, x =>
    if x ==ᶠ 0.0 || x ==ᶠ 1.0 then .ok x
    else do
      let v ← betai a b x
      let err := v - p
      let t := Libm.exp (a1 * Libm.ln x + b1 * Libm.ln (1.0 - x) + afac)
      let u := err / t
      let t := u / (1.0 - 0.5 * Arith.min 1.0 (u * (a1 / x - b1 / (1.0 - x))))
      let x := x - t
      let x := if x ≤ᶠ 0.0 then 0.5 * (x + t) else x
      let x := if 1.0 ≤ᶠ x then 0.5 * (x + t + 1.0) else x
      if Arith.abs t <ᶠ EPS * x && decide (0 < j) then .ok x
      else invbetaiLoop p a b a1 b1 afac n (j+1) x

/-- src/beta.rs:177-233 `invbetai` -/
def invbetai (p a b : α) : M α :=
  let a1 := a - 1.0
  let b1 := b - 1.0
  if p ≤ᶠ 0.0 then .ok 0.0
  else if 1.0 ≤ᶠ p then .ok 1.0
  else
    let x := invbetaiGuess p a b
    let afac := -lnGamma a - lnGamma b + lnGamma (a + b)
    invbetaiLoop p a b a1 b1 afac 10 0 x

end Verif
