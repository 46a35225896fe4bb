import Verif.Model.Utils

/-!
# Model of /repo/src/dawson.rs
-/

namespace Verif
variable {α : Type} [Add α] [Sub α] [Mul α] [Div α] [Neg α] [OfScientific α] [Arith α] [Libm α] [Cfg]

/-- src/dawson.rs:41-48 one iteration of the Rybicki sum, state `(d1, d2, e1, sum)` -/
def dawsonStep (h e2 : α) (i : Nat) (s : α × α × α × α) : α × α × α × α :=
  let w := (2.0 * Arith.ofNat i + 1.0) * h
  let cval := Libm.exp (-(w * w))
  let d1 := s.1 + 2.0
  let d2 := s.2.1 - 2.0
  let e1 := s.2.2.1 * e2
  (d1, d2, e1, s.2.2.2 + cval * (e1 / d1 + 1.0 / (d2 * e1)))

/-- src/dawson.rs:33-50 everything after `n0` in the `else` branch -/
def dawsonTail (x xx h : α) (n0 : Nat) : α :=
  let xp := xx - Arith.ofNat n0 * h
  let e1 := Libm.exp (2.0 * xp * h)
  let e2 := e1 * e1
  let d1 := Arith.ofNat n0 + 1.0
  let d2 := d1 - 2.0
  let s := (List.range 6).foldl (fun s i => dawsonStep h e2 i s) (d1, d2, e1, 0.0)
  (1.0 / Arith.sqrt Arith.pi) * sign (Libm.exp (-xp * xp)) x * s.2.2.2

/-- src/dawson.rs:11-53 `dawson`; the multiplication `2 * … as u64` on line 33 can overflow -/
def dawson (x : α) : M α :=
  let h : α := 0.4
  let a1 : α := 2.0 / 3.0
  let a2 : α := 0.4
  let a3 : α := 2.0 / 7.0
  if Arith.abs x <ᶠ 0.2 then
    let x2 := x * x
    .ok (x * (1.0 - a1 * x2 * (1.0 - a2 * x2 * (1.0 - a3 * x2))))
  else do
    let xx := Arith.abs x
    let n0 ← wrapU U64_MAX (2 * Arith.toU U64_MAX (0.5 * xx / h + 0.5))
    pure (dawsonTail x xx h n0)

end Verif
