import Verif.Model.Bessel

/-!
# Model of the caches in /repo/src/bessel.rs (lines 431-558, 730-771, 789-827, 845-884)

`std::collections::HashMap` is modelled by the list of its entries.  The order of the list stands for the (unspecified) iteration
order: `retain` takes the visiting order as a parameter, an arbitrary permutation.  Capacity and allocation are not modelled.
Panics unwind: an operation returns the state that a caller who catches the panic would see.
-/

namespace Verif

/-- hash-map key `(nu.to_bits(), x.to_bits())` -/
abbrev Key := BitVec 64 × BitVec 64

/-- the key of a pair of arguments, src/bessel.rs:455, 468, 548, 761, 817, 874 -/
def keyOf (nu x : F64) : Key := (nu.toBits, x.toBits)

/-- src/bessel.rs:521, 733, 791, 848: `HashMap<(u64, u64), V>` as the list of entries -/
structure Cache (V : Type) where
  entries : List (Key × V)

namespace Cache
variable {V : Type}

/-- src/bessel.rs:438-440 `new` -/
def new : Cache V := ⟨[]⟩
/-- src/bessel.rs:448-450 `with_capacity` (capacity is not modelled) -/
def withCapacity (_ : Nat) : Cache V := ⟨[]⟩

/-- `HashMap::get` -/
def lookupKey (c : Cache V) (k : Key) : Option V := (c.entries.find? (fun e => e.1 == k)).map Prod.snd
/-- `HashMap::insert`: replaces the value of an existing key, else adds an entry -/
def insertKey (c : Cache V) (k : Key) (v : V) : Cache V :=
  if c.entries.any (fun e => e.1 == k) then
    ⟨c.entries.map fun e => if e.1 == k then (e.1, v) else e⟩
  else ⟨(k, v) :: c.entries⟩

/-- src/bessel.rs:467-469 `get` -/
def get (c : Cache V) (nu x : F64) : Option V := c.lookupKey (keyOf nu x)
/-- src/bessel.rs:454-456 `contains` -/
def contains (c : Cache V) (nu x : F64) : Bool := c.entries.any (fun e => e.1 == keyOf nu x)
/-- src/bessel.rs:460-462 `clear` -/
def clear (_ : Cache V) : Cache V := ⟨[]⟩
/-- src/bessel.rs:473-475 `is_empty` -/
def isEmpty (c : Cache V) : Bool := c.entries.isEmpty
/-- src/bessel.rs:479-481 `len` -/
def len (c : Cache V) : Nat := c.entries.length
/-- src/bessel.rs:485-487 `shrink_to_fit` -/
def shrinkToFit (c : Cache V) : Cache V := c
/-- src/bessel.rs:498-500 `reserve` (the capacity-overflow panic is not modelled) -/
def reserve (c : Cache V) (_ : Nat) : Cache V := c

/-- src/bessel.rs:547-555, 760-768, 816-824, 873-881: the cached call of `f`.  Returns the outcome and the state afterwards. -/
def call (f : F64 → F64 → M V) (c : Cache V) (nu x : F64) : M V × Cache V :=
  match c.get nu x with
  | some res => (.ok res, c)
  | none =>
    match f nu x with
    | .ok res => (.ok res, c.insertKey (keyOf nu x) res)
    | .error e => (.error e, c)

/-- src/bessel.rs:507-513 `retain`, visiting the entries in the order given.  The predicate is a `FnMut`: it has a state `σ` and
may panic (`none`), in which case the entries not yet visited (and the current one) stay while those already rejected are gone.
Returns the outcome, the predicate's final state and the remaining entries. -/
def retainGo {σ : Type} (f : σ → F64 × F64 → V → Option Bool × σ) : σ → List (Key × V) → M Unit × σ × List (Key × V)
  | s, [] => (.ok (), s, [])
  | s, e :: es =>
    match f s (F64.ofBits e.1.1, F64.ofBits e.1.2) e.2 with
    | (none, s') => (.error .panic, s', e :: es)
    | (some b, s') =>
      let r := retainGo f s' es
      (r.1, r.2.1, if b then e :: r.2.2 else r.2.2)

/-- src/bessel.rs:507-513 `retain`; `order` is the hash map's (arbitrary) visiting order -/
def retain {σ : Type} (order : List (Key × V) → List (Key × V)) (f : σ → F64 × F64 → V → Option Bool × σ)
    (s : σ) (c : Cache V) : M Unit × σ × Cache V :=
  let r := retainGo f s (order c.entries)
  (r.1, r.2.1, ⟨r.2.2⟩)

/-- derived `PartialEq` (src/bessel.rs:520, 732, 790, 847): `HashMap` equality, comparing values with `==` -/
def beq (veq : V → V → Bool) (c d : Cache V) : Bool :=
  decide (c.len = d.len) && c.entries.all fun e =>
    match d.lookupKey e.1 with
    | some v => veq e.2 v
    | none => false

end Cache

variable [Libm F64] [Cfg]

/-- src/bessel.rs:547 `CachedBesselJY::besseljy` -/
def cachedBesselJY := Cache.call (besseljy (α := F64))
/-- src/bessel.rs:760 `CachedBesselIK::besselik` -/
def cachedBesselIK := Cache.call (besselik (α := F64))
/-- src/bessel.rs:816 `CachedJnuYnu::Jnu_Ynu` -/
def cachedJnuYnu := Cache.call (JnuYnu (α := F64))
/-- src/bessel.rs:873 `CachedInuKnu::Inu_Knu` -/
def cachedInuKnu := Cache.call (InuKnu (α := F64))

end Verif
