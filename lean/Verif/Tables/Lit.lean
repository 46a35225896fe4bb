/-! Notation for the entries of the generated tables. -/

namespace Verif

/-- the decimal literal `m·10^-e` -/
def dp (m e : Nat) : Int × Nat := (Int.ofNat m, e)
/-- the decimal literal `-m·10^-e` -/
def dn (m e : Nat) : Int × Nat := (-Int.ofNat m, e)
/-- a tile entry `k, n` -/
def tl (k n : Nat) : Int × Int := (Int.ofNat k, Int.ofNat n)
/-- the unused tile entry `-2, -2` -/
def tx : Int × Int := (-2, -2)

end Verif
