import Verif.Model.Utils
import Verif.Tables.Factorial

/-! Kernel evaluation of `factorial(0) … factorial(170)` (about two minutes). -/

namespace Verif

/-- model value of `factorial n` compared with a bit pattern -/
def chkFact [Cfg] (n t : Nat) : Bool :=
  match factorial (α := F64) n with
  | .ok v => !v.neg && v.mag == t
  | .error _ => false

/-- any configuration -/
abbrev cfg0 : Cfg := ⟨false, false⟩

theorem factTable_chk : (List.range 171).all (fun n => @chkFact cfg0 n (factTable.getD n 0)) = true := by decide +kernel


end Verif
