import Verif.Model.Utils

/-! The operations of the `Arith F64` instance, as rewrite rules. -/

namespace Verif

theorem ar_lt (a b : F64) : Arith.lt a b = F64.lt a b := rfl
theorem ar_le (a b : F64) : Arith.le a b = F64.le a b := rfl
theorem ar_eq (a b : F64) : Arith.eq a b = F64.eq a b := rfl
theorem ar_abs (a : F64) : Arith.abs a = F64.abs a := rfl
theorem ar_sqrt (a : F64) : Arith.sqrt a = F64.sqrt a := rfl
theorem ar_floor (a : F64) : Arith.floor a = F64.floor a := rfl
theorem ar_fract (a : F64) : Arith.fract a = F64.fract a := rfl
theorem ar_max (a b : F64) : Arith.max a b = F64.max a b := rfl
theorem ar_min (a b : F64) : Arith.min a b = F64.min a b := rfl
theorem ar_fma (a b c : F64) : Arith.fma a b c = F64.fma a b c := rfl
theorem ar_ofNat (n : Nat) : (Arith.ofNat n : F64) = F64.ofNat n := rfl
theorem ar_ofInt (n : Int) : (Arith.ofInt n : F64) = F64.ofInt n := rfl
theorem ar_toU (m : Nat) (a : F64) : Arith.toU m a = F64.toUnsigned m a := rfl
theorem ar_toS (m : Nat) (a : F64) : Arith.toS m a = F64.toSigned m a := rfl
theorem ar_isNaN (a : F64) : Arith.isNaN a = F64.isNaN a := rfl
theorem ar_isInf (a : F64) : Arith.isInf a = F64.isInf a := rfl
theorem ar_signPos (a : F64) : Arith.signPos a = F64.isSignPos a := rfl
theorem ar_copysign (a b : F64) : Arith.copysign a b = F64.copysign a b := rfl
theorem ar_inf : (Arith.inf : F64) = F64.inf := rfl
theorem ar_nan : (Arith.nan : F64) = F64.nan := rfl
theorem ar_frexp (a : F64) : Arith.frexp a = F64.frexp a := rfl
theorem ar_ldexp (a : F64) (k : Int) : Arith.ldexp a k = F64.ldexp a k := rfl

end Verif
