import Verif.Proofs.Erfcx
import Verif.Tables.ErfcxErr

/-!
# Accuracy of the erfcx table (src/error.rs)

Integer computations in units of `10^-46·2^-20` are checked by the kernel for all 448 rows; the lemmas turn them into bounds for real numbers.
-/

namespace Verif
open F64

/-! ## Integer certificates -/

/-- a table literal in units of `10^-46` -/
def ci (d : Int × Nat) : ℤ := d.1 * 10^(46 - d.2)
def zc (r : List (Int × Nat)) (k : ℕ) : ℤ := ci (r.getD k (0, 0))

/-- `2/√π` in units of `10^-46`, from below -/
def KAP : ℤ := 11283791670955125738 * 10^27

/-- residual of the differential equation, times `10^46·2^20` -/
def rhoN (q n : ℕ) (c0 c1 c2 c3 c4 c5 c6 c7 c8 c9 : ℤ) : ℕ :=
  let b : ℤ := 2 * 4^q
  (2^20 * c1 - b * (n * c0) + 2^(q+10) * KAP).natAbs + 2^(q+10) * 10^27
  + (2^20 * (2 * c2) - b * (n * c1 + c0)).natAbs
  + (2^20 * (3 * c3) - b * (n * c2 + c1)).natAbs
  + (2^20 * (4 * c4) - b * (n * c3 + c2)).natAbs
  + (2^20 * (5 * c5) - b * (n * c4 + c3)).natAbs
  + (2^20 * (6 * c6) - b * (n * c5 + c4)).natAbs
  + (2^20 * (7 * c7) - b * (n * c6 + c5)).natAbs
  + (2^20 * (8 * c8) - b * (n * c7 + c6)).natAbs
  + (2^20 * (9 * c9) - b * (n * c8 + c7)).natAbs
  + (b * (n * c9 + c8)).natAbs
  + (b * c9).natAbs

def rowRho (i : ℕ) (r0 r1 : List (Int × Nat)) : ℕ :=
  rhoN (i / 64) (129 + 2 * (i % 64)) (zc r0 0) (zc r0 1) (zc r1 0) (zc r1 1) (zc r1 2) (zc r1 3) (zc r1 4) (zc r1 5) (zc r1 6) (zc r1 7)

/-- value of a row at 1 and at -1, times `10^46` -/
def rowR (r0 r1 : List (Int × Nat)) : ℤ :=
  zc r0 0 + zc r0 1 + zc r1 0 + zc r1 1 + zc r1 2 + zc r1 3 + zc r1 4 + zc r1 5 + zc r1 6 + zc r1 7
def rowL (r0 r1 : List (Int × Nat)) : ℤ :=
  zc r0 0 - zc r0 1 + zc r1 0 - zc r1 1 + zc r1 2 - zc r1 3 + zc r1 4 - zc r1 5 + zc r1 6 - zc r1 7

def rowJ (r0 r1 s0 s1 : List (Int × Nat)) : ℕ := 2^20 * (rowR r0 r1 - rowL s0 s1).natAbs

/-- magnitude and rounding error of a coefficient, in units of `10^-46·2^-20` -/
def ca (z : ℤ) : ℕ := z.natAbs * 2^20 + z.natAbs * 2^20 / 2^53 + 2
def ce (z : ℤ) : ℕ := z.natAbs * 2^20 / 2^53 + 2
def flA (A : ℕ) (z : ℤ) : ℕ := A + ca z + (A + ca z) / 2^53 + 2
def flE (A e : ℕ) (z : ℤ) : ℕ := e + ce z + (A + ca z) / 2^52 + 4
def flStep (s : ℕ × ℕ) (z : ℤ) : ℕ × ℕ := (flA s.1 z, flE s.1 s.2 z)
def flB (r0 r1 : List (Int × Nat)) : ℕ × ℕ :=
  flStep (flStep (flStep (flStep (flStep (flStep (flStep (flStep (flStep (ca (zc r1 7), ce (zc r1 7)) (zc r1 6)) (zc r1 5)) (zc r1 4)) (zc r1 3))
    (zc r1 2)) (zc r1 1)) (zc r1 0)) (zc r0 1)) (zc r0 0)

/-- sum of the magnitudes of all coefficients but the constant one -/
def rowT (r0 r1 : List (Int × Nat)) : ℕ :=
  (zc r0 1).natAbs + (zc r1 0).natAbs + (zc r1 1).natAbs + (zc r1 2).natAbs + (zc r1 3).natAbs + (zc r1 4).natAbs + (zc r1 5).natAbs
    + (zc r1 6).natAbs + (zc r1 7).natAbs

def shapeOk (r : List (Int × Nat)) : Bool := r.all (fun d => Nat.ble d.2 46)

/-- the damping factor of row `i` is at most `2^20 / dampN` -/
def dampN (i : ℕ) : ℕ := 2^20 + 4 * 4^(i / 64) * (129 + 2 * (i % 64))

def rowCheck (i : ℕ) (r0 r1 s0 s1 : List (Int × Nat)) (E E1 : ℕ) : Bool :=
  shapeOk r0 && shapeOk r1 &&
  Nat.ble ((E1 + rowJ r0 r1 s0 s1) * 2^20 + 2 * rowRho i r0 r1 * dampN i) (E * dampN i) &&
  (Nat.ble 417 i || Nat.ble ((E1 + rowJ r0 r1 s0 s1 + 2 * rowRho i r0 r1) * (10^14 + 1) + (flB r0 r1).2 * 10^14 + rowT r0 r1 * 2^20)
      ((zc r0 0).toNat * 2^20)) &&
  Nat.ble (flB r0 r1).1 (10^46 * 2^20) &&
  Nat.ble ((flB r0 r1).2 * (3 * 10^15)) (10^46 * 2^20) &&
  (Nat.ble 417 i || (Nat.ble (rowJ r0 r1 s0 s1 * (5 * 10^15)) (10^46 * 2^20) && Nat.ble (rowT r0 r1 * 400) (10^46)))

def checkAll : ℕ → List (List (Int × Nat)) → List (List (Int × Nat)) → List ℕ → Bool
  | i, a :: as, b :: bs, e :: e' :: es => rowCheck i a b (as.headD []) (bs.headD []) e e' && checkAll (i+1) as bs (e' :: es)
  | _, [], [], [_] => true
  | _, _, _, _ => false

theorem checkAll_ok : checkAll 0 cheb0Rows cheb1Rows erfcxErr = true := by decide +kernel

end Verif
