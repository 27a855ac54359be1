import Verif.Spec.IsoTp
/-!
# Specification: diagnostic trouble codes

SAE J2012: two bytes; the top two bits are the system (P, C, B, U), the next two bits a
decimal digit, the remaining three nibbles hexadecimal digits.
-/
namespace Spec
open Py

/-- The letters of the systems powertrain, chassis, body and network. -/
def systemLetters : List Char := ['P', 'C', 'B', 'U']

/-- `code` is a way of writing the trouble code with bytes `a`, `b` (hex digits in either
case). -/
def Denotes (code : Str) (a b : UInt8) : Prop :=
  ∃ l d x y z, code = [l, d, x, y, z] ∧ systemLetters[a.toNat / 64]? = some l ∧
    digit? d = some (a.toNat / 16 % 4) ∧ digit? x = some (a.toNat % 16) ∧
    digit? y = some (b.toNat / 16) ∧ digit? z = some (b.toNat % 16)

/-- The pairs of bytes of a byte string; a last odd byte is left out. -/
def pairs : Bytes → List (UInt8 × UInt8)
  | a :: b :: rest => (a, b) :: pairs rest
  | _ => []

/-- The pairs that are not padding. -/
def codePairs (bs : Bytes) : List (UInt8 × UInt8) := (pairs bs).filter (fun p => p ≠ (0, 0))

end Spec
