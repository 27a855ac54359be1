import Verif.Py.Basic
/-!
# Specification: identification strings of mode 09

How a car sends a VIN, a calibration ID or a calibration verification number: on CAN the
number of items (one) precedes the item; on the other protocols a VIN is filled up with
three zero bytes in front, and the other items come without prefix.
-/
namespace Spec
open Py

/-- A capital letter or a decimal digit, in ASCII. -/
def alnum (b : UInt8) : Bool := (65 ≤ b.toNat && b.toNat ≤ 90) || (48 ≤ b.toNat && b.toNat ≤ 57)

/-- A 17-character vehicle identification number. -/
def IsVin (vin : Bytes) : Prop := vin.length = 17 ∧ ∀ b ∈ vin, alnum b = true

/-- The data bytes of the reply to a VIN request. -/
def vinReply (can : Bool) (vin : Bytes) : Bytes :=
  if can then 0x49 :: 0x02 :: 0x01 :: vin else 0x49 :: 0x02 :: 0 :: 0 :: 0 :: vin

/-- The data bytes of the reply to a calibration ID request. -/
def calReply (can : Bool) (id : Bytes) : Bytes :=
  if can then 0x49 :: 0x04 :: 0x01 :: id else 0x49 :: 0x04 :: id

/-- The data bytes of the reply to a calibration verification number request. -/
def cvnReply (can : Bool) (cvn : Bytes) : Bytes :=
  if can then 0x49 :: 0x06 :: 0x01 :: cvn else 0x49 :: 0x06 :: cvn

/-- The ASCII digits 0, 1 and 2. -/
def digit012 (b : UInt8) : Bool := b.toNat == 48 || b.toNat == 49 || b.toNat == 50

/-- `short` is `long` without the elements satisfying `p` at both ends. -/
def Trimmed {α} (p : α → Bool) (long short : List α) : Prop :=
  ∃ a b, long = a ++ short ++ b ∧ (∀ x ∈ a, p x = true) ∧ (∀ x ∈ b, p x = true) ∧
    (∀ x, short.head? = some x → p x = false) ∧ (∀ x, short.getLast? = some x → p x = false)

end Spec
