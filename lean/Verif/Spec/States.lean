import Verif.Spec.Enums
import Verif.Spec.Bytes
import Verif.Model.Value
/-!
# Specification: readings that are states, not numbers (mode 01; for the bit order of the sensors present see `Spec/Banks`)
-/
namespace Spec
open Py Model

/-- A text of a table, or None for a byte that is not in it. -/
def textOf (table : List (Nat × String)) (A : UInt8) : Value :=
  match table.lookup A.toNat with
  | some s => .str s.toList
  | none => .none

/-- The readings of one byte: command, PID, and what the byte means.  Sensors present are listed per
bank, an unused bank 0 first. -/
def oneByteStates : List (String × UInt8 × (UInt8 → Value)) :=
  [("O2_SENSORS", 0x13, fun A => .banks [[], [bitOf A 7, bitOf A 6, bitOf A 5, bitOf A 4], [bitOf A 3, bitOf A 2, bitOf A 1, bitOf A 0]]),
   ("OBD_COMPLIANCE", 0x1C, textOf obdStandards),
   ("O2_SENSORS_ALT", 0x1D, fun A => .banks [[], [bitOf A 7, bitOf A 6], [bitOf A 5, bitOf A 4], [bitOf A 3, bitOf A 2], [bitOf A 1, bitOf A 0]]),
   ("AUX_INPUT_STATUS", 0x1E, fun A => .bool (bitOf A 7)),
   ("FUEL_TYPE", 0x51, textOf fuelKinds)]

/-- The states of the two fuel systems; None if neither byte is a known state. -/
def fuelReading (A B : UInt8) : Value :=
  if fuelSystem A = "" ∧ fuelSystem B = "" then .none else .strPair (fuelSystem A).toList (fuelSystem B).toList

/-- The secondary air states on which the library fails: a single bit that has no text. -/
def airBroken : List Nat := [0x10, 0x20, 0x40, 0x80]

end Spec
