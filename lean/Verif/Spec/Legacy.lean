import Verif.Spec.IsoTp
/-!
# Specification: replies on the legacy protocols (J1850, ISO 9141-2, KWP2000)

A line is three header bytes (the third is the ECU), two to seven data bytes and a checksum.
-/
namespace Spec
open Py Model

/-- The five legacy protocols. -/
def IsLegacy (p : Proto) : Prop :=
  p = .j1850pwm ∨ p = .j1850vpw ∨ p = .iso9141 ∨ p = .kwp5baud ∨ p = .kwpFast

/-- `s` is the line printed for a legacy frame: header `a b ecu`, data, checksum `c`. -/
def LegacyLine (a b ecu : UInt8) (data : Bytes) (c : UInt8) (s : Str) : Prop :=
  Spells s (nibbles (a :: b :: ecu :: data ++ [c]))

/-- Line `i` of a multi-line reply: mode, PID, order byte, and its part of the payload. -/
def numberedLine (mode pid : UInt8) (part : Nat → Bytes) (i : Nat) : Bytes :=
  [mode, pid, UInt8.ofNat i] ++ part i

end Spec
