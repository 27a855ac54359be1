import Verif.Model.Command
/-!
# Specification: scalar sensors

What each scalar sensor means: which bytes of the reply hold the reading, the linear
conversion, the unit, and the range documented in the library (comment above the decoder,
obd/decoders.py:102-256) or, for units-and-scaling conversions, in SAE J1979.
Shared with the model: `Decoder` (the public decoder functions), the entries of `UAS_IDS`
(scale, offset, unit) and the attributes of `OBDCommand`.
-/
namespace Spec
open Py Model

/-- The big-endian value of a byte string. -/
def beValue : Bytes → Nat
  | [] => 0
  | b :: bs => b.toNat * 256 ^ bs.length + beValue bs

/-- The big-endian two's complement value of a byte string. -/
def beSigned (bs : Bytes) : Int :=
  if 256 ^ bs.length ≤ 2 * beValue bs then (beValue bs : Int) - 256 ^ bs.length else beValue bs

/-- A big-endian reading, two's complement if `signed`. -/
def reading (signed : Bool) (bs : Bytes) : Int := if signed then beSigned bs else beValue bs

structure Sensor where
  /-- position of the reading after the mode and PID bytes -/
  first : Nat := 0
  /-- number of bytes of the reading -/
  width : Nat
  signed : Bool := false
  scale : Rat
  offset : Rat := 0
  unit : String
  /-- documented range -/
  lo : Rat
  hi : Rat
  deriving DecidableEq

/-- The raw reading in the data bytes of a reply. -/
def Sensor.raw (s : Sensor) (data : Bytes) : Int := reading s.signed ((data.drop (2 + s.first)).take s.width)

/-- The physical value of a reading. -/
def Sensor.physical (s : Sensor) (raw : Int) : Rat := s.scale * raw + s.offset

/-- The scalar sensors of the library. -/
def sensor? : Decoder → Option Sensor
  | .percent => some { width := 1, scale := 100 / 255, unit := "percent", lo := 0, hi := 100 }
  | .percentCentered => some { width := 1, scale := 100 / 128, offset := -100, unit := "percent", lo := -100, hi := 100 }
  | .temp => some { width := 1, scale := 1, offset := -40, unit := "celsius", lo := -40, hi := 215 }
  | .currentCentered =>
    some { first := 2, width := 2, scale := 1 / 256, offset := -128, unit := "milliampere", lo := -128, hi := 128 }
  | .sensorVoltage => some { width := 1, scale := 1 / 200, unit := "volt", lo := 0, hi := 1275 / 1000 }
  | .sensorVoltageBig => some { first := 2, width := 2, scale := 8 / 65535, unit := "volt", lo := 0, hi := 8 }
  | .fuelPressure => some { width := 1, scale := 3, unit := "kilopascal", lo := 0, hi := 765 }
  | .pressure => some { width := 1, scale := 1, unit := "kilopascal", lo := 0, hi := 255 }
  | .evapPressure => some { width := 2, signed := true, scale := 1 / 4, unit := "pascal", lo := -8192, hi := 8192 }
  | .absEvapPressure => some { width := 2, scale := 1 / 200, unit := "kilopascal", lo := 0, hi := 327675 / 1000 }
  | .evapPressureAlt => some { width := 2, scale := 1, offset := -32767, unit := "pascal", lo := -32767, hi := 32768 }
  | .timingAdvance => some { width := 1, scale := 1 / 2, offset := -64, unit := "degree", lo := -64, hi := 635 / 10 }
  | .injectTiming => some { width := 2, scale := 1 / 128, offset := -210, unit := "degree", lo := -210, hi := 301 }
  | .maxMaf => some { width := 1, scale := 10, unit := "gps", lo := 0, hi := 2550 }
  | .fuelRate => some { width := 2, scale := 1 / 20, unit := "liters_per_hour", lo := 0, hi := 3212 }
  | .absoluteLoad => some { width := 2, scale := 100 / 255, unit := "percent", lo := 0, hi := 25700 }
  | .count => some { width := 1, scale := 1, unit := "count", lo := 0, hi := 255 }
  | .uas 0x01 => some { width := 1, scale := 1, unit := "count", lo := 0, hi := 255 }
  | .uas 0x07 => some { width := 2, scale := 1 / 4, unit := "rpm", lo := 0, hi := 1638375 / 100 }
  | .uas 0x09 => some { width := 1, scale := 1, unit := "kph", lo := 0, hi := 255 }
  | .uas 0x0B => some { width := 2, scale := 1 / 1000, unit := "volt", lo := 0, hi := 65535 / 1000 }
  | .uas 0x12 => some { width := 2, scale := 1, unit := "second", lo := 0, hi := 65535 }
  | .uas 0x16 => some { width := 2, scale := 1 / 10, offset := -40, unit := "celsius", lo := -40, hi := 65135 / 10 }
  | .uas 0x19 => some { width := 2, scale := 79 / 1000, unit := "kilopascal", lo := 0, hi := 5177265 / 1000 }
  | .uas 0x1B => some { width := 2, scale := 10, unit := "kilopascal", lo := 0, hi := 655350 }
  | .uas 0x1E => some { width := 2, scale := 305 / 10000000, unit := "ratio", lo := 0, hi := 2 }
  | .uas 0x25 => some { width := 2, scale := 1, unit := "kilometer", lo := 0, hi := 65535 }
  | .uas 0x27 => some { width := 2, scale := 1 / 100, unit := "grams_per_second", lo := 0, hi := 65535 / 100 }
  | .uas 0x34 => some { width := 2, scale := 1, unit := "minute", lo := 0, hi := 65535 }
  | _ => none

/-- The scalar sensors by mode 01 PID (SAE J1979, and docs/Command Tables.md for the units). -/
def pidSensor (p : Nat) : Option Sensor :=
  if p ∈ [0x04, 0x11, 0x2C, 0x2E, 0x2F, 0x45, 0x47, 0x48, 0x49, 0x4A, 0x4B, 0x4C, 0x52, 0x5A, 0x5B] then
    some { width := 1, scale := 100 / 255, unit := "percent", lo := 0, hi := 100 }
  else if p ∈ [0x06, 0x07, 0x08, 0x09, 0x2D, 0x55, 0x56, 0x57, 0x58] then
    some { width := 1, scale := 100 / 128, offset := -100, unit := "percent", lo := -100, hi := 100 }
  else if p ∈ [0x05, 0x0F, 0x46, 0x5C] then
    some { width := 1, scale := 1, offset := -40, unit := "celsius", lo := -40, hi := 215 }
  else if p = 0x0A then some { width := 1, scale := 3, unit := "kilopascal", lo := 0, hi := 765 }
  else if p ∈ [0x0B, 0x33] then some { width := 1, scale := 1, unit := "kilopascal", lo := 0, hi := 255 }
  else if p = 0x0C then some { width := 2, scale := 1 / 4, unit := "rpm", lo := 0, hi := 1638375 / 100 }
  else if p = 0x0D then some { width := 1, scale := 1, unit := "kph", lo := 0, hi := 255 }
  else if p = 0x0E then some { width := 1, scale := 1 / 2, offset := -64, unit := "degree", lo := -64, hi := 635 / 10 }
  else if p = 0x10 then some { width := 2, scale := 1 / 100, unit := "grams_per_second", lo := 0, hi := 65535 / 100 }
  else if p ∈ [0x14, 0x15, 0x16, 0x17, 0x18, 0x19, 0x1A, 0x1B] then
    some { width := 1, scale := 1 / 200, unit := "volt", lo := 0, hi := 1275 / 1000 }
  else if p = 0x1F then some { width := 2, scale := 1, unit := "second", lo := 0, hi := 65535 }
  else if p ∈ [0x21, 0x31] then some { width := 2, scale := 1, unit := "kilometer", lo := 0, hi := 65535 }
  else if p = 0x22 then some { width := 2, scale := 79 / 1000, unit := "kilopascal", lo := 0, hi := 5177265 / 1000 }
  else if p ∈ [0x23, 0x59] then some { width := 2, scale := 10, unit := "kilopascal", lo := 0, hi := 655350 }
  else if p ∈ [0x24, 0x25, 0x26, 0x27, 0x28, 0x29, 0x2A, 0x2B] then
    some { first := 2, width := 2, scale := 8 / 65535, unit := "volt", lo := 0, hi := 8 }
  else if p = 0x30 then some { width := 1, scale := 1, unit := "count", lo := 0, hi := 255 }
  else if p = 0x32 then some { width := 2, signed := true, scale := 1 / 4, unit := "pascal", lo := -8192, hi := 8192 }
  else if p ∈ [0x34, 0x35, 0x36, 0x37, 0x38, 0x39, 0x3A, 0x3B] then
    some { first := 2, width := 2, scale := 1 / 256, offset := -128, unit := "milliampere", lo := -128, hi := 128 }
  else if p ∈ [0x3C, 0x3D, 0x3E, 0x3F] then
    some { width := 2, scale := 1 / 10, offset := -40, unit := "celsius", lo := -40, hi := 65135 / 10 }
  else if p = 0x42 then some { width := 2, scale := 1 / 1000, unit := "volt", lo := 0, hi := 65535 / 1000 }
  else if p = 0x43 then some { width := 2, scale := 100 / 255, unit := "percent", lo := 0, hi := 25700 }
  else if p = 0x44 then some { width := 2, scale := 305 / 10000000, unit := "ratio", lo := 0, hi := 2 }
  else if p ∈ [0x4D, 0x4E] then some { width := 2, scale := 1, unit := "minute", lo := 0, hi := 65535 }
  else if p = 0x50 then some { width := 1, scale := 10, unit := "gps", lo := 0, hi := 2550 }
  else if p = 0x53 then some { width := 2, scale := 1 / 200, unit := "kilopascal", lo := 0, hi := 327675 / 1000 }
  else if p = 0x54 then some { width := 2, scale := 1, offset := -32767, unit := "pascal", lo := -32767, hi := 32768 }
  else if p = 0x5D then some { width := 2, scale := 1 / 128, offset := -210, unit := "degree", lo := -210, hi := 301 }
  else if p = 0x5E then some { width := 2, scale := 1 / 20, unit := "liters_per_hour", lo := 0, hi := 3212 }
  else none

end Spec
