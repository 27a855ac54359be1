import Verif.Spec.Bytes
import Verif.Model.Value
/-!
# Specification: which oxygen sensors a car has (SAE J1979, PIDs 13, 1D, 1E)

PID 13: bits A0 to A3 stand for sensors 1 to 4 of bank 1, A4 to A7 for those of bank 2.  PID 1D: A0, A1 for sensors 1, 2 of bank 1,
A2, A3 of bank 2, and so on.  PID 1E: A0 is the power take off status.
-/
namespace Spec
open Py Model

/-- The bit for a sensor of a bank, with `width` sensors per bank. -/
def sensorBit (width bank sensor : Nat) : Nat := width * (bank - 1) + (sensor - 1)

/-- The response's `value[bank][i]`. -/
def entryAt (v : Value) (bank i : Nat) : Option Bool :=
  match v with
  | .banks bs => bs[bank]?.bind (fun b => b[i]?)
  | _ => none

/-- Banks and sensors, numbered from 1. -/
def sensorsOf (banks width : Nat) : List (Nat × Nat) :=
  (List.range banks).flatMap (fun b => (List.range width).map (fun s => (b + 1, s + 1)))

/-- The value reports the sensors of the byte as the standard numbers them: sensor `s` of bank `b` at `value[b][s - 1]`. -/
def InPlace (banks width : Nat) (v : Value) (A : UInt8) : Prop :=
  ∀ x ∈ sensorsOf banks width, entryAt v x.1 (x.2 - 1) = some (bitOf A (sensorBit width x.1 x.2))

/-- The value reports them in reverse order: sensor `s` of bank `b` at the place of sensor `width + 1 - s` of bank `banks + 1 - b`. -/
def Mirrored (banks width : Nat) (v : Value) (A : UInt8) : Prop :=
  ∀ x ∈ sensorsOf banks width, entryAt v (banks + 1 - x.1) (width - x.2) = some (bitOf A (sensorBit width x.1 x.2))

end Spec
