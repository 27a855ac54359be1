import Verif.Model.Protocol
/-!
# Specification: which ECU is the engine

Only the names of the protocols, `Message` (what the parser returns) and the ECU tags
(public constants of the library) are shared with the model.
-/
namespace Spec
open Py Model

/-- The standard address of the engine ECU. -/
def standardEngine : Proto → Option Nat
  | .unknown => none
  | .j1850pwm | .j1850vpw | .iso9141 | .kwp5baud | .kwpFast => some 0x10
  | .can11_500 | .can29_500 | .can11_250 | .can29_250 | .j1939 => some 0

/-- The standard address of the transmission ECU. -/
def standardTransmission : Proto → Option Nat
  | .can11_500 | .can29_500 | .can11_250 | .can29_250 | .j1939 => some 1
  | _ => none

/-- The tag of an address when nothing is known about the car. -/
def standardTag (p : Proto) (t : Nat) : Nat :=
  if standardEngine p = some t then ECU.engine
  else if standardTransmission p = some t then ECU.transmission
  else ECU.unknown

/-- The number of set bits of a byte string. -/
def popcount (d : Bytes) : Nat :=
  (d.map (fun b => ((List.range 8).filter (fun i => b.toNat.testBit i)).length)).sum

/-- Transmitter `t` answered with the non-empty data `d`. -/
def Answered (ms : List Message) (t : Nat) (d : Bytes) : Prop :=
  ∃ m ∈ ms, m.txId = some t ∧ m.data = d ∧ d ≠ []

/-- `t` is a right choice for the engine: it answered; it is the standard address if that
one answered; otherwise nobody announces more PIDs. -/
structure IsEngine (p : Proto) (ms : List Message) (t : Nat) : Prop where
  answered : ∃ d, Answered ms t d
  standard : ∀ e d, standardEngine p = some e → Answered ms e d → t = e
  most : (∀ e d, standardEngine p = some e → ¬ Answered ms e d) →
    ∃ d, Answered ms t d ∧ ∀ t' d', Answered ms t' d' → popcount d' ≤ popcount d

end Spec
