import Verif.Spec.Session
import Verif.Model.Async
/-!
# Specification: the same bytes in different chunks

The operating system hands over what the adapter sends in chunks of any size.
-/
namespace Spec
open Py Model

/-- What the adapter sends after a command: a text that ends with the prompt; a text without prompt, then nothing until
the timeout; or a text without prompt, then the connection breaks. -/
inductive Sent where
  | prompt (body : Bytes)
  | silence (body : Bytes)
  | broken (body : Bytes)

/-- The text before the prompt, the silence or the break. -/
def Sent.body : Sent → Bytes
  | .prompt b => b
  | .silence b => b
  | .broken b => b

/-- `cs` is a way of cutting `b` into chunks. -/
def Cut (b : Bytes) (cs : List Bytes) : Prop := cs.flatten = b ∧ ∀ c ∈ cs, c ≠ []

/-- `reads` are outcomes of successive reads from the port by which `x` can arrive.  A timeout is a read without bytes. -/
def Arrives (x : Sent) (reads : List (Option Bytes)) : Prop :=
  (0x3E : UInt8) ∉ x.body ∧ ∃ cs rest, match x with
    | .prompt b => Cut (b ++ [0x3E]) cs ∧ reads = cs.map some ++ rest
    | .silence b => Cut b cs ∧ (reads = cs.map some ∨ reads = cs.map some ++ some [] :: rest)
    | .broken b => Cut b cs ∧ reads = cs.map some ++ none :: rest

/-- Two adapters that always send the same bytes and differ in the chunks only. -/
structure SameBytes (d1 d2 : Device) : Prop where
  openPort : d1.openPort = d2.openPort
  setBaud : d1.setBaud = d2.setBaud
  probe : d1.probe = d2.probe
  write : d1.write = d2.write
  reads : ∀ h, ∃ x, Arrives x (d1.read h) ∧ Arrives x (d2.read h)

/-- The call is not `low_power()`, which reads until OK arrives, not until the prompt. -/
def Call.notLow : Call → Bool
  | .lowPower => false
  | _ => true

/-- The method is not `low_power()`. -/
def notLowOp : AOp → Bool
  | .lowPower => false
  | _ => true

end Spec
