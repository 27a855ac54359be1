import Verif.Spec.Async
/-!
# Specification: an asynchronous connection is a synchronous one
-/
namespace Spec
open Py Model

/-- The commands that a sequence of calls queries, in order. -/
def asked (calls : List Call) : List OBDCommand := calls.filterMap (fun k => match k with
  | .query c _ => some c
  | _ => none)

/-- The responses of the queries that return, in order. -/
def answers (dev : Device) (fl : Str → Option PyFloat) : List Call → OW → List (OBDCommand × Response)
  | [], _ => []
  | .query c force :: rest, s => match ObdM.query dev fl c force s with
    | (.ok r, s') => (c, r) :: answers dev fl rest s'
    | (.error _, s') => answers dev fl rest s'
  | k :: rest, s => answers dev fl rest (k.after dev fl s)

/-- The commands that the update loop queried, in order. -/
def loopAsked (log : List Ev) : List OBDCommand := log.filterMap (fun e => match e with
  | .queried c => some c
  | _ => none)

/-- The responses that the update loop stored, in order. -/
def loopStored (log : List Ev) : List (OBDCommand × Response) := log.filterMap (fun e => match e with
  | .stored c r => some (c, r)
  | _ => none)

/-- The calls that a schedule can give rise to: forced queries by the loop, power calls made by
the user or by a callback, and `close()` called by the user. -/
def Causes (as : List Action) : Call → Prop
  | .query _ force => force = true
  | .lowPower => .call .lowPower ∈ as ∨ ∃ t, .cb t .lowPower ∈ as
  | .normalPower => .call .normalPower ∈ as ∨ ∃ t, .cb t .normalPower ∈ as
  | .close => .call .close ∈ as

end Spec
