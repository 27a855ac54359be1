import Verif.Spec.Async
/-!
# Specification: how the update loop ended

Shared with the model: the events recorded in the log.
-/
namespace Spec
open Py Model

def lastEndNext (x : Option End) : Ev → Option End
  | .started => none
  | .ended e => some e
  | _ => x

/-- How the last update thread ended; `none` if it has not ended. -/
def lastEnd (log : List Ev) : Option End := log.foldl lastEndNext none

/-- How many queries the loop made in a history. -/
def queries (log : List Ev) : Nat := log.countP (fun e => match e with
  | .queried _ => true
  | _ => false)

/-- How many responses the loop got in a history. -/
def responses (log : List Ev) : Nat := log.countP (fun e => match e with
  | .stored _ _ => true
  | _ => false)

end Spec
