import Verif.Spec.Async
/-!
# Specification: subscriptions as the code keeps them

As in `Verif.Spec.Async`, except that `unwatch(c, callback)` with a callback that is not subscribed drops the command with all its
callbacks (C57).
-/
namespace Spec
open Py Model

/-- How an event changes the subscription of the command with key `k`. -/
def Sub.nextA (k : CmdKey) (x : Sub) : Ev → Sub
  | .did (.unwatch c (some j)) =>
    if c.key = k then
      match x with
      | none => none
      | some (l, r) => if j ∈ l ∧ l.erase j ≠ [] then some (l.erase j, r) else none
    else x
  | e => Sub.next k x e

/-- The subscription of a command after a history. -/
def subA (k : CmdKey) (log : List Ev) : Sub := log.foldl (Sub.nextA k) none

/-- The callbacks still to be called after `e`, if after `done` they were `d`. -/
def nextDueA (done : List Ev) (d : List (Nat × Response)) : Ev → List (Nat × Response)
  | .stored c r => match subA c.key done with
    | some (l, _) => l.map (fun j => (j, r))
    | none => []
  | .fired _ _ => d.tail
  | .ended _ => []
  | _ => d

def dueAuxA (done : List Ev) (d : List (Nat × Response)) : List Ev → List (Nat × Response)
  | [] => d
  | e :: rest => dueAuxA (done ++ [e]) (nextDueA done d e) rest

/-- The callbacks still to be called after a history. -/
def dueA (log : List Ev) : List (Nat × Response) := dueAuxA [] [] log

end Spec
