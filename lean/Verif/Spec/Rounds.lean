import Verif.Spec.AsyncActual
/-!
# Specification: the rounds of the update loop

Shared with the model: the events recorded in the log.
-/
namespace Spec
open Py Model

def askedNext (l : List CmdKey) : Ev → List CmdKey
  | .started => []
  | .slept => []
  | .queried c => l ++ [c.key]
  | _ => l

/-- The commands asked for since the update thread began or last slept, in order. -/
def askedFor (log : List Ev) : List CmdKey := log.foldl askedNext []

def gotNext (l : List CmdKey) : Ev → List CmdKey
  | .started => []
  | .slept => []
  | .stored c _ => l ++ [c.key]
  | _ => l

/-- The commands for which a response was stored since then, in order. -/
def got (log : List Ev) : List CmdKey := log.foldl gotNext []

/-- The watch list after `e`, if after `done` it was `l`: a new command comes last, and one that is no longer subscribed leaves
(`subA`: `unwatch(c, callback)` with a callback that is not subscribed drops the command, C57). -/
def watchedNext (done : List Ev) (l : List CmdKey) (e : Ev) : List CmdKey :=
  match e with
  | .did (.watch c _ _) => if c.key ∈ l then l else l ++ [c.key]
  | .did (.unwatch c _) => if (subA c.key (done ++ [e])).isSome then l else l.erase c.key
  | .did .unwatchAll => []
  | _ => l

def watchedAux (done : List Ev) (l : List CmdKey) : List Ev → List CmdKey
  | [] => l
  | e :: rest => watchedAux (done ++ [e]) (watchedNext done l e) rest

/-- The watched commands after a history, in the order in which they were subscribed. -/
def watched (log : List Ev) : List CmdKey := watchedAux [] [] log

end Spec
