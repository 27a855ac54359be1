import Verif.Model.Async
import Verif.Spec.Session
/-!
# Specification: the asynchronous connection

Shared with the model: the steps and the events recorded in the log.  What the log must look
like is said here without reference to the attributes of the object.
-/
namespace Spec
open Py Model

/-- `s` can be reached by some schedule in which every action satisfies `ok`, from an `Async`
object that was just constructed. -/
inductive AReach (dev : Device) (fl : Str → Option PyFloat) (ok : AW → Action → Prop) : AW → Prop
  | init (a : Args) (o : OW) (h : Constructed dev fl a o) : AReach dev fl ok { obd := o }
  | step (s : AW) (a : Action) (s' : AW) (h : AReach dev fl ok s) (hok : ok s a) (hs : s.step dev fl a = some s') :
      AReach dev fl ok s'

/-- Callbacks may do whatever they like. -/
def anyCallback : AW → Action → Prop := fun _ _ => True

/-- Callbacks do not stop, pause or close the connection, and do not change the subscriptions
after the loop has been told to stop. -/
def politeCallback : AW → Action → Prop
  | s, .cb _ op => match op with
    | .stop => False
    | .enter => False
    | .exit => False
    | .close => False
    | .watch .. => s.running = true
    | .unwatch .. => s.running = true
    | .unwatchAll => s.running = true
    | _ => True
  | _, _ => True

/-- An update thread that may still do something. -/
def Pc.active : Pc → Bool
  | .notStarted => false
  | .finished _ => false
  | _ => true

/-- Thread `t` may still do something. -/
def Active (s : AW) (t : Nat) : Prop := ∃ pc, s.threads[t]? = some pc ∧ Pc.active pc = true

/-- The loop at work. -/
def Ev.work : Ev → Bool
  | .queried _ => true
  | .stored _ _ => true
  | .fired _ _ => true
  | _ => false

/-- Calls after which the loop may run again. -/
def Ev.mayStart : Ev → Bool
  | .call .start => true
  | .call .exit => true
  | _ => false

/-- One command and its subscription: `none` if it is not watched, else the subscribed
callbacks in order and the latest response. -/
abbrev Sub := Option (List Nat × Response)

/-- How an event changes the subscription of the command with key `k`. -/
def Sub.next (k : CmdKey) (x : Sub) : Ev → Sub
  | .did (.watch c cb _) =>
    if c.key = k then
      match x, cb with
      | none, none => some ([], {})
      | none, some j => some ([j], {})
      | some y, none => some y
      | some (l, r), some j => some (if j ∈ l then l else l ++ [j], r)
    else x
  | .did (.unwatch c cb) =>
    if c.key = k then
      match x, cb with
      | none, _ => none
      | some _, none => none                                     -- everything is dropped
      | some (l, r), some j =>
        if j ∈ l then (if l.erase j = [] then none else some (l.erase j, r))  -- the last callback takes the command with it
        else some (l, r)
    else x
  | .did .unwatchAll => none
  | .stored c r => if c.key = k then x.map (fun y => (y.1, r)) else x
  | _ => x

/-- The subscription of a command after a history. -/
def sub (k : CmdKey) (log : List Ev) : Sub := log.foldl (Sub.next k) none

/-- `unwatch(c, callback)` was only used with callbacks that were subscribed. -/
def Sane (log : List Ev) : Prop :=
  ∀ a c j b, log = a ++ .did (.unwatch c (some j)) :: b → ∀ l r, sub c.key a = some (l, r) → j ∈ l

/-- The callbacks still to be called after `e`, if after `done` they were `d`. -/
def nextDue (done : List Ev) (d : List (Nat × Response)) : Ev → List (Nat × Response)
  | .stored c r => match sub c.key done with
    | some (l, _) => l.map (fun j => (j, r))
    | none => []
  | .fired _ _ => d.tail
  | .ended _ => []
  | _ => d

def dueAux (done : List Ev) (d : List (Nat × Response)) : List Ev → List (Nat × Response)
  | [] => d
  | e :: rest => dueAux (done ++ [e]) (nextDue done d e) rest

/-- The callbacks still to be called after a history: after each new response those subscribed
for its command, in order, each once. -/
def due (log : List Ev) : List (Nat × Response) := dueAux [] [] log

/-- Sequences of calls: blocks of `paused()` are properly nested, and the loop is not
otherwise started or stopped. -/
inductive Balanced : List AOp → Prop
  | nil : Balanced []
  | watch (c cb force rest) (h : Balanced rest) : Balanced (.watch c cb force :: rest)
  | unwatch (c cb rest) (h : Balanced rest) : Balanced (.unwatch c cb :: rest)
  | unwatchAll (rest) (h : Balanced rest) : Balanced (.unwatchAll :: rest)
  | query (c rest) (h : Balanced rest) : Balanced (.query c :: rest)
  | paused (body rest) (hb : Balanced body) (h : Balanced rest) : Balanced (.enter :: (body ++ .exit :: rest))

/-- Calls that neither start nor stop the loop. -/
def AOp.plain : AOp → Bool
  | .watch .. => true
  | .unwatch .. => true
  | .unwatchAll => true
  | .query _ => true
  | _ => false

/-- What a call does to the pair (the loop is running, it was running when `paused()` was last entered), on a live connection with
something watched. -/
def switched : Bool × Bool → AOp → Bool × Bool
  | (_, w), .start => (true, w)
  | (_, w), .stop => (false, w)
  | (r, _), .enter => (false, r)
  | (r, w), .exit => (r || w, w)
  | x, _ => x

/-- The same, whether or not something is watched when the call is made. -/
def switchedBy (watched : Bool) : Bool × Bool → AOp → Bool × Bool
  | (r, w), .start => (r || watched, w)
  | (_, w), .stop => (false, w)
  | (r, _), .enter => (false, r)
  | (r, w), .exit => (r || (w && watched), w)
  | (_, w), .close => (false, w)
  | x, _ => x

/-- Calls that neither remove subscriptions nor close the connection. -/
def AOp.keeps : AOp → Bool
  | .unwatch .. => false
  | .unwatchAll => false
  | .close => false
  | _ => true

/-- A schedule leads from `s` to `s'`. -/
inductive ARun (dev : Device) (fl : Str → Option PyFloat) (ok : AW → Action → Prop) : AW → List Action → AW → Prop
  | nil (s : AW) : ARun dev fl ok s [] s
  | snoc (s : AW) (as : List Action) (s1 : AW) (a : Action) (s2 : AW) (h : ARun dev fl ok s as s1) (hok : ok s1 a)
      (hs : s1.step dev fl a = some s2) : ARun dev fl ok s (as ++ [a]) s2

/-- The calls that the user makes in a schedule. -/
def userCalls (as : List Action) : List AOp := as.filterMap (fun a => match a with
  | .call op => some op
  | _ => none)

/-- An infinite run that is fair: whenever the user's thread could go on it eventually does, an
update thread that has not ended eventually does its next step, and callbacks eventually
return (or raise). -/
structure FairRun (dev : Device) (fl : Str → Option PyFloat) (run : Nat → AW) (act : Nat → Action) : Prop where
  start : AReach dev fl politeCallback (run 0)
  polite : ∀ n, politeCallback (run n) (act n)
  step : ∀ n, (run n).step dev fl (act n) = some (run (n + 1))
  user : ∀ n, (∀ m ≥ n, (run m).step dev fl .caller ≠ none) → ∃ m ≥ n, act m = .caller
  thread : ∀ (t : Nat) n, (∀ m ≥ n, Active (run m) t) → ∃ m ≥ n, act m = .daemon t ∨ ∃ ok, act m = .cbEnd t ok

/-- The callbacks subscribed for a command; `none` if it is not watched. -/
def subscribers (s : AW) (c : OBDCommand) : Option (List Nat) :=
  if s.commands.mem c.key then s.callbacks.get? c.key else none

end Spec
