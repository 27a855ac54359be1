import Verif.Spec.Session
/-!
# Specification: which port is used

Shared with the model: the constructor of `ELM327` and its `status()`.
-/
namespace Spec
open Py Model

/-- Trying the ports in order, starting after the history `h`: `ELM327` is constructed on each,
until one is connected (to an adapter at least).  The result is that port and the state there,
or `none` if no port worked. -/
inductive Search (dev : Device) (fl : Str → Option PyFloat) (cfg : ElmM.Config) : History → List Str → Option (Str × EW) → Prop
  | exhausted (h : History) : Search dev fl cfg h [] none
  | found {h p rest w} (hc : ElmM.construct dev fl p cfg h = (.ok (), w)) (hs : w.elm.status ≠ .notConnected) :
      Search dev fl cfg h (p :: rest) (some (p, w))
  | next {h p rest w r} (hc : ElmM.construct dev fl p cfg h = (.ok (), w)) (hs : w.elm.status = .notConnected)
      (hr : Search dev fl cfg w.hist rest r) : Search dev fl cfg h (p :: rest) r

/-- What the program does instead: it goes on after a port with a car, and stops at the first
port without one. -/
inductive Actual (dev : Device) (fl : Str → Option PyFloat) (cfg : ElmM.Config) : History → List Str → Str × EW → Prop
  | last {h p w} (hc : ElmM.construct dev fl p cfg h = (.ok (), w)) : Actual dev fl cfg h [p] (p, w)
  | stop {h p rest w} (hc : ElmM.construct dev fl p cfg h = (.ok (), w)) (hs : w.elm.status ≠ .carConnected) :
      Actual dev fl cfg h (p :: rest) (p, w)
  | next {h p rest w r} (hc : ElmM.construct dev fl p cfg h = (.ok (), w)) (hs : w.elm.status = .carConnected)
      (hr : Actual dev fl cfg w.hist rest r) : Actual dev fl cfg h (p :: rest) r

/-- After the state `w` only this connection was used: no port was opened any more, and the
object is connected to the port of `w` or not at all. -/
def StaysOn (w : EW) (s : OW) : Prop :=
  (∃ later, s.hist = w.hist ++ later ∧ NoOpen later) ∧
  (w.elm.status ≠ .notConnected → ∃ e, s.interface = some e ∧ (e.port = w.elm.port ∨ e.port = none ∧ e.status = .notConnected)) ∧
  (w.elm.status = .notConnected → s.interface = none)

/-- The object is connected as the search found: on that port, or not at all. -/
def Chosen (r : Option (Str × EW)) (s : OW) : Prop :=
  match r with
  | none => ObdM.status s = .notConnected
  | some (_, w) => StaysOn w s

end Spec
