import Verif.Spec.Exchange
import Verif.Spec.Session
/-!
# Specification: the amount of I/O
-/
namespace Spec
open Py Model

/-- How often the library waited for a reply (each time until the prompt or a timeout). -/
def waits (h : History) : Nat := h.countP (fun e => match e with
  | .read _ => true
  | _ => false)

/-- How many baud rates were tried. -/
def ratesTried (h : History) : Nat := h.countP (fun e => match e with
  | .probe _ _ => true
  | _ => false)

/-- The number of ports that a constructor call may try. -/
def portsToTry (a : Args) : Nat := if a.portstr = none then a.ports.length else 1

end Spec
namespace Spec
open Py Model

/-- The last thing that happened is that `lines` arrived. -/
def JustRead (h : History) (lines : List Str) : Prop := ∃ pre b, h = pre ++ [.read (some b)] ∧ LinesOf b lines

/-- A query of `c` would be sent. -/
def Goes (s : OW) (c : OBDCommand) (force : Bool) : Prop := force = true ∨ ObdM.testCmd s c = .ok true

/-- Both objects speak the same protocol and know the same ECUs. -/
def SameCar (s s' : OW) : Prop := ∃ e e', s.interface = some e ∧ s'.interface = some e' ∧ e.protocol = e'.protocol

end Spec
