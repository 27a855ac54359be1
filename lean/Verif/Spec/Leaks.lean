import Verif.Spec.Session
/-!
# Specification: open serial ports
-/
namespace Spec
open Py Model

/-- The number of attempts to open a port. -/
def openAttempts (h : History) : Nat := h.countP (fun e => match e with
  | .open_ _ _ => true
  | _ => false)

/-- The number of ports that were opened. -/
def portsOpened (h : History) : Nat := h.countP (fun e => match e with
  | .open_ _ none => true
  | _ => false)

/-- The number of ports that were closed. -/
def portsClosed (h : History) : Nat := h.countP (fun e => match e with
  | .close => true
  | _ => false)

/-- The number of ports that the object uses. -/
def inUse (s : OW) : Nat := if ObdM.status s = .notConnected then 0 else 1

end Spec
