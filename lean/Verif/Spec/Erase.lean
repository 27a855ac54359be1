import Verif.Spec.Session
/-!
# Specification: erasing trouble codes

An ELM327 ignores spaces, and repeats its last command when it gets an empty line.  Request 04
erases all trouble codes and freeze frames.
-/
namespace Spec
open Py Model

/-- The adapter takes the line for an empty one. -/
def blankLine (b : Bytes) : Bool := b.all (fun x => x = 0x20 || x = 0x0D)

/-- The line is a request of service 04. -/
def erasing (b : Bytes) : Bool := (b.filter (fun x => x ≠ 0x20)).take 2 == ascii "04"

/-- The last command that the adapter got, and how often it was told to erase so far.  When a port was
just opened nothing is known about the last command (`none`): repeating it may erase. -/
def eraseStep : Option Bytes × Nat → Event → Option Bytes × Nat
  | (last, n), .write b _ =>
    if blankLine b then (last, n + if last.elim true erasing then 1 else 0)
    else (some b, n + if erasing b then 1 else 0)
  | (_, n), .open_ _ _ => (none, n)
  | st, _ => st

/-- How often the adapter was told (or may have been told) to erase trouble codes. -/
def erasures (h : History) : Nat := (h.foldl eraseStep (none, 0)).2

/-- How many of the calls are queries of service 04. -/
def eraseCalls (calls : List Call) : Nat := calls.countP (fun c => match c with
  | .query c _ => erasing c.command
  | _ => false)

/-- A queried command is a single line of at least two characters, as every OBD request and AT command is. -/
def TwoChars : Call → Prop
  | .query c _ => 0x0D ∉ c.command ∧ 2 ≤ (c.command.filter (fun x => x ≠ 0x20)).length
  | _ => True

end Spec
