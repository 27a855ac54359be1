import Verif.Spec.Exchange
/-!
# Specification: the header in force when the adapter may refuse headers
-/
namespace Spec
open Py Model

/-- The header in force is `hd`: it was set, with `OK` in the reply, and since then no other change of the header was answered with
just `OK` (7E0 as long as none was). -/
def InForce (h : History) (hd : Bytes) : Prop :=
  hd = ascii "7E0" ∧ ¬ SomeAck h ∨
  ∃ (pre : History) (bs : List Bytes) (b : Bytes) (lines : List Str) (post : History),
    h = pre ++ .write (line (headerLine hd)) true :: (bs.map (fun b => Event.read (some b)) ++ .read (some b) :: post) ∧
    (∀ x ∈ bs, LinesOf x []) ∧ LinesOf b lines ∧ "OK".toList ∈ lines ∧ ¬ SomeAck post

/-- In `h` the header `hd` was asked for, and in the end the reply was not just `OK`. -/
def Refused (h : History) (hd : Bytes) : Prop := ∃ lines, lines ≠ ["OK".toList] ∧ FinalReply h (headerLine hd) lines

end Spec
