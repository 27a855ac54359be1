import Verif.Spec.Serial
/-!
# Specification: one request at a time
-/
namespace Spec
open Py Model

/-- Two lines are never written in a row: after a line was written the reply is read, or the port is closed, before the next
line is written.  Only the blank that wakes the adapter up right after the port was opened may be followed by a line at once. -/
def OneAtATime (h : History) : Prop :=
  ∀ (a : History) (b1 : Bytes) (o1 : Bool) (b2 : Bytes) (o2 : Bool) (c : History), h = a ++ .write b1 o1 :: .write b2 o2 :: c →
    b1 = line (ascii " ") ∧ ∃ a' p, a = a' ++ [.open_ p none]

end Spec
