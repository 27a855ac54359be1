import Verif.Spec.Verdict
/-!
# Specification: the printed report of a monitor
-/
namespace Spec
open Py Model

/-- The lines of a text. -/
def textLines : Str → List Str
  | [] => [[]]
  | c :: s =>
    if c = '\n' then [] :: textLines s
    else match textLines s with
      | [] => [[c]]
      | l :: ls => (c :: l) :: ls

open Classical in
/-- The line for a block whose value prints as `v`: description, value, verdict. -/
noncomputable def Block.line (b : Block) (v : Str) : Str :=
  (testName b.tid).2.toList ++ " : ".toList ++ v ++ (if b.within then " [PASSED]".toList else " [FAILED]".toList)

end Spec
