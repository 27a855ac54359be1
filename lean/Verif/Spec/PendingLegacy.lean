import Verif.Spec.TroubleCodes
/-!
# Specification: what is left of a mode 07 answer on the older protocols (C69)
-/
namespace Spec
open Py Model

/-- What the library keeps of the lines (47 and three codes each) of one ECU:

* of a single line, all but the mode and the first byte of the first code;
* of several lines, nothing, unless the second bytes of the first codes of the lines happen to be 1, 2, ..., n;
* in that case, what follows these bytes, the lines being taken in the order of these numbers. -/
inductive LeftOver (frames : List Bytes) : Bytes → Prop
  | one (d : Bytes) (h : frames = [d]) : LeftOver frames (d.drop 2)
  | dropped (h2 : 2 ≤ frames.length) (h : ¬ (frames.map (fun d => (d.getD 2 0).toNat)).Perm (List.range' 1 frames.length)) : LeftOver frames []
  | joined (h2 : 2 ≤ frames.length) (sorted : List Bytes) (hp : frames.Perm sorted)
      (h : sorted.map (fun d => (d.getD 2 0).toNat) = List.range' 1 frames.length) : LeftOver frames (sorted.flatMap (List.drop 3))

end Spec
