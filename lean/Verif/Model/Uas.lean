import Verif.Model.Value
/-!
# Model of the class `UAS`, obd/UnitsAndScaling.py:46-67
-/
namespace Model
open Py

/-- The scale factor of a `UAS`, obd/UnitsAndScaling.py:52-56: a Python int, or a decimal float literal (given exactly). -/
inductive UasScale where
  | int (n : Nat)
  | dec (q : Rat)
  deriving DecidableEq, Repr

/-- An entry of `UAS_IDS`: a `UAS` object, or the lambda of 0x2E
(obd/UnitsAndScaling.py:117). -/
inductive UasEntry where
  | lin (signed : Bool) (scale : UasScale) (unit : String) (offset : Rat)
  | anyBit
  deriving DecidableEq, Repr

/-- `UAS.__call__`, obd/UnitsAndScaling.py:58-67, and the lambda of 0x2E.  An int scale
multiplies exactly; a float scale converts the reading to float first; the (float) offset
always makes the result a float. -/
def UasEntry.call : UasEntry → Bytes → Except Exc UasValue
  | .anyBit, bs => .ok (.bool (bs.any (fun b => b != 0)))
  | .lin signed scale unit offset, bs => do
    let v : Int := bytesToInt bs
    let v : Int ← if signed then twosComp (bytesToInt bs) (bs.length * 8) else pure v
    let f : Rat ← match scale with
      | .int n => toFloat (v * n)
      | .dec q => (toFloat v).map (fun x => fmul x (rnd q))
    return .qty (fadd f (rnd offset)) unit

end Model
