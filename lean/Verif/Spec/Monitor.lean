import Verif.Model.Command
/-!
# Specification: mode 06 monitor replies

After the mode byte, a reply is a sequence of 9-byte blocks: monitor ID, test ID,
units-and-scaling ID, and two bytes each for value, minimum and maximum.
Shared with the model: the public tables `UAS_IDS` (and its conversions, see C30) and
`TEST_IDS`, and the attributes of `MonitorTest`.
-/
namespace Spec
open Py Model

structure Block where
  tid : UInt8
  uas : UInt8
  value : Bytes
  min : Bytes
  max : Bytes

/-- The complete blocks of a reply (without its mode byte). -/
def blocks : Bytes → List Block
  | _ :: t :: u :: v1 :: v2 :: l1 :: l2 :: h1 :: h2 :: rest =>
    { tid := t, uas := u, value := [v1, v2], min := [l1, l2], max := [h1, h2] } :: blocks rest
  | _ => []

/-- The units-and-scaling ID of a block is in the table. -/
def Block.known (b : Block) : Bool := (Dict.get? uasTable b.uas.toNat).isSome

/-- The name and description of a test. -/
def testName (tid : UInt8) : String × String := (Dict.get? testIds tid.toNat).getD ("Unknown", "Unknown")

/-- `t` is the result described by the block `b`. -/
def Reports (b : Block) (t : MonitorTest) : Prop :=
  t.tid = some b.tid.toNat ∧ t.name = some (testName b.tid).1 ∧ t.desc = some (testName b.tid).2 ∧
  ∃ e v lo hi, Dict.get? uasTable b.uas.toNat = some e ∧
    e.call b.value = .ok v ∧ e.call b.min = .ok lo ∧ e.call b.max = .ok hi ∧
    t.value = some v ∧ t.min = some lo ∧ t.max = some hi

end Spec
