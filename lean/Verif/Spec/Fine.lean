import Verif.Spec.Async
import Verif.Model.Fine
/-!
# Specification: schedules in which single steps of all threads interleave
-/
namespace Spec
open Py Model

/-- The states reached from a constructed connection by any schedule whose actions satisfy `ok`. -/
inductive FReach (dev : Device) (fl : Str → Option PyFloat) (ok : AW → Action → Prop) : FW → Prop
  | init (a : Args) (o : OW) (h : Constructed dev fl a o) : FReach dev fl ok { aw := { obd := o } }
  | step (f : FW) (a : Action) (f' : FW) (h : FReach dev fl ok f) (hok : ok f.aw a) (hs : f.step dev fl a = some f') :
      FReach dev fl ok f'

/-- `low_power()` or `normal_power()` -/
def AOp.isPower : AOp → Bool
  | .lowPower => true
  | .normalPower => true
  | _ => false

/-- The user calls `low_power()` and `normal_power()` only while there is no update thread: before `start()` or after `stop()`. -/
def carefulUser : AW → Action → Prop
  | s, .call op => AOp.isPower op = true → s.thread = none
  | _, _ => True

/-- A call to the connection is under way on the user's thread, on update thread `t`. -/
def FW.userTalks (f : FW) : Prop := f.user ≠ none
def FW.talks (f : FW) (t : Nat) : Prop := f.jobs t ≠ none

end Spec
