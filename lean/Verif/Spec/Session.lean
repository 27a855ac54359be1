import Verif.Model.Obd
import Verif.Spec.Dialogue
/-!
# Specification: histories of calls on an `OBD` object

Shared with the model: the methods themselves and the events of the I/O history.
-/
namespace Spec
open Py Model

/-- A call of the user. -/
inductive Call where
  | query (c : OBDCommand) (force : Bool)
  | lowPower
  | normalPower
  | close

/-- The object after a call, whether it returned or raised. -/
def Call.after (dev : Device) (fl : Str → Option PyFloat) : Call → OW → OW
  | .query c force, s => (ObdM.query dev fl c force s).2
  | .lowPower, s => (ObdM.lowPower dev s).2
  | .normalPower, s => (ObdM.normalPower dev s).2
  | .close, s => (ObdM.close dev s).2

/-- The object after several calls. -/
def session (dev : Device) (fl : Str → Option PyFloat) (calls : List Call) (s : OW) : OW :=
  calls.foldl (fun s c => c.after dev fl s) s

/-- The arguments of `OBD(...)`, and the ports that a scan would find. -/
structure Args where
  ports : List Str := []
  portstr : Option Str := none
  fast : Bool := true
  cfg : ElmM.Config := {}

/-- `s` is what `OBD(...)` returned. -/
def Constructed (dev : Device) (fl : Str → Option PyFloat) (a : Args) (s : OW) : Prop :=
  ObdM.construct dev fl a.ports a.portstr a.fast a.cfg = (.ok (), s)

/-- `s` is an object that the user may hold: some constructor call returned it, and any
calls followed. -/
def Reachable (dev : Device) (fl : Str → Option PyFloat) (s : OW) : Prop :=
  ∃ a s0 calls, Constructed dev fl a s0 ∧ s = session dev fl calls s0

/-- No port is opened in `evs`. -/
def NoOpen (evs : History) : Prop := ∀ e ∈ evs, ∀ p r, e ≠ .open_ p r

end Spec
