import Verif.Spec.Exchange
import Verif.Spec.Commands
import Verif.Spec.Bytes
/-!
# Specification: the commands that a car announces

Shared with the model: the methods of `commands` (`pid_getters`, `base_commands`,
`commands[mode]`), the attributes `mode` and `pid` of a command, and the parser of replies.
-/
namespace Spec
open Py Model

/-- The names of the PID listing commands, in the order in which they are asked. -/
def listingNames : List String :=
  ["PIDS_A", "PIDS_B", "PIDS_C", "MIDS_A", "MIDS_B", "MIDS_C", "MIDS_D", "MIDS_E", "MIDS_F", "PIDS_9A"]

/-- The names of the commands that are taken for supported without asking. -/
def baseNames : List String :=
  ["PIDS_A", "PIDS_9A", "MIDS_A", "GET_DTC", "CLEAR_DTC", "GET_CURRENT_DTC", "ELM_VERSION", "ELM_VOLTAGE"]

/-- `m` is the first message from an ECU that the command listens to. -/
def FirstFor (c : OBDCommand) (ms : List Message) (m : Message) : Prop :=
  ∃ a b, ms = a ++ m :: b ∧ Overlap c.ecu m.ecu ∧ ∀ x ∈ a, ¬ Overlap c.ecu x.ecu

/-- Bit `i` of the listing in `data` is set: the bits of the bytes after the first two, most
significant first, as far as the command expects bytes (0 means any number). -/
def BitSet (c : OBDCommand) (data : Bytes) (i : Nat) : Prop :=
  ∃ b, data[2 + i / 8]? = some b ∧ (c.bytes = 0 ∨ 2 + i / 8 < c.bytes) ∧ bitOf b (7 - i % 8) = true

/-- `commands[mode][pid]` is the command `d`. -/
def Entry (mode pid : Nat) (d : OBDCommand) : Prop :=
  ∃ row c, getMode mode = .ok row ∧ row[pid]? = some (some c) ∧ c.eq d = true

/-- The reply `lines` to the PID listing command `g` (parsed with the protocol `o`) announces
the command `d`: the listing has a bit for it.  Mode 02 is announced together with mode 01. -/
def Offers (o : ProtoObj) (g : OBDCommand) (lines : List Str) (d : OBDCommand) : Prop :=
  ∃ ms m i mode pid, o.call lines = .ok ms ∧ FirstFor g ms m ∧ BitSet g m.data i ∧
    g.mode = .ok (some mode) ∧ g.pid = .ok (some pid) ∧
    (Entry mode (pid + i + 1) d ∨ mode = 1 ∧ Entry 2 (pid + i + 1) d)

/-- Mode 06 is only used on the ISO 15765-4 protocols. -/
def Usable (o : ProtoObj) (g : OBDCommand) : Prop :=
  g.mode = .ok (some 6) → o.cls.elmId ∈ ["6".toList, "7".toList, "8".toList, "9".toList]

end Spec
