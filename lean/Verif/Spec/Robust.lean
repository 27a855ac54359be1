import Verif.Spec.Exchange
import Verif.Spec.Tracking
import Verif.Spec.Commands
/-!
# Specification: failures of calls
-/
namespace Spec
open Py Model

/-- An object without a connection. -/
structure Closed (s : OW) : Prop where
  status : ObdM.status s = .notConnected
  supported : ∀ c, ObdM.supports s c = false
  port : ObdM.portName s = []
  protoId : ObdM.protocolId s = .ok []
  protoName : ObdM.protocolName s = .ok []

/-- Replies on which the parser fails: on CAN, one ECU sent the lone byte 43; on the older
protocols, one ECU sent several lines of one mode, not 43, one of them too short. -/
def Trips (p : Proto) (lines : List Str) : Prop :=
  (∃ n t, p.family = .can n ∧ Assembles (framesBy p t lines) [0x43]) ∨
  (p.family = .legacy ∧ ∃ t mode, 2 ≤ (framesBy p t lines).length ∧ mode ≠ 0x43 ∧
    (∀ d ∈ framesBy p t lines, d.head? = some mode) ∧ ∃ d ∈ framesBy p t lines, d.length < 3)

/-- The class of the protocol of the connection. -/
def protocolOf (s : OW) : Option Proto := s.interface.bind (fun e => e.protocol.map ProtoObj.cls)

/-- The last thing that happened between `s` and `s'`: the adapter gave a reply to `cmd` on which the parser fails. -/
def BadReply (s s' : OW) (cmd : Bytes) : Prop :=
  ∃ p evs lines, protocolOf s = some p ∧ s'.hist = s.hist ++ evs ∧ Ends evs cmd lines ∧ Trips p lines

/-- The last thing that happened between `s` and `s'`: the (first) answer of the addressed ECU is a secondary air status with a single reserved bit. -/
def BadAir (s s' : OW) (c : OBDCommand) (cmd : Bytes) : Prop :=
  (c.name = "AIR_STATUS" ∨ c.name = "DTC_AIR_STATUS") ∧
  ∃ e o evs lines ms before m after x y A, s.interface = some e ∧ e.protocol = some o ∧ s'.hist = s.hist ++ evs ∧ Ends evs cmd lines ∧ o.call lines = .ok ms ∧
    ms = before ++ m :: after ∧ (∀ b ∈ before, ¬ Overlap c.ecu b.ecu) ∧ Overlap c.ecu m.ecu ∧ fit 3 m.data = [x, y, A] ∧ A.toNat ∈ [0x10, 0x20, 0x40, 0x80]

/-- The connection was lost between `s` and `s'` while changing the header to `hd`. -/
def LostAtHeader (s s' : OW) (hd : Bytes) : Prop :=
  ∃ evs pre, s'.hist = s.hist ++ evs ∧ (pre = [] ∨ pre = [ascii " "]) ∧ Broken evs (pre ++ [headerLine hd])

/-- A query of a command of the tables. -/
def TableCall : Call → Prop
  | .query c _ => c ∈ allCommands
  | _ => True

end Spec
