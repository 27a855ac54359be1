import Verif.Spec.Robust
import Verif.Spec.Ecus
import Verif.Spec.Legacy
/-!
# Specification: from the question to the value
-/
namespace Spec
open Py Model

/-- Among the lines, the ECU `t` says `payload`, in one of the ways of the protocol: in a single
CAN frame, in a segmented CAN message, in one line of an older protocol, or in numbered lines.
All other lines are arbitrary. -/
inductive Says (p : Proto) (t : Nat) (payload : Bytes) (lines : List Str) : Prop
  | single (e : Sender) (on : e.On p) (he : e.ecu = t) (pad : Bytes) (h1 : 1 ≤ payload.length)
      (h7 : payload.length + pad.length ≤ 7) (s : Str) (hs : CanLine e (singleFrame payload pad) s)
      (own : lines.filter (sentBy p t) = [s])
  | segmented (e : Sender) (on : e.On p) (he : e.ecu = t) (pad : Bytes) (hseg : Segmentable payload pad)
      (recvd : List (Str × Nat)) (hr : Received e payload pad recvd)
      (horder : recvd.map Prod.snd = List.range (consecutiveCount payload + 1))
      (own : lines.filter (sentBy p t) = recvd.map Prod.fst)
  | oneLine (hp : IsLegacy p) (own : framesBy p t lines = [payload])
  | numbered (hp : IsLegacy p) (mode pid : UInt8) (part : Nat → Bytes) (n : Nat) (h2 : 2 ≤ n) (hn : n ≤ 255)
      (own : (framesBy p t lines).Perm ((List.range' 1 n).map (numberedLine mode pid part)))
      (hd : payload = [mode, pid] ++ (List.range' 1 n).flatMap part)

/-- `t` is the engine, given the reply `r` to `0100` (the standard address if nobody said anything). -/
def EngineFor (p : Proto) (r : List Str) (t : Nat) : Prop :=
  ∃ ms, p.call p.defaultMap r = .ok ms ∧
    (IsEngine p ms t ∨ (∀ t' d, ¬ Answered ms t' d) ∧ standardEngine p = some t)

/-- `s` is connected to a car under protocol `p`; `r` was the reply to the `0100` request. -/
def ConnectedTo (fl : Str → Option PyFloat) (a : Args) (s : OW) (p : Proto) (r : List Str) : Prop :=
  ∃ pre evs later rate xs, s.hist = pre ++ evs ++ later ∧ NoOpen later ∧
    Connects fl (ObdM.portName s) a.cfg evs rate xs p.elmId r ∧ protocolOf s = some p

/-- No ECU but `t` can be taken for the engine: the standard address, if it is not `t`, is silent. -/
def NoImpostor (p : Proto) (t : Nat) (lines : List Str) : Prop :=
  ∀ e, standardEngine p = some e → e ≠ t → framesBy p e lines = []

/-- `data` answers a request of mode `mode` and PID `pid`: mode + 40, PID. -/
def AnswersTo (mode pid : Nat) (data : Bytes) : Prop :=
  ∃ a b rest, data = a :: b :: rest ∧ a.toNat = mode + 0x40 ∧ b.toNat = pid

end Spec
