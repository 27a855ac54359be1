import Verif.Spec.Session
/-!
# Specification: what a call sends
-/
namespace Spec
open Py Model

/-- The lines given to the serial port, in order (the last one may not have arrived). -/
def sent (h : History) : List Bytes := h.filterMap (fun e => match e with
  | .write b _ => some b
  | _ => none)

/-- The connection was lost while sending `cmd` or waiting for its reply. -/
inductive Abort (cmd : Bytes) : History → Prop
  | onWrite : Abort cmd [.write (line cmd) false, .close]
  | onRead (bs : List Bytes) (h : ∀ x ∈ bs, LinesOf x []) :
      Abort cmd (.write (line cmd) true :: (bs.map (fun b => Event.read (some b)) ++ [.read none, .close]))

/-- The commands `cmds` were to be sent in order, but the connection was lost at one of them. -/
def Broken (evs : History) (cmds : List Bytes) : Prop :=
  ∃ xs c suf e1 e2, cmds = xs.map Prod.fst ++ c :: suf ∧ evs = e1 ++ e2 ∧ Dialogue e1 xs ∧ Abort c e2

/-- The line that sets a header. -/
def headerLine (h : Bytes) : Bytes := ascii "AT SH " ++ h ++ ascii " "

/-- The adapter is asleep: it acknowledged low-power mode, and since then nothing woke it up. -/
def Asleep (h : History) : Prop :=
  ∃ pre b lines post, h = pre ++ .write (line (ascii "ATLP")) true :: .read (some b) :: post ∧
    LinesOf b lines ∧ "OK".toList ∈ lines ∧ NoOpen post ∧ line (ascii " ") ∉ sent post

/-- Calls that do not change the power mode behind the library's back. -/
def PlainCall : Call → Prop
  | .query c _ => c.command ≠ ascii "ATLP" ∧ c.command ≠ ascii " "
  | _ => True

end Spec
namespace Spec
open Py Model

/-- A line that sets a header. -/
def SetsHeader (b : Bytes) : Prop := ∃ h, b = line (headerLine h)

/-- In `h` the adapter acknowledged some header. -/
def SomeAck (h : History) : Prop := ∃ x, Replied h (headerLine x) ["OK".toList]

/-- The last header that the adapter acknowledged is `hd` (7E0 before the first one). -/
def LastAcked (h : History) (hd : Bytes) : Prop :=
  hd = ascii "7E0" ∧ ¬ SomeAck h ∨
  ∃ (pre : History) (bs : List Bytes) (b : Bytes) (post : History),
    h = pre ++ .write (line (headerLine hd)) true :: (bs.map (fun b => Event.read (some b)) ++ .read (some b) :: post) ∧
    (∀ x ∈ bs, LinesOf x []) ∧ LinesOf b ["OK".toList] ∧ ¬ SomeAck post

/-- In the history `h`, the command `cmd` was written, and in the end (no further read follows)
the reply was `lines`. -/
def FinalReply (h : History) (cmd : Bytes) (lines : List Str) : Prop :=
  ∃ (pre : History) (bs : List Bytes) (b : Bytes) (post : History),
    h = pre ++ .write (line cmd) true :: (bs.map (fun b => Event.read (some b)) ++ .read (some b) :: post) ∧
    LinesOf b lines ∧ (∀ x ∈ bs, LinesOf x []) ∧ ∀ r t, post ≠ .read r :: t

/-- The I/O `evs` ends with the command `cmd` and its reply `lines`. -/
def Ends (evs : History) (cmd : Bytes) (lines : List Str) : Prop :=
  ∃ (pre : History) (bs : List Bytes) (b : Bytes),
    evs = pre ++ .write (line cmd) true :: (bs.map (fun b => Event.read (some b)) ++ [.read (some b)]) ∧
    LinesOf b lines ∧ ∀ x ∈ bs, LinesOf x []

/-- Every change of the header that got through was in the end answered `OK`. -/
def Obedient (h : History) : Prop := ∀ x lines, FinalReply h (headerLine x) lines → lines = ["OK".toList]

/-- Calls that do not change the header or the power mode behind the library's back. -/
def OrdinaryCall : Call → Prop
  | .query c _ => ¬ (∃ t, c.command = ascii "AT SH " ++ t) ∧ c.command ≠ ascii " "
  | _ => True

end Spec
namespace Spec
open Py Model

/-- `calls` took the object from `s` to `s'`, and every query among them returned. -/
inductive Ran (dev : Device) (fl : Str → Option PyFloat) : OW → List Call → OW → Prop
  | nil (s : OW) : Ran dev fl s [] s
  | query (s : OW) (c : OBDCommand) (force : Bool) (r : Response) (s1 : OW) (calls : List Call) (s' : OW)
      (hq : ObdM.query dev fl c force s = (.ok r, s1)) (h : Ran dev fl s1 calls s') : Ran dev fl s (.query c force :: calls) s'
  | other (s : OW) (call : Call) (calls : List Call) (s' : OW) (hc : ∀ c force, call ≠ .query c force)
      (h : Ran dev fl (call.after dev fl s) calls s') : Ran dev fl s (call :: calls) s'

/-- Lines that are not commands of a query: the repeat, header changes, wake-up, low power. -/
def Housekeeping (b : Bytes) : Prop :=
  b = line [] ∨ SetsHeader b ∨ b = line (ascii " ") ∨ b = line (ascii "ATLP")

/-- The last command that arrived at the adapter, other than a repeat, is `cmd`. -/
def LastCommand (h : History) (cmd : Bytes) : Prop :=
  ∃ pre post, h = pre ++ .write (line cmd) true :: post ∧ ∀ b ∈ written post, b = line []

/-- `str` is the command, or the command with a number of frames to wait for. -/
def CommandString (c : OBDCommand) (str : Bytes) : Prop := str = c.command ∨ ∃ n : Nat, str = c.command ++ decBytes n

end Spec
