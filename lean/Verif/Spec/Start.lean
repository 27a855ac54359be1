import Verif.Spec.Robust
import Verif.Spec.Ecus
/-!
# Specification: why the constructor may raise
-/
namespace Spec
open Py Model

/-- A line by which the protocol is chosen, or by which the adapter is asked for the protocol that it found. -/
def Chooses (b : Bytes) : Prop := b = line (ascii "ATDPN") ∨ ∃ id ∈ knownIds, b = line (selects id)

/-- Nothing in `evs` opens a port or changes the protocol. -/
def NoChoice (evs : History) : Prop := NoOpen evs ∧ ∀ b ok, .write b ok ∈ evs → ¬ Chooses b

/-- At the end of `h` the protocol `id` was the last to be requested from the adapter, on the port opened last. -/
def Requested (h : History) (id : Str) : Prop :=
  ∃ pre ok post, h = pre ++ .write (line (selects id)) ok :: post ∧ NoChoice post

/-- The protocol in use at the end of `h`: the one that was requested last, or that the adapter announced after that. -/
def Selected (h : History) (id : Str) : Prop :=
  Requested h id ∨
  ∃ (pre : History) (bs : List Bytes) (b : Bytes) (l : Str) (post : History), h = pre ++ .write (line (ascii "ATDPN")) true :: (bs.map (fun b => Event.read (some b)) ++ .read (some b) :: post) ∧
    LinesOf b [l] ∧ Announces l id ∧ NoChoice post

/-- The last thing in `h` is the command `cmd` and its reply; or the adapter was only asked afterwards which protocol it found. -/
def Latest (h : History) (cmd : Bytes) (lines : List Str) : Prop :=
  Ends h cmd lines ∨ ∃ pre evs l, h = pre ++ evs ∧ Ends pre cmd lines ∧ Dialogue evs [(ascii "ATDPN", [l])]

/-- The last thing in `h` is that the line was lost while sending `cmd` or waiting for the reply. -/
def LostAt (h : History) (cmd : Bytes) : Prop := ∃ pre evs, h = pre ++ evs ∧ Abort cmd evs

/-- Reasons for `OBD(...)` to raise, read off the I/O history:
* the last thing that happened is that opening the port raised something else than
  SerialException or OSError, or that setting the given baud rate raised, or that probing a
  baud rate raised;
* the last thing that happened is that the line was lost (AttributeError): at the wake-up, at the reset (when giving up),
  when a protocol was requested, or at the 0100 that follows;
* the latest reply cannot be parsed under the protocol in use (IndexError);
* the latest reply is the one to 0100, two or more ECUs answered under the protocol in use, none of them at the
  standard engine address, and nobody announced a single PID (TypeError). -/
inductive StartFails (h : History) : Exc → Prop
  | opening (port : Str) (x : Exc) (h1 : x ≠ .serialException) (h2 : x ≠ .osError) (hm : h.getLast? = some (.open_ port (some x))) : StartFails h x
  | rate (b : Nat) (x : Exc) (hm : h.getLast? = some (.setBaud b (some x))) : StartFails h x
  | probing (b : Nat) (x : Exc) (hm : h.getLast? = some (.probe b (.error x))) : StartFails h x
  | lost (cmd : Bytes) (hl : LostAt h cmd)
      (hc : cmd = ascii " " ∨ cmd = ascii "ATZ" ∨ ∃ id ∈ knownIds, Requested h id ∧ (cmd = selects id ∨ cmd = ascii "0100")) : StartFails h .attributeError
  | parsing (p : Proto) (cmd : Bytes) (lines : List Str) (hs : Selected h p.elmId) (hf : Latest h cmd lines) (ht : Trips p lines) : StartFails h .indexError
  | ecus (p : Proto) (lines : List Str) (ms : List Message) (hs : Selected h p.elmId) (hf : Latest h (ascii "0100") lines)
      (hms : p.call p.defaultMap lines = .ok ms) (t t' : Nat) (d d' : Bytes) (hne : t ≠ t') (ht : Answered ms t d) (ht' : Answered ms t' d')
      (hstd : ∀ e d, standardEngine p = some e → ¬ Answered ms e d) (hz : ∀ t d, Answered ms t d → popcount d = 0) : StartFails h .typeError

/-- The event is what the device answered at some point. -/
def Produced (dev : Device) : Event → Prop
  | .open_ p r => ∃ h, dev.openPort h p = r
  | .setBaud b r => ∃ h, dev.setBaud h b = r
  | .probe b r => ∃ h, dev.probe h b = r
  | .write b ok => ∃ h, dev.write h b = ok
  | .read none => ∃ h, none ∈ dev.read h
  | .read (some b) => ∃ h t, b ++ t = ((dev.read h).filterMap id).flatten
  | .close => True

/-- An adapter that is there and stays there: ports can be opened or not, but nothing fails afterwards. -/
structure Sturdy (dev : Device) : Prop where
  opens : ∀ h p x, dev.openPort h p = some x → x = .serialException ∨ x = .osError
  rates : ∀ h b, dev.setBaud h b = none
  probes : ∀ h b, ∃ r, dev.probe h b = .ok r
  writes : ∀ h b, dev.write h b = true
  reads : ∀ h, none ∉ dev.read h

end Spec
