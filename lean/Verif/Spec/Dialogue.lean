import Verif.Spec.Serial
import Verif.Py.Float
/-!
# Specification: the dialogue that sets up a connection

Shared with the model: the events of the I/O history and Python's `str.lower`.
-/
namespace Spec
open Py Model

/-- `evs` is a conversation with the adapter: for each pair, the command was written, and
reads followed, the last of which gave the lines (earlier ones were empty). -/
inductive Dialogue : History → List (Bytes × List Str) → Prop
  | nil : Dialogue [] []
  | cons {cmd : Bytes} {lines : List Str} {bs : List Bytes} {b : Bytes} {evs : History} {xs : List (Bytes × List Str)}
      (hl : LinesOf b lines) (hbs : ∀ x ∈ bs, LinesOf x []) (h : Dialogue evs xs) :
      Dialogue (.write (line cmd) true :: (bs.map (fun b => Event.read (some b)) ++ .read (some b) :: evs))
        ((cmd, lines) :: xs)

/-- `t` occurs in `s`. -/
def Within (t s : Str) : Prop := ∃ a b, s = a ++ t ++ b

/-- The reply says that the car could not be reached. -/
def Unable (r : List Str) : Prop := ∃ l ∈ r, Within "UNABLE TO CONNECT".toList l

/-- The protocol IDs of the ELM327 that the library supports. -/
def knownIds : List Str :=
  ["1".toList, "2".toList, "3".toList, "4".toList, "5".toList, "6".toList, "7".toList, "8".toList, "9".toList, "A".toList]

/-- The documented order in which protocols are tried. -/
def tryOrder : List Str :=
  ["6".toList, "8".toList, "1".toList, "7".toList, "9".toList, "2".toList, "3".toList, "4".toList, "5".toList, "A".toList]

/-- The command that selects a protocol. -/
def selects (id : Str) : Bytes := ascii "ATTP" ++ id.map (fun c => UInt8.ofNat c.toNat)

/-- The protocol announced by a reply to `ATDPN`: a prefix `A` means "automatic". -/
def Announces (l id : Str) : Prop := l = id ∧ ¬ (∃ c t, l = 'A' :: c :: t) ∨ l = 'A' :: id ∧ id ≠ []

/-- Protocols tried in vain. -/
inductive Tried : List Str → List (Bytes × List Str) → Prop
  | nil : Tried [] []
  | cons {id ids xs} (r r' : List Str) (hu : Unable r') (h : Tried ids xs) :
      Tried (id :: ids) ((selects id, r) :: (ascii "0100", r') :: xs)

/-- A negotiation of the protocol: the requested protocol (if any), the dialogue, the
protocol agreed and the reply to the `0100` request under it. -/
inductive Negotiated : Option Str → List (Bytes × List Str) → Str → List Str → Prop
  | requested (id : Str) (r r' : List Str) (hk : id ∈ knownIds) (hu : ¬ Unable r') :
      Negotiated (some id) [(selects id, r), (ascii "0100", r')] id r'
  | announced (l id : Str) (r r' : List Str) (ha : Announces l id) (hk : id ∈ knownIds) (hu : ¬ Unable r') :
      Negotiated none [(ascii "ATSP0", r), (ascii "0100", r'), (ascii "ATDPN", [l])] id r'
  | tried (l id' id : Str) (before after : List Str) (r r' r'' r3 : List Str) (xs : List (Bytes × List Str))
      (ha : Announces l id') (hn : id' ∉ knownIds) (hu : ¬ Unable r')
      (ho : tryOrder = before ++ id :: after) (ht : Tried before xs) (hu3 : ¬ Unable r3) :
      Negotiated none ([(ascii "ATSP0", r), (ascii "0100", r'), (ascii "ATDPN", [l])] ++ xs ++
        [(selects id, r''), (ascii "0100", r3)]) id r3

/-- A voltage reply that passes the check: a number that is not below 6 (`nan` passes). -/
def VoltageOk (fl : Str → Option PyFloat) (r : List Str) : Prop :=
  ∃ l x, r = [l] ∧ fl ((Py.lower l).filter (fun c => c != 'v')) = some x ∧
    (x = .inf ∨ x = .nan ∨ ∃ q, x = .fin q ∧ 6 ≤ q)

/-- The dialogue of a successful set-up, from the reset to the protocol. -/
def SetUp (fl : Str → Option PyFloat) (checkVoltage : Bool) (protocol : Option Str)
    (xs : List (Bytes × List Str)) (id : Str) (r0100 : List Str) : Prop :=
  ∃ r1 r2 volt ys, xs = (ascii "ATZ", r1) :: (ascii "ATE0", r2) :: (ascii "ATH1", ["OK".toList]) ::
      (ascii "ATL0", ["OK".toList]) :: (volt ++ ys) ∧
    (∃ l ∈ r2, Within "OK".toList l) ∧
    (if checkVoltage then ∃ r, volt = [(ascii "AT RV", r)] ∧ VoltageOk fl r else volt = []) ∧
    Negotiated protocol ys id r0100

/-- The rates that are tried, in this order. -/
def rates : List Nat := [38400, 9600, 230400, 115200, 57600, 19200]

/-- A probe that was answered with a prompt. -/
def Prompted (b : Bytes) : Prop := ∃ a, b = a ++ [0x3E]

/-- Rates probed without a prompt in the reply. -/
inductive Silent : List Nat → History → Prop
  | nil : Silent [] []
  | cons {r rs evs b} (hb : ¬ Prompted b) (h : Silent rs evs) : Silent (r :: rs) (.probe r (.ok b) :: evs)

end Spec
namespace Spec
open Py Model

/-- How the rate of the port `name` was set, given the `baudrate` argument: the rate, and
the I/O it took.  Pseudo terminals are left at the default rate. -/
inductive FoundRate (name : Str) : Option Nat → History → Nat → Prop
  | pseudo (h : ∃ t, name = "/dev/pts".toList ++ t) : FoundRate name none [] 9600
  | detected (before after : List Nat) (rate : Nat) (b : Bytes) (evs : History)
      (hr : rates = before ++ rate :: after) (hs : Silent before evs) (hb : Prompted b) :
      FoundRate name none (evs ++ [.probe rate (.ok b)]) rate
  | given (rate : Nat) : FoundRate name (some rate) [.setBaud rate none] rate

/-- The I/O of a connection that was set up to the point where the car is connected: the
wake-up if requested, setting the rate, and the dialogue. -/
def Connects (fl : Str → Option PyFloat) (port : Str) (cfg : ElmM.Config) (evs : History)
    (rate : Nat) (xs : List (Bytes × List Str)) (id : Str) (r0100 : List Str) : Prop :=
  ∃ e1 e2, evs = .open_ port none :: ((if cfg.startLowPower then [.write (line (ascii " ")) true] else []) ++ e1 ++ e2) ∧
    FoundRate port cfg.baudrate e1 rate ∧ Dialogue e2 xs ∧ SetUp fl cfg.checkVoltage cfg.protocol xs id r0100

end Spec
