import Verif.Spec.Dialogue
/-!
# Specification: the dialogue of a set-up that reaches the adapter but not the car
-/
namespace Spec
open Py Model

/-- A voltage reply that does not pass the check: a number below 6. -/
def VoltageLow (fl : Str → Option PyFloat) (r : List Str) : Prop :=
  ∃ l x, r = [l] ∧ fl ((Py.lower l).filter (fun c => c != 'v')) = some x ∧ (x = .negInf ∨ ∃ q, x = .fin q ∧ q < 6)

/-- A negotiation of the protocol in vain: the requested protocol (if any), and the dialogue. -/
inductive InVain : Option Str → List (Bytes × List Str) → Prop
  /-- the requested protocol does not exist -/
  | unknown (id : Str) (hn : id ∉ knownIds) : InVain (some id) []
  /-- the car is not reached under the requested protocol -/
  | requested (id : Str) (r r' : List Str) (hk : id ∈ knownIds) (hu : Unable r') :
      InVain (some id) [(selects id, r), (ascii "0100", r')]
  /-- the adapter, which may choose, does not reach the car -/
  | unreached (r r' : List Str) (hu : Unable r') : InVain none [(ascii "ATSP0", r), (ascii "0100", r')]
  /-- the adapter does not say in one line which protocol it has chosen -/
  | unannounced (r r' r'' : List Str) (hu : ¬ Unable r') (hl : r''.length ≠ 1) :
      InVain none [(ascii "ATSP0", r), (ascii "0100", r'), (ascii "ATDPN", r'')]
  /-- it has chosen an unknown protocol, and the car is reached under none of the known ones -/
  | tried (l id' : Str) (r r' : List Str) (xs : List (Bytes × List Str)) (hu : ¬ Unable r')
      (ha : Announces l id') (hn : id' ∉ knownIds) (ht : Tried tryOrder xs) :
      InVain none ([(ascii "ATSP0", r), (ascii "0100", r'), (ascii "ATDPN", [l])] ++ xs)

/-- The dialogue after the settings of a set-up that does not reach the car: `low` if it ends
because of the voltage. -/
def Stopped (fl : Str → Option PyFloat) (checkVoltage : Bool) (protocol : Option Str) (low : Bool)
    (xs : List (Bytes × List Str)) : Prop :=
  if checkVoltage then
    ∃ r ys, xs = (ascii "AT RV", r) :: ys ∧
      (if low then VoltageLow fl r ∧ ys = [] else VoltageOk fl r ∧ InVain protocol ys)
  else low = false ∧ InVain protocol xs

/-- The I/O of a connection that was set up as far as the adapter. -/
def Reaches (fl : Str → Option PyFloat) (port : Str) (cfg : ElmM.Config) (low : Bool) (evs : History) : Prop :=
  ∃ e1 e2 rate r1 r2 xs, evs = .open_ port none :: ((if cfg.startLowPower then [.write (line (ascii " ")) true] else []) ++ e1 ++ e2) ∧
    FoundRate port cfg.baudrate e1 rate ∧
    Dialogue e2 ((ascii "ATZ", r1) :: (ascii "ATE0", r2) :: (ascii "ATH1", ["OK".toList]) :: (ascii "ATL0", ["OK".toList]) :: xs) ∧
    (∃ l ∈ r2, Within "OK".toList l) ∧
    Stopped fl cfg.checkVoltage cfg.protocol low xs

end Spec
