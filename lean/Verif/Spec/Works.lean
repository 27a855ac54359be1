import Verif.Spec.Start
import Verif.Spec.Chunks
import Verif.Spec.Dialogue
/-!
# Specification: an ELM327 that works, and the status it must be given

An adapter that follows its data sheet during the set-up, with an arbitrary car (or none) behind it.
-/
namespace Spec
open Py Model

/-- After the command `cmd`, the adapter sends these lines and its prompt, in chunks of any size. -/
def Replies (dev : Device) (h : History) (cmd : Bytes) (lines : List Str) : Prop :=
  ∃ body, Arrives (.prompt body) (dev.read (h ++ [.write (line cmd) true])) ∧ LinesOf (body ++ [0x3E]) lines

/-- The protocol that a command line selects, if it is such a command; `none`: automatic. -/
def selection (b : Bytes) : Option (Option Str) :=
  if b = line (ascii "ATSP0") then some none
  else (knownIds.find? (fun id => b = line (selects id))).map some

/-- The protocol selected last. -/
def selected (h : History) : Option Str :=
  ((written h).filterMap selection).getLast?.getD none

/-- An ELM327 that does not fail and is set to one of the usual rates.  Behind it there is a car that answers the request
0100 with `car p` when protocol `p` is selected (`none`: automatic), or UNABLE TO CONNECT; `volt` is what it prints as
voltage, `number` what it prints as the number of the protocol. -/
structure Elm327 (dev : Device) (volt number : Str) (car : Option Str → List Str) : Prop where
  sturdy : Sturdy dev
  opens : ∀ h port, dev.openPort h port = none
  prompts : ∃ rate ∈ rates, ∀ h, ∃ b, dev.probe h rate = .ok b ∧ Prompted b
  reset : ∀ h, ∃ r, Replies dev h (ascii "ATZ") r
  echo : ∀ h, ∃ r, Replies dev h (ascii "ATE0") r ∧ ∃ l ∈ r, Within "OK".toList l
  headers : ∀ h, Replies dev h (ascii "ATH1") ["OK".toList]
  feeds : ∀ h, Replies dev h (ascii "ATL0") ["OK".toList]
  voltage : ∀ h, Replies dev h (ascii "AT RV") [volt]
  automatic : ∀ h, ∃ r, Replies dev h (ascii "ATSP0") r
  manual : ∀ h, ∀ id ∈ knownIds, ∃ r, r ≠ [] ∧ Replies dev h (selects id) r
  request : ∀ h, Replies dev h (ascii "0100") (car (selected h))
  speaks : ∀ p, car p ≠ []
  tells : ∀ h, Replies dev h (ascii "ATDPN") [number]

/-- The protocol on which the library and the car must agree, given the protocol asked for. -/
inductive Agreed (number : Str) (car : Option Str → List Str) : Option Str → Option Str → Prop
  | asked (id : Str) (hk : id ∈ knownIds) (hu : ¬ Unable (car (some id))) : Agreed number car (some id) (some id)
  | refused (id : Str) (h : id ∉ knownIds ∨ Unable (car (some id))) : Agreed number car (some id) none
  | noCar (h : Unable (car none)) : Agreed number car none none
  | told (id : Str) (hu : ¬ Unable (car none)) (ha : Announces number id) (hk : id ∈ knownIds) : Agreed number car none (some id)
  | tried (id' id : Str) (before after : List Str) (hu : ¬ Unable (car none)) (ha : Announces number id') (hn : id' ∉ knownIds)
      (ho : tryOrder = before ++ id :: after) (hb : ∀ x ∈ before, Unable (car (some x))) (hc : ¬ Unable (car (some id))) :
      Agreed number car none (some id)
  | exhausted (id' : Str) (hu : ¬ Unable (car none)) (ha : Announces number id') (hn : id' ∉ knownIds)
      (hb : ∀ x ∈ tryOrder, Unable (car (some x))) : Agreed number car none none

/-- The ignition is off: the voltage is below 6 V. -/
def Low : PyFloat → Prop
  | .fin q => q < 6
  | .negInf => True
  | _ => False

/-- The number that the adapter's voltage text means. -/
def voltageRead (fl : Str → Option PyFloat) (volt : Str) : Option PyFloat := fl ((Py.lower volt).filter (fun c => c != 'v'))

end Spec
