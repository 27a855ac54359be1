import Verif.Spec.Dialogue
import Verif.Spec.Exchange
/-!
# Specification: what connecting may write
-/
namespace Spec
open Py Model

/-- The requests that ask which PIDs are supported: modes 01, 06 and 09. -/
def listings : List String :=
  ["0100", "0120", "0140", "0600", "0620", "0640", "0660", "0680", "06A0", "0900"]

/-- A line that connecting with the settings `cfg` may write: the wake-up (on request only), reset, echo off, headers on,
line feeds off, the voltage (unless switched off), the choice of the protocol (the given one, or any supported one),
and requests for supported PIDs. -/
inductive Asks (cfg : ElmM.Config) : Bytes → Prop
  | wake (h : cfg.startLowPower = true) : Asks cfg (ascii " ")
  | setup (t : String) (h : t ∈ ["ATZ", "ATE0", "ATH1", "ATL0"]) : Asks cfg (ascii t)
  | voltage (h : cfg.checkVoltage = true) : Asks cfg (ascii "AT RV")
  | auto (t : String) (h : cfg.protocol = none) (ht : t ∈ ["ATSP0", "ATDPN"]) : Asks cfg (ascii t)
  | select (id : Str) (h : cfg.protocol = none ∨ cfg.protocol = some id) (hk : id ∈ knownIds) : Asks cfg (selects id)
  | listing (t : String) (h : t ∈ listings) : Asks cfg (ascii t)

end Spec
