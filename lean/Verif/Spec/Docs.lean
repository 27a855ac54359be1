import Verif.Spec.DocTable
import Verif.Model.Value
/-!
# What the documentation says about the value of a response
-/
namespace Spec
open Py Model

/-- Aliases of unit names, obd/UnitsAndScaling.py:40-42. -/
def SameUnit (a b : String) : Prop :=
  a = b ∨ (a ∈ ["gps", "GPS", "grams_per_second"] ∧ b ∈ ["gps", "GPS", "grams_per_second"]) ∨
    (a ∈ ["lph", "LPH", "liters_per_hour"] ∧ b ∈ ["lph", "LPH", "liters_per_hour"])

/-- The value is of the documented type. -/
def HasType : DocType → Value → Prop
  | .unit u, v => ∃ u', SameUnit u u' ∧ ((∃ q, v = .qty q u') ∨ ∃ x, v = .fqty x u')
  | .banks sizes, v => ∃ l, v = .banks ([] :: l) ∧ l.map List.length = sizes
  | .bitArray, v => ∃ a, v = .bits a
  | .boolean, v => ∃ b, v = .bool b
  | .string, v => ∃ s, v = .str s
  | .hexString, v => ∃ s, v = .str s ∧ ∀ ch ∈ s, ch ∈ "0123456789abcdef".toList
  | .fuelStatus, v => ∃ a b, v = .strPair a b ∧ String.ofList a ∈ docFuel ∧ String.ofList b ∈ docFuel
  | .airStatus, v => ∃ s, v = .str s ∧ String.ofList s ∈ docAir
  | .status, v => ∃ st, v = .status st ∧ st.ignitionType ∈ ["spark", "compression"] ∧
      ∀ t ∈ docTests, ∃ test, st.tests.get? (some t) = some test
  | .monitor, v => ∃ mon, v = .monitor mon ∧
      ∀ e ∈ docTids, (∃ test, mon.tests.get? e.1 = some test) ∧ ∃ test, mon.attrs.get? e.2.1 = some test
  | .dtc, v => ∃ code desc, v = .dtc code desc
  | .dtcs, v => ∃ l, v = .dtcs l
  | .open, _ => True

end Spec
