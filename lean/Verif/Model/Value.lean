import Verif.Model.Utils
import Verif.Py.Float
import Verif.Model.Codes
/-!
# Values returned by decoders: model of the classes in `obd/OBDResponse.py`

`pint` quantities are a magnitude with the name of the unit.
-/
namespace Model
open Py

/-- `StatusTest`, obd/OBDResponse.py:96-105.  The name is `None` for reserved slots. -/
structure StatusTest where
  name : Option String := some ""
  available : Bool := false
  complete : Bool := false
  deriving DecidableEq, Repr

/-- `Status`, obd/OBDResponse.py:81-93; `tests` is the part of `__dict__` holding tests. -/
structure StatusObj where
  mil : Bool := false
  dtcCount : Nat := 0
  ignitionType : String := ""
  tests : Dict (Option String) StatusTest := []
  deriving DecidableEq, Repr

/-- `Status.__init__`, obd/OBDResponse.py:82-93. -/
def StatusObj.init : StatusObj :=
  { tests := (baseTests ++ sparkTests ++ compressionTests).foldl
      (fun d name => match name with
        | some n => d.set (some n) {}
        | none => d) [] }

/-- A measured value inside a monitor test: the result of a `UAS` conversion, obd/UnitsAndScaling.py:58-67. -/
inductive UasValue where
  | qty (mag : Rat) (unit : String)
  | bool (b : Bool)
  deriving DecidableEq, Repr

/-- `a <= b` on two results of the same conversion, obd/OBDResponse.py:161: `pint` compares magnitudes of equal
units, Python compares `False < True`.  Results of different conversions are never
compared by the library (`false` here). -/
def UasValue.le : UasValue → UasValue → Bool
  | .qty a u, .qty b v => u == v && decide (a ≤ b)
  | .bool a, .bool b => !a || b
  | _, _ => false

/-- `MonitorTest`, obd/OBDResponse.py:149-174. -/
structure MonitorTest where
  tid : Option Nat := none
  name : Option String := none
  desc : Option String := none
  value : Option UasValue := none
  min : Option UasValue := none
  max : Option UasValue := none
  deriving DecidableEq, Repr

/-- `MonitorTest.is_null`, obd/OBDResponse.py:165-169. -/
def MonitorTest.isNull (t : MonitorTest) : Bool :=
  t.tid.isNone || t.value.isNone || t.min.isNone || t.max.isNone

/-- `MonitorTest.passed`, obd/OBDResponse.py:158-163. -/
def MonitorTest.passed (t : MonitorTest) : Bool :=
  if t.isNull then false
  else match t.value, t.min, t.max with
    | some v, some lo, some hi => lo.le v && v.le hi
    | _, _, _ => false

/-- `Monitor`, obd/OBDResponse.py:108-146: `_tests` and the tests in `__dict__`. -/
structure MonitorObj where
  tests : Dict Nat MonitorTest := []
  attrs : Dict String MonitorTest := []
  deriving DecidableEq, Repr

/-- `Monitor.__init__`, obd/OBDResponse.py:109-120. -/
def MonitorObj.init : MonitorObj :=
  testIds.foldl (fun m e => { tests := m.tests.set e.1 {}, attrs := m.attrs.set e.2.1 {} }) {}

/-- `Monitor.add_test`, obd/OBDResponse.py:122-125.  `test.tid` is set on every test the
library adds (`0` stands for the impossible `None` key). -/
def MonitorObj.addTest (m : MonitorObj) (t : MonitorTest) : MonitorObj :=
  { tests := m.tests.set (t.tid.getD 0) t
    attrs := match t.name with
      | some n => m.attrs.set n t
      | none => m.attrs }

/-- `Monitor.tests`, obd/OBDResponse.py:127-129. -/
def MonitorObj.allTests (m : MonitorObj) : List MonitorTest :=
  (m.tests.map Prod.snd).filter (fun t => !t.isNull)

/-- `Monitor.__len__`, obd/OBDResponse.py:137-138. -/
def MonitorObj.len (m : MonitorObj) : Nat := m.allTests.length

/-- `Monitor.__getitem__` with an int key, obd/OBDResponse.py:140-142. -/
def MonitorObj.getTid (m : MonitorObj) (tid : Nat) : MonitorTest := (m.tests.get? tid).getD {}

/-- `Monitor.__getitem__` with a name, obd/OBDResponse.py:143-144 (test names only). -/
def MonitorObj.getName (m : MonitorObj) (name : String) : MonitorTest :=
  (m.attrs.get? name).getD {}

/-- What a decoder can return (the `return`s of obd/decoders.py). -/
inductive Value where
  | none
  | bytes (b : Bytes)
  | bits (a : BitArray)
  | str (s : Str)
  | qty (mag : Rat) (unit : String)
  | fqty (mag : PyFloat) (unit : String)   -- the result of `float(text) * unit`
  | bool (b : Bool)
  | banks (l : List (List Bool))
  | strPair (a b : Str)
  | dtc (code desc : Str)
  | dtcs (l : List (Str × Str))
  | status (s : StatusObj)
  | monitor (m : MonitorObj)
  deriving DecidableEq, Repr

/-- A conversion result seen as a decoder result, obd/decoders.py:89. -/
def UasValue.toValue : UasValue → Value
  | .qty m u => .qty m u
  | .bool b => .bool b

end Model
