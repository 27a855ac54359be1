import Verif.Model.Text
/-!
# Model of `OBDResponse.__str__`

Parameters: how `pint` prints a quantity, the address in the default `__str__` of an object, and
which characters outside ASCII `repr` prints as they are.
-/
namespace Model
open Py

/-- `str` of a tuple whose items print as given (obd/OBDResponse.py:71-72 for the tuples of obd/decoders.py:223-248, 321-347). -/
def tupleText : List Str → Str
  | [] => "()".toList
  | [x] => '(' :: (x ++ ",)".toList)
  | xs => '(' :: (", ".toList.intercalate xs ++ [')'])

/-- `str` of a list whose items print as given (obd/OBDResponse.py:71-72 for the list of obd/decoders.py:416-436). -/
def listText (xs : List Str) : Str := '[' :: (", ".toList.intercalate xs ++ [']'])

/-- What printing a response (obd/OBDResponse.py:71-72) depends on besides the library: `pint`, `repr` and addresses. -/
structure Printer where
  printable : Char → Bool
  qty : Rat → String → Str
  fqty : PyFloat → String → Str
  address : Str

/-- `str` of a measured value of a monitor test, obd/OBDResponse.py:171-174. -/
def UasValue.text (p : Printer) : UasValue → Str
  | .qty m u => p.qty m u
  | .bool b => OBDCommand.boolText b

/-- `str(self.value)`, obd/OBDResponse.py:71-72; `Status` (obd/OBDResponse.py:81-93) has no `__str__` of its own. -/
def Value.text (p : Printer) : Value → Str
  | .none => "None".toList
  | .bytes b => "bytearray(".toList ++ reprBytes b ++ ")".toList
  | .bits a => a.toStr
  | .str s => s
  | .qty m u => p.qty m u
  | .fqty m u => p.fqty m u
  | .bool b => OBDCommand.boolText b
  | .banks l => tupleText (l.map (fun b => tupleText (b.map OBDCommand.boolText)))
  | .strPair a b => tupleText [pyRepr p.printable a, pyRepr p.printable b]
  | .dtc a b => tupleText [pyRepr p.printable a, pyRepr p.printable b]
  | .dtcs l => listText (l.map (fun e => tupleText [pyRepr p.printable e.1, pyRepr p.printable e.2]))
  | .status _ => "<obd.OBDResponse.Status object at 0x".toList ++ p.address ++ ">".toList
  | .monitor m => m.toStr (UasValue.text p)

/-- `OBDResponse.__str__`, obd/OBDResponse.py:71-72. -/
def Response.toStr (p : Printer) (r : Response) : Str := r.value.text p

end Model
