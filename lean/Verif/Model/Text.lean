import Verif.Model.Obd
/-!
# Model of the printed forms: `__repr__` and `__str__`

Parameters: which characters outside ASCII are printable (CPython's Unicode tables), and how
`pint` prints a quantity and a unit.
-/
namespace Model
open Py

/-- `n` hex digits of `v`, for the `\x`, `\u` and `\U` escapes in `repr` (obd/OBDCommand.py:137-143). -/
def hexDigits : Nat → Nat → Str
  | 0, _ => []
  | n + 1, v => hexDigit (v / 16 ^ n % 16) :: hexDigits n v

/-- One character in Python's `repr` of a string with quote `q` (used in obd/OBDCommand.py:137-143); `pr` tells
which characters outside ASCII are printable. -/
def reprChar (pr : Char → Bool) (q c : Char) : Str :=
  if c = q ∨ c = '\\' then ['\\', c]
  else if c = '\t' then ['\\', 't']
  else if c = '\n' then ['\\', 'n']
  else if c = '\r' then ['\\', 'r']
  else if c.toNat < 32 ∨ c.toNat = 127 then '\\' :: 'x' :: hexDigits 2 c.toNat
  else if c.toNat < 127 then [c]
  else if pr c then [c]
  else if c.toNat ≤ 0xff then '\\' :: 'x' :: hexDigits 2 c.toNat
  else if c.toNat ≤ 0xffff then '\\' :: 'u' :: hexDigits 4 c.toNat
  else '\\' :: 'U' :: hexDigits 8 c.toNat

/-- The quote that Python's `repr` chooses (obd/OBDCommand.py:137-143): double if there is a single quote and no double one. -/
def reprQuote (s : Str) : Char := if '\'' ∈ s ∧ '"' ∉ s then '"' else '\''

/-- Python's `repr` of a string, used in obd/OBDCommand.py:137-143. -/
def pyRepr (pr : Char → Bool) (s : Str) : Str := reprQuote s :: (s.flatMap (reprChar pr (reprQuote s)) ++ [reprQuote s])

/-- One byte in Python's `repr` of bytes with quote `q`, used in obd/OBDCommand.py:123-143. -/
def reprByte (q : Char) (b : UInt8) : Str :=
  let c := Char.ofNat b.toNat
  if c = q ∨ c = '\\' then ['\\', c]
  else if c = '\t' then ['\\', 't']
  else if c = '\n' then ['\\', 'n']
  else if c = '\r' then ['\\', 'r']
  else if b.toNat < 32 ∨ 127 ≤ b.toNat then '\\' :: 'x' :: hexDigits 2 b.toNat
  else [c]

/-- Python's `repr` of bytes, also what `%s` prints, used in obd/OBDCommand.py:123-143. -/
def reprBytes (bs : Bytes) : Str :=
  let q := reprQuote (bs.map (fun b => Char.ofNat b.toNat))
  'b' :: q :: (bs.flatMap (reprByte q) ++ [q])

namespace OBDCommand

/-- `OBDCommand.__str__`, obd/OBDCommand.py:123-126. -/
def toStr (c : OBDCommand) : Str :=
  if c.header ≠ engineHeader then reprBytes (c.header ++ c.command) ++ ": ".toList ++ c.desc.toList
  else reprBytes c.command ++ ": ".toList ++ c.desc.toList

/-- The ECU mask in `__repr__`, obd/OBDCommand.py:129-135. -/
def ecuText (e : Nat) : Str :=
  if e = ECU.transmission then "ECU.TRANSMISSION".toList
  else if e = ECU.engine then "ECU.ENGINE".toList
  else if e = ECU.all then "ECU.ALL".toList
  else Nat.toDigits 10 e

/-- `%s` of a truth value, obd/OBDCommand.py:139 and :143. -/
def boolText (b : Bool) : Str := if b then "True".toList else "False".toList

/-- `OBDCommand.__repr__`, obd/OBDCommand.py:128-143. -/
def toRepr (pr : Char → Bool) (c : OBDCommand) : Str :=
  let common := "OBDCommand(".toList ++ pyRepr pr c.name.toList ++ ", ".toList ++ pyRepr pr c.desc.toList ++ ", ".toList ++
    reprBytes c.command ++ ", ".toList ++ Nat.toDigits 10 c.bytes ++ ", raw_string, ecu=".toList ++ ecuText c.ecu ++
    ", fast=".toList ++ boolText c.fast
  if c.header = engineHeader then common ++ ")".toList
  else common ++ ", header=".toList ++ reprBytes c.header ++ ")".toList

end OBDCommand

/-- `StatusTest.__str__`, obd/OBDResponse.py:102-105 (a reserved slot has the name None). -/
def StatusTest.toStr (t : StatusTest) : Str :=
  "Test ".toList ++ (t.name.getD "None").toList ++ ": ".toList ++
    (if t.available then "Available" else "Unavailable").toList ++ ", ".toList ++
    (if t.complete then "Complete" else "Incomplete").toList

/-- `MonitorTest.__str__`, obd/OBDResponse.py:171-174; `sh` prints a value. -/
def MonitorTest.toStr (sh : UasValue → Str) (t : MonitorTest) : Str :=
  (t.desc.getD "None").toList ++ " : ".toList ++ (t.value.elim "None".toList sh) ++ " [".toList ++
    (if t.passed then "PASSED" else "FAILED").toList ++ "]".toList

/-- `Monitor.__str__`, obd/OBDResponse.py:131-135. -/
def MonitorObj.toStr (sh : UasValue → Str) (m : MonitorObj) : Str :=
  if m.len > 0 then ['\n'].intercalate (m.allTests.map (MonitorTest.toStr sh)) else "No tests to report".toList

/-- `BitArray.__str__`, obd/utils.py:97-98. -/
def BitArray.toStr (a : BitArray) : Str := a.bits.map (fun b => if b then '1' else '0')

/-- What `OBD.print_commands` prints, line by line, obd/obd.py:229-235. -/
def printCommands (s : OW) : List Str := s.supported.map OBDCommand.toStr

/-- `str(type(value))` (obd/OBDResponse.py:66) of the values that are neither None nor a `pint` quantity: the tuples and lists of
obd/decoders.py:223-248, 321-347 and 400-436, the classes of obd/OBDResponse.py and `BitArray` of obd/utils.py. -/
def Value.typeText : Value → String
  | .bytes _ => "<class 'bytearray'>"
  | .bits _ => "<class 'obd.utils.BitArray'>"
  | .str _ => "<class 'str'>"
  | .bool _ => "<class 'bool'>"
  | .banks _ => "<class 'tuple'>"
  | .strPair _ _ => "<class 'tuple'>"
  | .dtc _ _ => "<class 'tuple'>"
  | .dtcs _ => "<class 'list'>"
  | .status _ => "<class 'obd.OBDResponse.Status'>"
  | .monitor _ => "<class 'obd.OBDResponse.Monitor'>"
  | .none => "<class 'NoneType'>"
  | .qty _ _ => "<class 'pint.Quantity'>"
  | .fqty _ _ => "<class 'pint.Quantity'>"

/-- `OBDResponse.unit`, obd/OBDResponse.py:57-66; `ps` prints a `pint` unit. -/
def Response.unit (ps : String → Str) (r : Response) : Option Str :=
  match r.value with
  | .qty _ u => some (ps u)
  | .fqty _ u => some (ps u)
  | .none => none
  | v => some v.typeText.toList

end Model
