import Verif.Py.Basic
/-!
# The protocols an adapter can use, by number and name
-/
namespace Spec
open Py

/-- The table of docs/Connections.md, lines 122-133: what `protocol_id()` and
`protocol_name()` may return once there is a connection. -/
def documentedNames : List (Str × Str) := [
  ("1".toList, "SAE J1850 PWM".toList),
  ("2".toList, "SAE J1850 VPW".toList),
  ("3".toList, "AUTO, ISO 9141-2".toList),
  ("4".toList, "ISO 14230-4 (KWP 5BAUD)".toList),
  ("5".toList, "ISO 14230-4 (KWP FAST)".toList),
  ("6".toList, "ISO 15765-4 (CAN 11/500)".toList),
  ("7".toList, "ISO 15765-4 (CAN 29/500)".toList),
  ("8".toList, "ISO 15765-4 (CAN 11/250)".toList),
  ("9".toList, "ISO 15765-4 (CAN 29/250)".toList),
  ("A".toList, "SAE J1939 (CAN 29/250)".toList)]

/-- The same table with the name that ISO 9141-2 really has. -/
def protocolNames : List (Str × Str) := [
  ("1".toList, "SAE J1850 PWM".toList),
  ("2".toList, "SAE J1850 VPW".toList),
  ("3".toList, "ISO 9141-2".toList),
  ("4".toList, "ISO 14230-4 (KWP 5BAUD)".toList),
  ("5".toList, "ISO 14230-4 (KWP FAST)".toList),
  ("6".toList, "ISO 15765-4 (CAN 11/500)".toList),
  ("7".toList, "ISO 15765-4 (CAN 29/500)".toList),
  ("8".toList, "ISO 15765-4 (CAN 11/250)".toList),
  ("9".toList, "ISO 15765-4 (CAN 29/250)".toList),
  ("A".toList, "SAE J1939 (CAN 29/250)".toList)]

/-- The four texts of docs/Connections.md, lines 70-85, in that order. -/
def statusTexts : List Str :=
  ["Not Connected".toList, "ELM Connected".toList, "OBD Connected".toList, "Car Connected".toList]

end Spec
