import Verif.Spec.Session
/-!
# A sample adapter with a sample car, to show that hypotheses can be met
-/
namespace Spec
open Py Model

/-- The last line written. -/
def lastWrite : History → Bytes
  | h => match h.reverse.find? (fun e => match e with | .write _ _ => true | _ => false) with
    | some (.write b _) => b
    | _ => []

/-- Replies: a table, else a default. -/
def reply (table : List (String × String)) (dflt : String) (b : Bytes) : Bytes :=
  match table.find? (fun e => ascii e.1 ++ [0x0D] == b) with
  | some e => ascii e.2 ++ ascii "\r\r>"
  | none => ascii dflt ++ ascii "\r\r>"

/-- An adapter that answers from a table; writes of the lines in `broken` fail. -/
def demo (table : List (String × String)) (broken : List String := []) : Device where
  openPort := fun _ _ => none
  setBaud := fun _ _ => none
  probe := fun _ b => .ok (if b = 9600 then ascii "ELM327 v1.5\r\r>" else [])
  write := fun _ b => !(broken.any (fun e => ascii e ++ [0x0D] == b))
  read := fun h => [some (reply table "?" (lastWrite h))]

/-- A reasonable adapter and car. -/
def table : List (String × String) :=
  [("ATZ", "ELM327 v1.5"), ("ATE0", "ATE0\rOK"), ("ATH1", "OK"), ("ATL0", "OK"), ("AT RV", "12.5V"),
   ("ATSP0", "OK"), ("0100", "7E8 06 41 00 00 10 00 00"), ("ATDPN", "A6"), ("ATLP", "OK"),
   ("010C", "7E8 04 41 0C 1A F8"), ("ATTP6", "OK"), (" ", "OK"), ("AT SH 7E0 ", "OK"), ("AT SH 7E1 ", "OK"),
   ("010C1", "7E8 04 41 0C 1A F8"), ("", "7E8 04 41 0C 1A F8")]

/-- `float("12.5")` -/
def fl0 (s : Str) : Option PyFloat := if s = "12.5".toList then some (.fin 12.5) else none

end Spec
