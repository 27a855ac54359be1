import Verif.Model.Decoders
/-!
# Model of `obd/OBDCommand.py` and of `OBDResponse` (obd/OBDResponse.py:48-75)
-/
namespace Model
open Py

/-- `OBDCommand`, obd/OBDCommand.py:42-59. -/
structure OBDCommand where
  name : String
  desc : String
  command : Bytes
  bytes : Nat
  decode : Decoder
  ecu : Nat := ECU.all
  fast : Bool := false
  header : Bytes := engineHeader

/-- A table entry: `OBDCommand(name, desc, command, bytes, decoder, ecu, fast)` with the
default header, obd/OBDCommand.py:43-59. -/
def mkCmd (name desc command : String) (bytes : Nat) (decode : Decoder) (ecu : Nat)
    (fast : Bool) : OBDCommand :=
  { name, desc, command := ascii command, bytes, decode, ecu, fast }

namespace OBDCommand

/-- `OBDCommand.clone`, obd/OBDCommand.py:61-69. -/
def clone (c : OBDCommand) : OBDCommand :=
  { name := c.name, desc := c.desc, command := c.command, bytes := c.bytes,
    decode := c.decode, ecu := c.ecu, fast := c.fast, header := c.header }

/-- `isHex(self.command.decode())`, obd/OBDCommand.py:73 and :80. -/
def hexCommand (c : OBDCommand) : Except Exc Bool := do
  return isHex (← utf8Strict none c.command)

/-- A byte of a command as a character, as `int(self.command[:2], 16)` reads it,
obd/OBDCommand.py:74 and :81 (only used after `hexCommand` returned True). -/
def byteChar (b : UInt8) : Char := Char.ofNat b.toNat

/-- `OBDCommand.mode`, obd/OBDCommand.py:71-76. -/
def mode (c : OBDCommand) : Except Exc (Option Nat) := do
  if c.command.length ≥ 2 then
    if ← c.hexCommand then return some (intOfHex ((c.command.take 2).map byteChar))
    else return none
  else return none

/-- `OBDCommand.pid`, obd/OBDCommand.py:78-83. -/
def pid (c : OBDCommand) : Except Exc (Option Nat) := do
  if c.command.length > 2 then
    if ← c.hexCommand then return some (intOfHex ((c.command.drop 2).map byteChar))
    else return none
  else return none

/-- `__constrain_message_data`, obd/OBDCommand.py:104-121. -/
def constrain (c : OBDCommand) (m : Message) : Message :=
  if c.bytes > 0 then
    if m.data.length > c.bytes then { m with data := m.data.take c.bytes }
    else if m.data.length < c.bytes then
      { m with data := m.data ++ List.replicate (c.bytes - m.data.length) 0 }
    else m
  else m

/-- `OBDCommand.__eq__` (on commands), obd/OBDCommand.py:149-153. -/
def eq (a b : OBDCommand) : Bool := a.command == b.command && a.header == b.header

/-- The argument of `hash` in `OBDCommand.__hash__`, obd/OBDCommand.py:145-147. -/
def hashKey (c : OBDCommand) : Bytes := c.header ++ c.command

end OBDCommand

/-- `OBDResponse`, obd/OBDResponse.py:48-57 (without the time stamp). -/
structure Response where
  command : Option OBDCommand := none
  messages : List Message := []
  value : Value := .none

/-- `OBDResponse.is_null`, obd/OBDResponse.py:68-69. -/
def Response.isNull (r : Response) : Bool := r.messages.isEmpty || decide (r.value = .none)

/-- `OBDCommand.__call__`, obd/OBDCommand.py:85-102. -/
def OBDCommand.call (fl : Str → Option PyFloat) (c : OBDCommand) (messages : List Message) :
    Except Exc Response := do
  let ms := (messages.filter (fun m => (c.ecu &&& m.ecu) > 0)).map c.constrain
  if ms.isEmpty then return { command := some c, messages := ms }
  else
    let v ← c.decode.run fl ms
    return { command := some c, messages := ms, value := v }

end Model
