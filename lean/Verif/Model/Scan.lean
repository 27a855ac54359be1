import Verif.Model.Utils
/-!
# Model of `try_port` and `scan_serial`, obd/utils.py:150-194
-/
namespace Model
open Py

/-- What `serial.Serial(port)` does, obd/utils.py:153: it opens the port, or raises. -/
inductive Opening where
  | opens
  | serialException
  | osError (errno : Nat)
  deriving DecidableEq, Repr

/-- `errno.ENOENT`, obd/utils.py:160. -/
def enoent : Nat := 2

/-- `try_port`, obd/utils.py:150-163.  Closing the port again is assumed not to raise. -/
def tryPort (serial : Str → Opening) (port : Str) : Except Exc Bool :=
  match serial port with
  | .opens => .ok true
  | .serialException => .ok false
  | .osError n => if n ≠ enoent then .error .osError else .ok false

/-- `possible_ports`, obd/utils.py:170-186. -/
def possiblePorts (platform : Str) (glob : String → List Str) : List Str :=
  if "linux".toList.isPrefixOf platform || "cygwin".toList.isPrefixOf platform then
    glob "/dev/rfcomm[0-9]*" ++ glob "/dev/ttyUSB[0-9]*"
  else if "win".toList.isPrefixOf platform then
    (List.range 256).map (fun i => "\\\\.\\COM".toList ++ Nat.toDigits 10 i)
  else if "darwin".toList.isPrefixOf platform then
    (glob "/dev/tty.*").filter (fun p => p ∉ ["/dev/tty.Bluetooth-Incoming-Port".toList, "/dev/tty.Bluetooth-Modem".toList])
  else []

/-- The loop, obd/utils.py:190-192. -/
def available (serial : Str → Opening) : List Str → Except Exc (List Str)
  | [] => .ok []
  | p :: ps => do
    let b ← tryPort serial p
    let l ← available serial ps
    return if b then p :: l else l

/-- `scan_serial`, obd/utils.py:166-194. -/
def scanSerial (platform : Str) (glob : String → List Str) (serial : Str → Opening) : Except Exc (List Str) :=
  available serial (possiblePorts platform glob)

end Model
