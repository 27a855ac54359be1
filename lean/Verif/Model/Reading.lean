import Verif.Model.Elm
/-!
# The read loop, step by step

`Model.readLoop` gets the outcomes of the reads of one call as a finite list.  Here the port goes on for ever: read number `k` of the
call has outcome `port k`, and the loop need not end.
-/
namespace Model
open Py

/-- Where the loop is: in it, with the buffer and the number of reads so far, or past it with the buffer, or out by an
exception of `port.read` (obd/elm327.py:530-552). -/
inductive Reading where
  | running (buffer : Bytes) (k : Nat)
  | finished (result : Option Bytes)
  deriving DecidableEq

/-- One pass through the loop, obd/elm327.py:530-552. -/
def Reading.step (port : Nat → Option Bytes) (marker : Bytes) : Reading → Reading
  | .finished r => .finished r
  | .running buffer k =>
    match port k with
    | none => .finished none
    | some data =>
      if data.isEmpty then .finished (some buffer)
      else if isIn marker (buffer ++ data) then .finished (some (buffer ++ data))
      else .running (buffer ++ data) (k + 1)

/-- `n` passes, from obd/elm327.py:528 on. -/
def Reading.after (port : Nat → Option Bytes) (marker : Bytes) : Nat → Reading
  | 0 => .running [] 0
  | n + 1 => (Reading.after port marker n).step port marker

end Model
