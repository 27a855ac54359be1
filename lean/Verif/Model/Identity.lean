import Verif.Model.Protocol
/-!
# Model of the comparison of messages: `Message.__eq__`

`Frame` (obd/protocols/protocol.py:64-76) defines no `__eq__`, so that two frames compare equal
exactly when they are the same object.  Here each frame object has an identity, a number that
is new when the object is made; `k` is the next free one.  The fields of frames and messages are
those of `Model/Protocol`, and erasing the identities gives `Proto.call` (proved in
`Props/Identity`).
-/
namespace Model
open Py

/-- A `Frame` object, obd/protocols/protocol.py:64-76. -/
structure FrameObj where
  id : Nat
  frame : Frame
  deriving DecidableEq, Repr

/-- A `Message` object, obd/protocols/protocol.py:79-116. -/
structure MsgObj where
  frames : List FrameObj
  ecu : Nat := ECU.unknown
  data : Bytes := []
  deriving DecidableEq, Repr

/-- The message without the identities of its frames (obd/protocols/protocol.py:79-116). -/
def MsgObj.erase (m : MsgObj) : Message := { frames := m.frames.map FrameObj.frame, ecu := m.ecu, data := m.data }

/-- `Message.__eq__`, obd/protocols/protocol.py:105-112: `list` compares the frames one by one, by identity. -/
def MsgObj.eq (a b : MsgObj) : Bool :=
  decide (a.frames.map FrameObj.id = b.frames.map FrameObj.id) && decide (a.ecu = b.ecu) && decide (a.data = b.data)

/-- The frame loop, obd/protocols/protocol.py:197-205: a new object for each line. -/
def parseFrameObjs (p : Proto) : Nat → List Str → Except Exc (List FrameObj)
  | _, [] => .ok []
  | k, l :: ls => do
    let f ← p.parseFrame { raw := l }
    let fs ← parseFrameObjs p (k + 1) ls
    match f with
    | some f => return { id := k, frame := f } :: fs
    | none => return fs

/-- The grouping loop, obd/protocols/protocol.py:209-214. -/
def groupFrameObjs (frames : List FrameObj) : Dict (Option Nat) (List FrameObj) :=
  frames.foldl (fun d f =>
    match d.get? f.frame.txId with
    | none => d.set f.frame.txId [f]
    | some fs => d.set f.frame.txId (fs ++ [f])) []

/-- The message loop, obd/protocols/protocol.py:216-229. -/
def parseMessageObjs (p : Proto) (ecuMap : Dict (Option Nat) Nat)
    (groups : Dict (Option Nat) (List FrameObj)) : List (Option Nat) → Except Exc (List MsgObj)
  | [] => .ok []
  | ecu :: rest => do
    let frames := (groups.get? ecu).getD []
    let data ← p.parseMessage (frames.map FrameObj.frame)
    let ms ← parseMessageObjs p ecuMap groups rest
    match data with
    | some data =>
      return { frames := frames, ecu := (ecuMap.get? ecu).getD ECU.unknown, data := data } :: ms
    | none => return ms

/-- The messages of the other lines, obd/protocols/protocol.py:231-234: a new frame object for each. -/
def lineObjs : Nat → List Str → List MsgObj
  | _, [] => []
  | k, l :: ls => { frames := [{ id := k, frame := { raw := l } }] } :: lineObjs (k + 1) ls

/-- `Protocol.__call__`, obd/protocols/protocol.py:169-236, when the next free identity is `k`. -/
def Proto.callObjs (p : Proto) (ecuMap : Dict (Option Nat) Nat) (k : Nat) (lines : List Str) : Except Exc (List MsgObj) := do
  let frames ← parseFrameObjs p k (obdLines lines)
  let groups := groupFrameObjs frames
  let ms ← parseMessageObjs p ecuMap groups (sortBy txKey groups.keys)
  return ms ++ lineObjs (k + (obdLines lines).length) (nonObdLines lines)

end Model
