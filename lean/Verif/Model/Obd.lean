import Verif.Model.Elm
import Verif.Model.Commands
/-!
# Model of `obd/obd.py`

`scan_serial` (obd/utils.py) is a parameter: the list of port names it returned.
-/
namespace Model
open Py

/-- Dictionary key of a command: commands are equal (and hash equally) when their command
bytes and headers agree, obd/OBDCommand.py:145-153. -/
abbrev CmdKey := Bytes × Bytes

/-- The key of a command, obd/OBDCommand.py:145-153. -/
def OBDCommand.key (c : OBDCommand) : CmdKey := (c.command, c.header)

/-- The attributes of an `OBD` object (obd/obd.py:54-60) together with the I/O history.
`supported` lists the elements of the set in the order of insertion. -/
structure OW where
  interface : Option Elm := none
  supported : List OBDCommand := []
  fast : Bool := true
  lastCommand : Bytes := []
  lastHeader : Bytes := engineHeader
  frameCounts : Dict CmdKey Nat := []
  hist : History := []

/-- Methods of `OBD` (obd/obd.py:52-315) that may raise. -/
abbrev ObdM := PyM OW

/-- Python's `a < b` on strings (lexicographic by code point), for obd/obd.py:89. -/
def strLt : Str → Str → Bool
  | _, [] => false
  | [], _ :: _ => true
  | a :: as, b :: bs => if a.toNat < b.toNat then true else if a = b then strLt as bs else false

/-- `a >= b` on strings, obd/obd.py:89. -/
def strGe (a b : Str) : Bool := !strLt a b

/-- `set.add`, obd/obd.py:136 and 140. -/
def addCmd (s : List OBDCommand) (c : OBDCommand) : List OBDCommand :=
  if s.any (fun d => d.eq c) then s else s ++ [c]

namespace ObdM

/-- Call a method of `self.interface` (obd/obd.py:147, 165, 281, ...); AttributeError if it is None. -/
def onInterface {α} (m : ElmM α) : ObdM α := fun s =>
  match s.interface with
  | none => (.error .attributeError, s)
  | some e =>
    let r := m { elm := e, hist := s.hist }
    (r.1, { s with interface := some r.2.elm, hist := r.2.hist })

/-- `status`, obd/obd.py:169-174. -/
def status (s : OW) : Status :=
  match s.interface with
  | none => .notConnected
  | some e => e.status

/-- `is_connected`, obd/obd.py:220-227. -/
def isConnected (s : OW) : Bool := status s = .carConnected

/-- `port_name`, obd/obd.py:213-218. -/
def portName (s : OW) : Str :=
  match s.interface with
  | none => []
  | some e => e.portName

/-- `protocol_id`, obd/obd.py:206-211. -/
def protocolId (s : OW) : Except Exc Str :=
  match s.interface with
  | none => .ok []
  | some e => e.protocolId

/-- `protocol_name`, obd/obd.py:199-204. -/
def protocolName (s : OW) : Except Exc Str :=
  match s.interface with
  | none => .ok []
  | some e => e.protocolName

/-- `supports`, obd/obd.py:237-242. -/
def supports (s : OW) (c : OBDCommand) : Bool := s.supported.any (fun d => d.eq c)

/-- The protocols on which mode 06 is sent, obd/obd.py:256. -/
def canIds : List Str := ["6".toList, "7".toList, "8".toList, "9".toList]

/-- `test_cmd`, obd/obd.py:244-261. -/
def testCmd (s : OW) (c : OBDCommand) : Except Exc Bool := do
  if ¬ supports s c then return false
  else
    let m ← c.mode
    if m = some 6 then
      match s.interface with
      | none => .error .attributeError
      | some e =>
        let id ← e.protocolId
        return decide (id ∈ canIds)
    else return true

/-- `__set_header`, obd/obd.py:144-154. -/
def setHeader (dev : Device) (header : Bytes) : ObdM Unit := do
  let s ← PyM.get
  if header = s.lastHeader then return ()
  else
    let r ← onInterface (ElmM.sendAndParse dev (ascii "AT SH " ++ header ++ ascii " "))
    match r with
    | none => return ()
    | some ms =>
      if ms.isEmpty then return ()
      else if ['\n'].intercalate (ms.map Message.raw) ≠ "OK".toList then return ()
      else PyM.modify (fun s => { s with lastHeader := header })

/-- The command with the number of frames to wait for, obd/obd.py:300-308. -/
def withCount (s : OW) (c : OBDCommand) : Bytes :=
  if s.fast && c.fast then
    match s.frameCounts.get? c.key with
    | some n => c.command ++ decBytes n
    | none => c.command
  else c.command

/-- `__build_command_string`, obd/obd.py:300-315. -/
def buildCommand (s : OW) (c : OBDCommand) : Bytes :=
  if s.fast && withCount s c == s.lastCommand then [] else withCount s c

/-- The number of frames in a reply, obd/obd.py:292. -/
def countFrames (ms : List Message) : Nat := (ms.map (fun m => m.frames.length)).sum

/-- Remembering the last command that was not a repeat, obd/obd.py:286-287. -/
def noteCommand (str : Bytes) : ObdM Unit :=
  if str.isEmpty then return () else PyM.modify (fun s => { s with lastCommand := str })

/-- Remembering the number of frames, obd/obd.py:291-292; `sum` over None raises TypeError. -/
def noteFrames (c : OBDCommand) (messages : Option (List Message)) : ObdM Unit := fun s =>
  if s.frameCounts.mem c.key then (.ok (), s)
  else match messages with
    | none => (.error .typeError, s)
    | some ms => (.ok (), { s with frameCounts := s.frameCounts.set c.key (countFrames ms) })

/-- The response, obd/obd.py:294-298. -/
def answer (fl : ElmM.FloatFn) (c : OBDCommand) : Option (List Message) → ObdM Response
  | none => return {}
  | some ms => if ms.isEmpty then return {} else PyM.ofExcept (c.call fl ms)

/-- The part of `query` that talks to the adapter, obd/obd.py:277-298. -/
def exchange (dev : Device) (fl : ElmM.FloatFn) (c : OBDCommand) : ObdM Response := do
  setHeader dev c.header
  let s ← PyM.get
  let messages ← onInterface (ElmM.sendAndParse dev (buildCommand s c))
  noteCommand (buildCommand s c)
  noteFrames c messages
  answer fl c messages

/-- `query`, obd/obd.py:263-298. -/
def query (dev : Device) (fl : ElmM.FloatFn) (c : OBDCommand) (force : Bool := false) :
    ObdM Response := do
  let s ← PyM.get
  if status s = .notConnected then return {}
  else if force then exchange dev fl c
  else
    let go ← PyM.ofExcept (testCmd s c)
    if go then exchange dev fl c else return {}

/-- `close`, obd/obd.py:156-167. -/
def close (dev : Device) : ObdM Unit := do
  PyM.modify (fun s => { s with supported := [] })
  let s ← PyM.get
  match s.interface with
  | none => return ()
  | some _ =>
    setHeader dev engineHeader
    onInterface (ElmM.close dev)
    PyM.modify (fun s => { s with interface := none })

/-- The bits of a response value, obd/obd.py:129 (iterating anything else is not needed:
PID listing commands decode to a bit array). -/
def valueBits : Value → List Bool
  | .bits a => a.bits
  | _ => []

/-- The loop over the bits of a PID listing, obd/obd.py:129-140. -/
def addSupported (mode pid : Nat) (bits : List Bool) (sup : List OBDCommand) : List OBDCommand :=
  bits.zipIdx.foldl (fun sup e =>
    if e.1 then
      let p := pid + e.2 + 1
      let sup := match (modes[mode]?.bind (fun m => m[p]?)).join with
        | some c => addCmd sup c
        | none => sup
      if mode = 1 then
        match (modes[2]?.bind (fun m => m[p]?)).join with
        | some c => addCmd sup c
        | none => sup
      else sup
    else sup) sup

/-- The loop over the PID listing commands, obd/obd.py:114-140. -/
def loadLoop (dev : Device) (fl : ElmM.FloatFn) : List OBDCommand → ObdM Unit
  | [] => return ()
  | get :: rest => do
    let s ← PyM.get
    if ¬ (← PyM.ofExcept (testCmd s get)) then loadLoop dev fl rest
    else
      let r ← query dev fl get
      if r.isNull then loadLoop dev fl rest
      else
        let mode ← PyM.ofExcept get.mode
        let pid ← PyM.ofExcept get.pid
        PyM.modify (fun s => { s with
          supported := addSupported (mode.getD 0) (pid.getD 0) (valueBits r.value) s.supported })
        loadLoop dev fl rest

/-- `__load_commands`, obd/obd.py:102-142. -/
def loadCommands (dev : Device) (fl : ElmM.FloatFn) : ObdM Unit := do
  let s ← PyM.get
  if status s ≠ .carConnected then return ()
  else loadLoop dev fl pidGetters

/-- `self.interface = ELM327(port, ...)`, obd/obd.py:85-87 and 93-95: if the constructor raises, the attribute keeps its
old value and the exception propagates. -/
def openInterface (dev : Device) (fl : ElmM.FloatFn) (port : Str) (cfg : ElmM.Config) :
    ObdM Unit := fun s =>
  let r := ElmM.construct dev fl port cfg s.hist
  match r.1 with
  | .ok _ => (.ok (), { s with interface := some r.2.elm, hist := r.2.hist })
  | .error e => (.error e, { s with hist := r.2.hist })

/-- The port loop of `__connect`, obd/obd.py:83-90. -/
def tryPorts (dev : Device) (fl : ElmM.FloatFn) (cfg : ElmM.Config) : List Str → ObdM Unit
  | [] => return ()
  | port :: rest => do
    openInterface dev fl port cfg
    let s ← PyM.get
    if strGe (status s).text Status.elmConnected.text then return ()
    else tryPorts dev fl cfg rest

/-- The end of `__connect`, obd/obd.py:97-100. -/
def closeIfFailed (dev : Device) : ObdM Unit := do
  let s ← PyM.get
  if status s = .notConnected then close dev else return ()

/-- `__connect`, obd/obd.py:68-100; `ports` is the result of `scan_serial()`. -/
def connect (dev : Device) (fl : ElmM.FloatFn) (ports : List Str) (portstr : Option Str)
    (cfg : ElmM.Config) : ObdM Unit := do
  match portstr with
  | none =>
    if ports.isEmpty then return ()
    else
      tryPorts dev fl cfg ports
      closeIfFailed dev
  | some p =>
    openInterface dev fl p cfg
    closeIfFailed dev

/-- `OBD.__init__`, obd/obd.py:52-66. -/
def construct (dev : Device) (fl : ElmM.FloatFn) (ports : List Str) (portstr : Option Str)
    (fast : Bool) (cfg : ElmM.Config) : Except Exc Unit × OW :=
  (do
    connect dev fl ports portstr cfg
    loadCommands dev fl : ObdM Unit) { supported := baseCommands, fast := fast }

/-- `low_power`, obd/obd.py:176-181 (`none` = no interface or None). -/
def lowPower (dev : Device) : ObdM (Option (List Str)) := do
  let s ← PyM.get
  match s.interface with
  | none => return none
  | some _ => onInterface (ElmM.lowPower dev)

/-- `normal_power`, obd/obd.py:183-188. -/
def normalPower (dev : Device) : ObdM (Option (List Str)) := do
  let s ← PyM.get
  match s.interface with
  | none => return none
  | some _ => onInterface (ElmM.normalPower dev)

end ObdM
end Model
