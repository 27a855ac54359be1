import Verif.Model.Async
/-!
# Model of `obd/asynchronous.py` on top of `obd/obd.py` and `obd/elm327.py`, step by step

`Model/Async.lean` lets one query, one power call and one `close()` of the connection happen
at once.  Here they are programs of single steps, and the steps of all threads interleave:
every use of the serial port and every access to an attribute is a step of its own (one
`__read` loop is one step; `__port.close()` does not raise).
-/
namespace Model
open Py

/-- A Python function as a program of atomic steps on shared state `σ` (not part of /repo: the
functions of obd/elm327.py:376-552 and obd/obd.py:144-315 are written in it below). -/
inductive Prog (σ α : Type) : Type 1 where
  | done (r : Except Exc α)
  | act {β : Type} (m : PyM σ β) (k : Except Exc β → Prog σ α)

namespace Prog
variable {σ τ α β : Type}

/-- One atomic step (Python semantics, no code of its own in obd/). -/
def atom (m : PyM σ α) : Prog σ α := .act m .done

/-- Sequencing (Python semantics, no code of its own in obd/): an exception ends the function. -/
def andThen : Prog σ α → (α → Prog σ β) → Prog σ β
  | .done (.ok a), f => f a
  | .done (.error e), _ => .done (.error e)
  | .act m k, f => .act m (fun r => (k r).andThen f)

/-- Do notation (Python semantics, no code of its own in obd/). -/
instance : Monad (Prog σ) where
  pure := fun a => .done (.ok a)
  bind := andThen

/-- Running a program without interruption (Python semantics, no code of its own in obd/). -/
def run : Prog σ α → PyM σ α
  | .done r => fun s => (r, s)
  | .act m k => fun s => (k (m s).1).run (m s).2

/-- A method of `self.interface` seen as a program on the `OBD` object, obd/obd.py:147, 165, 181, 188 and 281
(the methods work on the attributes of the adapter object). -/
def onAdapter : Prog EW α → Prog OW α
  | .done r => .done r
  | .act m k => .act (ObdM.onInterface m) (fun r => (k r).onAdapter)

end Prog

namespace FineElm

/-- Reading attributes of the adapter object, obd/elm327.py:376-552. -/
def self : Prog EW Elm := .atom ElmM.getElm
/-- Assigning an attribute of the adapter object, obd/elm327.py:376-552. -/
def assign (f : Elm → Elm) : Prog EW Unit := .atom (ElmM.modifyElm f)

/-- `flushInput()`, `write()` and `flush()`, obd/elm327.py:506-508; False: one of them raised. -/
def writePort (dev : Device) (bytes : Bytes) : Prog EW Bool :=
  .atom (fun w => (.ok (dev.write w.hist bytes), { w with hist := w.hist ++ [.write bytes (dev.write w.hist bytes)] }))

/-- The read loop, obd/elm327.py:530-552; `none`: `read()` raised. -/
def readPort (dev : Device) (marker : Bytes) : Prog EW (Option Bytes) :=
  .atom (fun w => (.ok (readLoop marker [] (dev.read w.hist)), { w with hist := w.hist ++ [.read (readLoop marker [] (dev.read w.hist))] }))

/-- `self.__port.close()`, obd/elm327.py:444, 511 and 536. -/
def closePort : Prog EW Unit := .atom (fun w => (.ok (), { w with hist := w.hist ++ [.close] }))

/-- The `except` clauses of `__write` and `__read`, obd/elm327.py:509-512 and 534-537. -/
def disconnected : Prog EW Unit := do
  assign (fun e => { e with status := .notConnected })
  closePort
  assign (fun e => { e with port := none })

/-- `__write`, obd/elm327.py:497-516. -/
def write (dev : Device) (cmd : Bytes) : Prog EW Unit := do
  let e ← self
  match e.port with
  | none => return ()
  | some _ =>
    let ok ← writePort dev (cmd ++ [0x0D])
    if ok then return () else disconnected

/-- `__read`, obd/elm327.py:518-570. -/
def read (dev : Device) (marker : Bytes) : Prog EW (List Str) := do
  let e ← self
  match e.port with
  | none => return []
  | some _ =>
    let r ← readPort dev marker
    match r with
    | some buffer => return cleanLines buffer
    | none =>
      disconnected
      return []

/-- The retry loop of `__send`, obd/elm327.py:489-494, with `n` retries left. -/
def retry (dev : Device) (marker : Bytes) : Nat → List Str → Prog EW (List Str)
  | 0, r => return r
  | n + 1, r =>
    if r.isEmpty then do
      let r ← read dev marker
      retry dev marker n r
    else return r

/-- `__send`, obd/elm327.py:471-495. -/
def send (dev : Device) (cmd : Bytes) (delay : Bool := false) (marker : Bytes := elmPrompt) : Prog EW (List Str) := do
  write dev cmd
  let r ← read dev marker
  retry dev marker (if delay then 0 else 11) r

/-- `close`, obd/elm327.py:432-445. -/
def close (dev : Device) : Prog EW Unit := do
  assign (fun e => { e with status := .notConnected })
  assign (fun e => { e with protocol := none })
  let e ← self
  match e.port with
  | none => return ()
  | some _ =>
    write dev (ascii "ATZ")
    let e ← self
    match e.port with
    | none => .done (.error .attributeError)
    | some _ =>
      closePort
      assign (fun e => { e with port := none })

/-- `low_power`, obd/elm327.py:376-404. -/
def lowPower (dev : Device) : Prog EW (Option (List Str)) := do
  let e ← self
  if e.status = .notConnected then return none
  else
    let lines ← send dev (ascii "ATLP") true elmLpActive
    if "OK".toList ∈ lines then assign (fun e => { e with lowPower := true })
    return some lines

/-- `normal_power`, obd/elm327.py:406-430. -/
def normalPower (dev : Device) : Prog EW (Option (List Str)) := do
  let e ← self
  if e.status = .notConnected then return none
  else
    let lines ← send dev (ascii " ")
    assign (fun e => { e with lowPower := false })
    return some lines

/-- Waking up, obd/elm327.py:462-464. -/
def wake (dev : Device) : Prog EW Unit := do
  let e ← self
  if e.lowPower then
    let _ ← normalPower dev
    return ()
  else return ()

/-- `send_and_parse`, obd/elm327.py:447-469. -/
def sendAndParse (dev : Device) (cmd : Bytes) : Prog EW (Option (List Message)) := do
  let e ← self
  if e.status = .notConnected then return none
  else
    wake dev
    let lines ← send dev cmd
    let e ← self
    match e.protocol with
    | none => .done (.error .typeError)
    | some p => .done ((p.call lines).map some)

end FineElm

namespace FineObd

/-- Reading attributes of the `OBD` object, obd/obd.py:144-315. -/
def self : Prog OW OW := .atom PyM.get
/-- Assigning an attribute of the `OBD` object, obd/obd.py:144-315. -/
def assign (f : OW → OW) : Prog OW Unit := .atom (PyM.modify f)

/-- `self.interface.method()`, obd/obd.py:147, 165, 181, 188 and 281: AttributeError if it is None. -/
def call {α : Type} (p : Prog EW α) : Prog OW α := do
  let s ← self
  match s.interface with
  | none => .done (.error .attributeError)
  | some _ => p.onAdapter

/-- `__set_header`, obd/obd.py:144-154. -/
def setHeader (dev : Device) (header : Bytes) : Prog OW Unit := do
  let s ← self
  if header = s.lastHeader then return ()
  else
    let r ← call (FineElm.sendAndParse dev (ascii "AT SH " ++ header ++ ascii " "))
    match r with
    | none => return ()
    | some ms =>
      if ms.isEmpty then return ()
      else if ['\n'].intercalate (ms.map Message.raw) ≠ "OK".toList then return ()
      else assign (fun s => { s with lastHeader := header })

/-- Lines obd/obd.py:286-287. -/
def noteCommand (str : Bytes) : Prog OW Unit :=
  if str.isEmpty then return () else assign (fun s => { s with lastCommand := str })

/-- Lines obd/obd.py:291-292. -/
def noteFrames (c : OBDCommand) (messages : Option (List Message)) : Prog OW Unit := do
  let s ← self
  if s.frameCounts.mem c.key then return ()
  else match messages with
    | none => .done (.error .typeError)
    | some ms => assign (fun s => { s with frameCounts := s.frameCounts.set c.key (ObdM.countFrames ms) })

/-- The decoding of the reply, obd/obd.py:294-298. -/
def answer (fl : ElmM.FloatFn) (c : OBDCommand) : Option (List Message) → Prog OW Response
  | none => return {}
  | some ms => if ms.isEmpty then return {} else .done (c.call fl ms)

/-- The part of `query` that talks to the adapter, obd/obd.py:277-298. -/
def exchange (dev : Device) (fl : ElmM.FloatFn) (c : OBDCommand) : Prog OW Response := do
  setHeader dev c.header
  let s ← self
  let messages ← call (FineElm.sendAndParse dev (ObdM.buildCommand s c))
  noteCommand (ObdM.buildCommand s c)
  noteFrames c messages
  answer fl c messages

/-- `query(c, force=True)` of the update loop, obd/obd.py:263-298. -/
def query (dev : Device) (fl : ElmM.FloatFn) (c : OBDCommand) : Prog OW Response := do
  let s ← self
  if ObdM.status s = .notConnected then return {}
  else exchange dev fl c

/-- `close`, obd/obd.py:156-167. -/
def close (dev : Device) : Prog OW Unit := do
  assign (fun s => { s with supported := [] })
  let s ← self
  match s.interface with
  | none => return ()
  | some _ =>
    setHeader dev engineHeader
    call (FineElm.close dev)
    assign (fun s => { s with interface := none })

/-- `low_power` and `normal_power`, obd/obd.py:176-188. -/
def power (dev : Device) (op : AOp) : Prog OW (Option (List Str)) := do
  let s ← self
  match s.interface with
  | none => return none
  | some _ => match op with
    | .lowPower => call (FineElm.lowPower dev)
    | _ => call (FineElm.normalPower dev)

end FineObd

/-- What an update thread is doing on the connection: the query of the loop (obd/asynchronous.py:215), or a
method called by a callback (:222, obd/obd.py:156-188). -/
inductive Job : Type 1 where
  | query (p : Prog OW Response)
  | power (op : AOp) (p : Prog OW (Option (List Str)))
  | close (p : Prog OW Unit)

/-- What the user's thread is doing on the connection: obd/asynchronous.py:122 or obd/obd.py:176-188. -/
inductive UserJob : Type 1 where
  | close (p : Prog OW Unit)
  | power (p : Prog OW (Option (List Str)))

/-- The state of the object and of the threads of obd/asynchronous.py, with the calls to the connection that are under way. -/
structure FW : Type 1 where
  aw : AW
  jobs : Nat → Option Job := fun _ => none
  user : Option UserJob := none

namespace FW

/-- The job of update thread `t` (obd/asynchronous.py:199-226) changes. -/
def setJob (t : Nat) (j : Option Job) (f : FW) : FW := { f with jobs := fun t' => if t' = t then j else f.jobs t' }
/-- The connection (obd/obd.py) changes. -/
def setObd (o : OW) (f : FW) : FW := { f with aw := { f.aw with obd := o } }

/-- A step of the user's thread in a call to the connection (obd/asynchronous.py:122, obd/obd.py:156-188). -/
def userStep (op : AOp) (f : FW) : UserJob → FW
  | .close (.act m k) => { f.setObd (m f.aw.obd).2 with user := some (.close (k (m f.aw.obd).1)) }
  | .close (.done (.ok _)) => { f with user := none, aw := f.aw.ret op }
  | .close (.done (.error x)) => { f with user := none, aw := f.aw.raise op x }
  | .power (.act m k) => { f.setObd (m f.aw.obd).2 with user := some (.power (k (m f.aw.obd).1)) }
  | .power (.done (.ok _)) => { f with user := none, aw := f.aw.ret op }
  | .power (.done (.error x)) => { f with user := none, aw := f.aw.raise op x }

/-- The loop gets the outcome of its query, obd/asynchronous.py:215. -/
def gotResponse (t : Nat) (it : Iter) (c : OBDCommand) (s : AW) : Except Exc Response → AW
  | .ok r => (s.setPc t (.store it c r)).emit (.queried c)
  | .error x => ((s.setPc t (.finished (.query x))).emit (.queried c)).emit (.ended (.query x))

/-- A step of update thread `t` at `pc` in a call to the connection (obd/asynchronous.py:215 and :222). -/
def jobStep (t : Nat) (pc : Pc) (f : FW) : Job → Option FW
  | .query (.act m k) => some ((f.setObd (m f.aw.obd).2).setJob t (some (.query (k (m f.aw.obd).1))))
  | .query (.done r) => match pc with
    | .query it c => some { f.setJob t none with aw := gotResponse t it c f.aw r }
    | _ => none
  | .power op (.act m k) => some ((f.setObd (m f.aw.obd).2).setJob t (some (.power op (k (m f.aw.obd).1))))
  | .power _ (.done _) => some (f.setJob t none)
  | .close (.act m k) => some ((f.setObd (m f.aw.obd).2).setJob t (some (.close (k (m f.aw.obd).1))))
  | .close (.done _) => some (f.setJob t none)

/-- A method call by a callback (obd/asynchronous.py:222): the calls that use the connection begin, the others happen at once. -/
def cbBegin (dev : Device) (t : Nat) (op : AOp) (f : FW) : Option FW :=
  match op with
  | .lowPower => some (f.setJob t (some (.power op (FineObd.power dev op))))
  | .normalPower => some (f.setJob t (some (.power op (FineObd.power dev op))))
  | .close => if f.aw.thread = none then some (f.setJob t (some (.close (FineObd.close dev)))) else (f.aw.cbStop t).map (fun s => { f with aw := s })
  | op => (f.aw.cbCall dev t op).map (fun s => { f with aw := s })

/-- One step of one thread of obd/asynchronous.py:64-226, obd/obd.py or obd/elm327.py; `none`: the action is not possible. -/
def step (dev : Device) (fl : ElmM.FloatFn) (f : FW) : Action → Option FW
  | .call op => (f.aw.step dev fl (.call op)).map (fun s => { f with aw := s })
  | .caller =>
    match f.aw.caller with
    | .idle => none
    | .busy op pc =>
      match f.user with
      | some j => some (f.userStep op j)
      | none =>
        match pc with
        | .closeObd => some { f with user := some (.close (FineObd.close dev)) }
        | .power => some { f with user := some (.power (FineObd.power dev op)) }
        | pc => (f.aw.callerStep dev op pc).map (fun s => { f with aw := s })
  | .daemon t =>
    match f.aw.threads[t]? with
    | none => none
    | some pc =>
      match f.jobs t with
      | some j => f.jobStep t pc j
      | none =>
        match pc with
        | .query _ c => some (f.setJob t (some (.query (FineObd.query dev fl c))))
        | pc => (f.aw.daemonStep dev fl t pc).map (fun s => { f with aw := s })
  | .cb t op =>
    match f.aw.threads[t]? with
    | some (.inside ..) =>
      match f.jobs t with
      | some _ => none
      | none => f.cbBegin dev t op
    | _ => none
  | .cbEnd t ok =>
    match f.jobs t with
    | some _ => none
    | none => (f.aw.step dev fl (.cbEnd t ok)).map (fun s => { f with aw := s })
  | .reorder t rest =>
    match f.jobs t with
    | some _ => none
    | none => (f.aw.step dev fl (.reorder t rest)).map (fun s => { f with aw := s })

end FW
end Model
