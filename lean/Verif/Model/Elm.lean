import Verif.Py.Monad
import Verif.Py.Float
import Verif.Model.Protocol
/-!
# Model of `obd/elm327.py`

The adapter is an arbitrary `Device`: every I/O operation asks it for its outcome, which
may depend on the whole history of I/O so far.  Time is not modelled.
-/
namespace Model
open Py

/-- One I/O operation on a serial port, obd/elm327.py:127, 296, 309-324, 444, 506-508, 532-552. -/
inductive Event where
  | open_ (port : Str) (err : Option Exc)      -- `serial.serial_for_url`
  | setBaud (baud : Nat) (err : Option Exc)    -- `port.baudrate = baud`
  | probe (baud : Nat) (res : Except Exc Bytes) -- one round of `auto_baudrate`
  | write (bytes : Bytes) (ok : Bool)          -- flushInput, write, flush; `ok = false`: raised
  | read (res : Option Bytes)                  -- one `__read` loop: the bytes received, `none`: raised
  | close                                      -- `port.close()`

/-- All I/O operations so far (of the kinds in obd/elm327.py), oldest first. -/
abbrev History := List Event

/-- An arbitrary adapter with an arbitrary car behind it, as seen by obd/elm327.py.
* `openPort`: the exception raised by `serial_for_url`, if any;
* `setBaud`: the exception raised by assigning `port.baudrate`, if any;
* `probe`: what one round of `auto_baudrate` (set rate, flush, write `7F 7F CR`, flush,
  read) gives;
* `write`: whether flushInput/write/flush all succeed;
* `read`: the outcomes of successive `port.read(...)` calls in one `__read` loop: `none`
  raises, `some []` (or the end of the list) is a timeout.  The list is finite: an adapter
  that chatters forever without a prompt is not modelled. -/
structure Device where
  openPort : History → Str → Option Exc
  setBaud : History → Nat → Option Exc
  probe : History → Nat → Except Exc Bytes
  write : History → Bytes → Bool
  read : History → List (Option Bytes)

/-- The attributes of the `serial` object that the code uses (obd/elm327.py:127-131, 201, 296, 306-310,
360); `timeout` in seconds. -/
structure Port where
  name : Str
  baud : Nat
  timeout : Rat
  deriving DecidableEq

/-- The attributes of an `ELM327` object, obd/elm327.py:119-123. -/
structure Elm where
  status : Status
  port : Option Port
  protocol : Option ProtoObj
  lowPower : Bool
  timeout : Rat
  deriving DecidableEq

/-- An `ELM327` object (obd/elm327.py:43-123) together with the I/O history. -/
structure EW where
  elm : Elm
  hist : History

/-- `ELM_PROMPT`, obd/elm327.py:59. -/
def elmPrompt : Bytes := ascii ">"
/-- `ELM_LP_ACTIVE`, obd/elm327.py:61. -/
def elmLpActive : Bytes := ascii "OK"

/-- `_SUPPORTED_PROTOCOLS`, obd/elm327.py:63-80. -/
def supportedProtocols : Dict Str Proto :=
  [("1".toList, .j1850pwm), ("2".toList, .j1850vpw), ("3".toList, .iso9141),
   ("4".toList, .kwp5baud), ("5".toList, .kwpFast), ("6".toList, .can11_500),
   ("7".toList, .can29_500), ("8".toList, .can11_250), ("9".toList, .can29_250),
   ("A".toList, .j1939)]

/-- `_TRY_PROTOCOL_ORDER`, obd/elm327.py:83-94. -/
def tryProtocolOrder : List Str :=
  ["6".toList, "8".toList, "1".toList, "7".toList, "9".toList, "2".toList, "3".toList,
   "4".toList, "5".toList, "A".toList]

/-- `_TRY_BAUDS`, obd/elm327.py:106. -/
def tryBauds : List Nat := [38400, 9600, 230400, 115200, 57600, 19200]

/-- `str.encode()` of an ASCII string, obd/elm327.py:225 and 276. -/
def encodeAscii (s : Str) : Bytes := s.map (fun c => UInt8.ofNat c.toNat)

namespace Elm

/-- `port_name`, obd/elm327.py:358-362. -/
def portName (e : Elm) : Str :=
  match e.port with
  | some p => p.name
  | none => []

/-- `protocol_id`, obd/elm327.py:373-374: AttributeError once `__protocol` is None. -/
def protocolId (e : Elm) : Except Exc Str :=
  match e.protocol with
  | some p => .ok p.cls.elmId
  | none => .error .attributeError

/-- `protocol_name`, obd/elm327.py:370-371. -/
def protocolName (e : Elm) : Except Exc Str :=
  match e.protocol with
  | some p => .ok p.cls.elmName
  | none => .error .attributeError

/-- `ecus`, obd/elm327.py:367-368. -/
def ecus (e : Elm) : Except Exc (List Nat) :=
  match e.protocol with
  | some p => .ok (p.ecuMap.map Prod.snd)
  | none => .error .attributeError

end Elm

/-- The read loop of `__read`, obd/elm327.py:530-552: the accumulated buffer, or `none`
if `port.read` raised. -/
def readLoop (marker : Bytes) : Bytes → List (Option Bytes) → Option Bytes
  | buffer, [] => some buffer
  | _, none :: _ => none
  | buffer, some data :: rest =>
    if data.isEmpty then some buffer
    else if isIn marker (buffer ++ data) then some (buffer ++ data)
    else readLoop marker (buffer ++ data) rest

/-- The clean-up of the buffer, obd/elm327.py:554-570. -/
def cleanLines (buffer : Bytes) : List Str :=
  let buffer := buffer.filter (fun b => b != 0)
  let buffer := if buffer.getLast? = some 0x3E then buffer.dropLast else buffer
  ((splitCRLF (utf8Ignore none buffer)).filter (fun s => !s.isEmpty)).map strip

namespace EW

/-- `__write`, obd/elm327.py:497-516. -/
def write (dev : Device) (cmd : Bytes) (w : EW) : EW :=
  match w.elm.port with
  | none => w
  | some _ =>
    let bytes := cmd ++ [0x0D]
    if dev.write w.hist bytes then { w with hist := w.hist ++ [.write bytes true] }
    else { elm := { w.elm with status := .notConnected, port := none }
           hist := w.hist ++ [.write bytes false, .close] }

/-- `__read`, obd/elm327.py:518-570. -/
def read (dev : Device) (marker : Bytes) (w : EW) : List Str × EW :=
  match w.elm.port with
  | none => ([], w)
  | some _ =>
    let chunks := dev.read w.hist
    match readLoop marker [] chunks with
    | some buffer => (cleanLines buffer, { w with hist := w.hist ++ [.read (some buffer)] })
    | none => ([], { elm := { w.elm with status := .notConnected, port := none }
                     hist := w.hist ++ [.read none, .close] })

/-- The retry loop of `__send`, obd/elm327.py:489-494, with `n` retries left. -/
def retry (dev : Device) (marker : Bytes) : Nat → List Str × EW → List Str × EW
  | 0, r => r
  | n + 1, r => if r.1.isEmpty then retry dev marker n (read dev marker r.2) else r

/-- `__send`, obd/elm327.py:471-495.  Without a delay the loop runs while `delayed < 1.0`,
adding 0.1 each time: 11 times in binary64.  With `delay=1` it does not run. -/
def send (dev : Device) (cmd : Bytes) (delay : Bool) (marker : Bytes) (w : EW) : List Str × EW :=
  retry dev marker (if delay then 0 else 11) (read dev marker (write dev cmd w))

/-- `__has_message`, obd/elm327.py:347-351. -/
def hasMessage (lines : List Str) (text : Str) : Bool := lines.any (isIn text)

/-- `__isok`, obd/elm327.py:337-345. -/
def isOk (lines : List Str) (expectEcho : Bool) : Bool :=
  if lines.isEmpty then false
  else if expectEcho then hasMessage lines "OK".toList
  else lines == ["OK".toList]

end EW

/-- Methods of `ELM327` (obd/elm327.py:108-495) that may raise. -/
abbrev ElmM := PyM EW

namespace ElmM

/-- Reading attributes of `self` (obd/elm327.py:119-123). -/
def getElm : ElmM Elm := fun w => (.ok w.elm, w)
/-- Assigning attributes of `self` (obd/elm327.py:119-123). -/
def modifyElm (f : Elm → Elm) : ElmM Unit := fun w => (.ok (), { w with elm := f w.elm })

/-- `__send`, obd/elm327.py:471-495, as a method call. -/
def send (dev : Device) (cmd : Bytes) (delay : Bool := false) (marker : Bytes := elmPrompt) :
    ElmM (List Str) := PyM.lift (EW.send dev cmd delay marker)

/-- `__write`, obd/elm327.py:497-516, as a method call. -/
def write (dev : Device) (cmd : Bytes) : ElmM Unit := fun w => (.ok (), w.write dev cmd)

/-- `close`, obd/elm327.py:432-445.  `self.__write` may have lost the port and set
`__port` to None, then `self.__port.close()` raises AttributeError. -/
def close (dev : Device) : ElmM Unit := do
  modifyElm (fun e => { e with status := .notConnected, protocol := none })
  let e ← getElm
  match e.port with
  | none => return ()
  | some _ =>
    write dev (ascii "ATZ")
    let e ← getElm
    match e.port with
    | none => PyM.throw .attributeError
    | some _ =>
      PyM.modify (fun w => { elm := { w.elm with port := none }, hist := w.hist ++ [.close] })

/-- `__error`, obd/elm327.py:353-356. -/
def error (dev : Device) : ElmM Unit := close dev

/-- One round of the loop in `auto_baudrate`, obd/elm327.py:309-326. -/
def probe (dev : Device) (baud : Nat) : ElmM Bytes := fun w =>
  let res := dev.probe w.hist baud
  (res, { elm := { w.elm with port := w.elm.port.map (fun p => { p with baud := baud }) }
          hist := w.hist ++ [.probe baud res] })

/-- `self.__port.timeout = t`, obd/elm327.py:307, 330 and 334. -/
def setTimeout (t : Rat) : ElmM Unit :=
  modifyElm (fun e => { e with port := e.port.map (fun p => { p with timeout := t }) })

/-- The loop of `auto_baudrate`, obd/elm327.py:309-335; `timeout` is the saved value. -/
def tryRates (dev : Device) (timeout : Rat) : List Nat → ElmM Bool
  | [] => do
    setTimeout timeout
    return false
  | baud :: rest => do
    let response ← probe dev baud
    if response.getLast? = some 0x3E then
      setTimeout timeout
      return true
    else tryRates dev timeout rest

/-- `auto_baudrate`, obd/elm327.py:299-335 (AttributeError if there is no port). -/
def autoBaudrate (dev : Device) : ElmM Bool := do
  let e ← getElm
  match e.port with
  | none => PyM.throw .attributeError
  | some p =>
    setTimeout e.timeout
    tryRates dev p.timeout tryBauds

/-- `set_baudrate`, obd/elm327.py:287-297. -/
def setBaudrate (dev : Device) (baud : Option Nat) : ElmM Bool := do
  let e ← getElm
  match baud with
  | none =>
    if "/dev/pts".toList.isPrefixOf e.portName then return true
    else autoBaudrate dev
  | some b =>
    match e.port with
    | none => PyM.throw .attributeError
    | some _ =>
      fun w =>
        let err := dev.setBaud w.hist b
        let w' := { w with hist := w.hist ++ [.setBaud b err] }
        match err with
        | some x => (.error x, w')
        | none => (.ok true,
            { w' with elm := { w.elm with port := w.elm.port.map (fun p => { p with baud := b }) } })

/-- `self.__protocol = cls(r0100)`, obd/elm327.py:230, 267 and 280. -/
def loadProtocol (p : Proto) (r0100 : List Str) : ElmM Unit := do
  let obj ← PyM.ofExcept (p.init r0100)
  modifyElm (fun e => { e with protocol := some obj })

/-- The text looked for in the reply to `0100`, obd/elm327.py:228, 250 and 278. -/
def unableToConnect : Str := "UNABLE TO CONNECT".toList

/-- Trying one protocol: `manual_protocol`, obd/elm327.py:224-233, and the loop body in
`auto_protocol`, elm327.py:275-281, which are the same code. -/
def manualProtocol (dev : Device) (id : Str) (p : Proto) : ElmM Bool := do
  let _ ← send dev (ascii "ATTP" ++ encodeAscii id)
  let r0100 ← send dev (ascii "0100")
  if EW.hasMessage r0100 unableToConnect then return false
  else
    loadProtocol p r0100
    return true

/-- The fallback loop of `auto_protocol`, obd/elm327.py:273-285. -/
def tryProtocols (dev : Device) : List Str → ElmM Bool
  | [] => return false
  | id :: rest => do
    match supportedProtocols.get? id with
    | none => PyM.throw .keyError
    | some p =>
      if ← manualProtocol dev id p then return true
      else tryProtocols dev rest

/-- Removing the "automatic" prefix, obd/elm327.py:262. -/
def stripAuto (p : Str) : Str := if p.length > 1 ∧ p.head? = some 'A' then p.drop 1 else p

/-- `auto_protocol`, obd/elm327.py:235-285. -/
def autoProtocol (dev : Device) : ElmM Bool := do
  let _ ← send dev (ascii "ATSP0") true
  let r0100 ← send dev (ascii "0100") true
  if EW.hasMessage r0100 unableToConnect then return false
  else
    let r ← send dev (ascii "ATDPN")
    match r with
    | [line] =>
      match supportedProtocols.get? (stripAuto line) with
      | some p =>
        loadProtocol p r0100
        return true
      | none => tryProtocols dev tryProtocolOrder
    | _ => return false

/-- `set_protocol`, obd/elm327.py:211-222. -/
def setProtocol (dev : Device) (protocol : Option Str) : ElmM Bool :=
  match protocol with
  | some id =>
    match supportedProtocols.get? id with
    | none => return false
    | some p => manualProtocol dev id p
  | none => autoProtocol dev

/-- `float(...) < 6`, obd/elm327.py:186. -/
def below6 : PyFloat → Bool
  | .fin q => decide (q < 6)
  | .inf => false
  | .negInf => true
  | .nan => false

/-- Python's `float()` on strings (obd/elm327.py:186, obd/decoders.py:268): `none` = ValueError. -/
abbrev FloatFn := Str → Option PyFloat

/-- `"%s" % self.__port.baudrate` in the log message after connecting, elm327.py:198-203. -/
def logConnected : ElmM Unit := do
  let e ← getElm
  match e.port with
  | none => PyM.throw .attributeError
  | some _ => return ()

/-- End of `__init__`, obd/elm327.py:195-209. -/
def initProtocol (dev : Device) (protocol : Option Str) : ElmM Unit := do
  if ← setProtocol dev protocol then
    modifyElm (fun e => { e with status := .carConnected })
    logConnected
  else return ()

/-- The voltage check of `__init__`, obd/elm327.py:179-193, then `initProtocol`. -/
def initVoltage (dev : Device) (fl : FloatFn) (protocol : Option Str) (checkVoltage : Bool) :
    ElmM Unit := do
  if checkVoltage then
    let r ← send dev (ascii "AT RV")
    match r with
    | [line] =>
      if line.isEmpty then error dev
      else match fl ((lower line).filter (fun c => c != 'v')) with
        | none => error dev
        | some x =>
          if below6 x then return ()
          else
            modifyElm (fun e => { e with status := .obdConnected })
            initProtocol dev protocol
    | _ => error dev
  else initProtocol dev protocol

/-- The reset and AT set-up of `__init__`, obd/elm327.py:150-177, then the rest. -/
def initAt (dev : Device) (fl : FloatFn) (protocol : Option Str) (checkVoltage : Bool) :
    ElmM Unit := do
  let _ ← send dev (ascii "ATZ") true
  let r ← send dev (ascii "ATE0")
  if ¬ EW.isOk r true then error dev
  else
    let r ← send dev (ascii "ATH1")
    if ¬ EW.isOk r false then error dev
    else
      let r ← send dev (ascii "ATL0")
      if ¬ EW.isOk r false then error dev
      else
        modifyElm (fun e => { e with status := .elmConnected })
        initVoltage dev fl protocol checkVoltage

/-- The start state of an object, obd/elm327.py:119-123.  `UnknownProtocol([])` has an
empty ECU map. -/
def fresh (timeout : Rat) : Elm :=
  { status := .notConnected, port := none, protocol := some ⟨.unknown, []⟩,
    lowPower := false, timeout := timeout }

/-- The arguments of the constructor, obd/elm327.py:108-109. -/
structure Config where
  baudrate : Option Nat := none
  protocol : Option Str := none
  timeout : Rat := 0
  checkVoltage : Bool := true
  startLowPower : Bool := false

/-- `__init__` after the attributes are set, obd/elm327.py:125-209.  pyserial's default
rate is 9600; the port is opened with `timeout=10`.  SerialException and OSError are
caught, other exceptions (ValueError) are not. -/
def init (dev : Device) (fl : FloatFn) (portname : Str) (cfg : Config) : ElmM Unit := fun w =>
  let err := dev.openPort w.hist portname
  let w1 := { w with hist := w.hist ++ [.open_ portname err] }
  match err with
  | some .serialException => error dev w1
  | some .osError => error dev w1
  | some x => (.error x, w1)
  | none =>
    (do
      modifyElm (fun e => { e with port := some { name := portname, baud := 9600, timeout := 10 } })
      if cfg.startLowPower then write dev (ascii " ")
      if ¬ (← setBaudrate dev cfg.baudrate) then error dev
      else initAt dev fl cfg.protocol cfg.checkVoltage : ElmM Unit) w1

/-- `ELM327(portname, ...)`, obd/elm327.py:108-209, on a world with history `hist`. -/
def construct (dev : Device) (fl : FloatFn) (portname : Str) (cfg : Config) (hist : History) :
    Except Exc Unit × EW :=
  init dev fl portname cfg { elm := fresh cfg.timeout, hist := hist }

/-- `low_power`, obd/elm327.py:376-404 (`none` = Python None). -/
def lowPower (dev : Device) : ElmM (Option (List Str)) := do
  let e ← getElm
  if e.status = .notConnected then return none
  else
    let lines ← send dev (ascii "ATLP") true elmLpActive
    if "OK".toList ∈ lines then modifyElm (fun e => { e with lowPower := true })
    return some lines

/-- `normal_power`, obd/elm327.py:406-430. -/
def normalPower (dev : Device) : ElmM (Option (List Str)) := do
  let e ← getElm
  if e.status = .notConnected then return none
  else
    let lines ← send dev (ascii " ")
    modifyElm (fun e => { e with lowPower := false })
    return some lines

/-- `send_and_parse`, obd/elm327.py:447-469 (`none` = Python None).  Calling a `None`
protocol would raise TypeError. -/
def sendAndParse (dev : Device) (cmd : Bytes) : ElmM (Option (List Message)) := do
  let e ← getElm
  if e.status = .notConnected then return none
  else
    if e.lowPower then
      let _ ← normalPower dev
    let lines ← send dev cmd
    let e ← getElm
    match e.protocol with
    | none => PyM.throw .typeError
    | some p =>
      let ms ← PyM.ofExcept (p.call lines)
      return some ms

end ElmM
end Model
