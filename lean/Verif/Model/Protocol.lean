import Verif.Model.Utils
/-!
# Model of `obd/protocols/protocol.py`, `protocol_can.py`, `protocol_legacy.py`,
`protocol_unknown.py`
-/
namespace Model
open Py

/-! ## Data models, obd/protocols/protocol.py:47-116 -/

/-- `ECU.ALL`, obd/protocols/protocol.py:55. -/
def ECU.all : Nat := 0b11111111
/-- `ECU.ALL_KNOWN`, obd/protocols/protocol.py:56. -/
def ECU.allKnown : Nat := 0b11111110
/-- `ECU.UNKNOWN`, obd/protocols/protocol.py:59. -/
def ECU.unknown : Nat := 0b00000001
/-- `ECU.ENGINE`, obd/protocols/protocol.py:60. -/
def ECU.engine : Nat := 0b00000010
/-- `ECU.TRANSMISSION`, obd/protocols/protocol.py:61. -/
def ECU.transmission : Nat := 0b00000100

/-- `ECU_HEADER.ENGINE`, obd/protocols/protocol.py:47-49. -/
def engineHeader : Bytes := ascii "7E0"

/-- `Frame`, obd/protocols/protocol.py:64-76. -/
structure Frame where
  raw : Str
  data : Bytes := []
  priority : Option Nat := none
  addrMode : Option Nat := none
  rxId : Option Nat := none
  txId : Option Nat := none
  type : Option Nat := none
  seqIndex : Nat := 0
  dataLen : Option Nat := none
  deriving DecidableEq, Repr

/-- `Message`, obd/protocols/protocol.py:79-116.  Simplification: the frames are kept as
parsed; later in-place changes of `seq_index`/`data` of frame objects are not tracked
(nothing in the library reads them afterwards). -/
structure Message where
  frames : List Frame
  ecu : Nat := ECU.unknown
  data : Bytes := []
  deriving DecidableEq, Repr

namespace Message

/-- `Message.tx_id`, obd/protocols/protocol.py:87-92. -/
def txId (m : Message) : Option Nat :=
  match m.frames with
  | [] => none
  | f :: _ => f.txId

/-- `Message.raw()`, obd/protocols/protocol.py:97-99: `"\n".join` of the raw lines. -/
def raw (m : Message) : Str := ['\n'].intercalate (m.frames.map Frame.raw)

/-- `Message.hex()`, obd/protocols/protocol.py:94-95 (`hexlify`: two lowercase digits
per byte; the result is bytes in Python, text here). -/
def hex (m : Message) : Str := bytesToHex m.data

/-- `Message.parsed()`, obd/protocols/protocol.py:101-103. -/
def parsed (m : Message) : Bool := !m.data.isEmpty

end Message

/-! ## The protocol classes -/

/-- The concrete protocol classes, obd/protocols/__init__.py:33-47. -/
inductive Proto where
  | unknown
  | j1850pwm | j1850vpw | iso9141 | kwp5baud | kwpFast
  | can11_500 | can29_500 | can11_250 | can29_250 | j1939
  deriving DecidableEq, Repr

/-- Which class a protocol inherits its parsing functions from: protocol_unknown.py:37,
protocol_legacy.py:42, protocol_can.py:42 (with `id_bits`). -/
inductive Family where
  | unknown
  | legacy
  | can (idBits : Nat)
  deriving DecidableEq, Repr

/-- Class hierarchy: obd/protocols/protocol_legacy.py:174-196,
protocol_can.py:280-317 (`id_bits`), protocol_unknown.py:37. -/
def Proto.family : Proto → Family
  | .unknown => .unknown
  | .j1850pwm | .j1850vpw | .iso9141 | .kwp5baud | .kwpFast => .legacy
  | .can11_500 | .can11_250 => .can 11
  | .can29_500 | .can29_250 | .j1939 => .can 29

/-- `ELM_ID` class attributes (same places; "" in the base class, protocol.py:131). -/
def Proto.elmId : Proto → Str
  | .unknown => "".toList
  | .j1850pwm => "1".toList
  | .j1850vpw => "2".toList
  | .iso9141 => "3".toList
  | .kwp5baud => "4".toList
  | .kwpFast => "5".toList
  | .can11_500 => "6".toList
  | .can29_500 => "7".toList
  | .can11_250 => "8".toList
  | .can29_250 => "9".toList
  | .j1939 => "A".toList

/-- `ELM_NAME` class attributes: protocol.py:130, protocol_legacy.py:174-196, protocol_can.py:280-317. -/
def Proto.elmName : Proto → Str
  | .unknown => "".toList
  | .j1850pwm => "SAE J1850 PWM".toList
  | .j1850vpw => "SAE J1850 VPW".toList
  | .iso9141 => "ISO 9141-2".toList
  | .kwp5baud => "ISO 14230-4 (KWP 5BAUD)".toList
  | .kwpFast => "ISO 14230-4 (KWP FAST)".toList
  | .can11_500 => "ISO 15765-4 (CAN 11/500)".toList
  | .can29_500 => "ISO 15765-4 (CAN 29/500)".toList
  | .can11_250 => "ISO 15765-4 (CAN 11/250)".toList
  | .can29_250 => "ISO 15765-4 (CAN 29/250)".toList
  | .j1939 => "SAE J1939 (CAN 29/250)".toList

/-- `TX_ID_ENGINE`: protocol.py:134, protocol_can.py:43, protocol_legacy.py:43. -/
def Proto.txEngine (p : Proto) : Option Nat :=
  match p.family with
  | .unknown => none
  | .legacy => some 0x10
  | .can _ => some 0

/-- `TX_ID_TRANSMISSION`: protocol.py:135, protocol_can.py:44. -/
def Proto.txTransmission (p : Proto) : Option Nat :=
  match p.family with
  | .unknown => none
  | .legacy => none
  | .can _ => some 1

/-! ## CAN: obd/protocols/protocol_can.py -/

/-- `FRAME_TYPE_SF`, protocol_can.py:46. -/
def frameTypeSF : Nat := 0x00
/-- `FRAME_TYPE_FF`, protocol_can.py:47. -/
def frameTypeFF : Nat := 0x10
/-- `FRAME_TYPE_CF`, protocol_can.py:48. -/
def frameTypeCF : Nat := 0x20

/-- The header part of `CANProtocol.parse_frame`, protocol_can.py:98-121; `rb` is
`raw_bytes`, indexed at 0..3 only (its length is at least 6 when this runs). -/
def canHeader (idBits : Nat) (rb : Bytes) (f : Frame) : Except Exc Frame := do
  if idBits = 11 then
    let b2 ← idx rb 2
    let b3 ← idx rb 3
    let addrMode := b3.toNat &&& 0xF0
    let f := { f with priority := some (b2.toNat &&& 0x0F), addrMode := some addrMode }
    if addrMode = 0xD0 then
      return { f with rxId := some (b3.toNat &&& 0x0F), txId := some 0xF1 }
    else if b3.toNat &&& 0x08 ≠ 0 then
      return { f with rxId := some 0xF1, txId := some (b3.toNat &&& 0x07) }
    else
      return { f with txId := some 0xF1, rxId := some (b3.toNat &&& 0x07) }
  else
    let b0 ← idx rb 0
    let b1 ← idx rb 1
    let b2 ← idx rb 2
    let b3 ← idx rb 3
    return { f with priority := some b0.toNat, addrMode := some b1.toNat,
                    rxId := some b2.toNat, txId := some b3.toNat }

/-- The PCI part of `CANProtocol.parse_frame`, protocol_can.py:131-161; `none` is
`return False` (the frame is dropped). -/
def canPci (f : Frame) : Except Exc (Option Frame) := do
  let d0 ← idx f.data 0
  let ty := d0.toNat &&& 0xF0
  let f := { f with type := some ty }
  if ¬ (ty = frameTypeSF ∨ ty = frameTypeFF ∨ ty = frameTypeCF) then
    return none
  else if ty = frameTypeSF then
    let len := d0.toNat &&& 0x0F
    if len = 0 then return none
    else return some { f with dataLen := some len }
  else if ty = frameTypeFF then
    let d1 ← idx f.data 1
    let len := ((d0.toNat &&& 0x0F) <<< 8) + d1.toNat
    if len = 0 then return none
    else return some { f with dataLen := some len }
  else
    return some { f with seqIndex := d0.toNat &&& 0x0F }

/-- `CANProtocol.parse_frame`, protocol_can.py:56-161; `ok none` is `return False`. -/
def canParseFrame (idBits : Nat) (frame : Frame) : Except Exc (Option Frame) := do
  let raw := if idBits = 11 then "00000".toList ++ frame.raw else frame.raw
  if raw.length % 2 = 1 then return none
  let rb ← unhexlify raw
  if rb.length < 6 then return none
  if rb.length > 12 then return none
  let f ← canHeader idBits rb frame
  canPci { f with data := rb.drop 4 }

/-- The new sequence number of a consecutive frame: protocol_can.py:209-214. -/
def unwrapSeq (prev curr : Nat) : Nat :=
  let seq := ((prev >>> 4) <<< 4) + curr
  if (seq : Int) < (prev : Int) - 7 then seq + 0x10 else seq

/-- The loop over `zip(cf, cf[1:])`, protocol_can.py:205-216.  The frames are mutated
while iterating, so `prev` is already unwrapped when its successor is treated. -/
def unwrapFrom (prev : Nat) : List Frame → List Frame
  | [] => []
  | f :: fs =>
    let seq := unwrapSeq prev f.seqIndex
    { f with seqIndex := seq } :: unwrapFrom seq fs

/-- Unwrapping the sequence indices of all consecutive frames, protocol_can.py:207-219. -/
def unwrapAll : List Frame → List Frame
  | [] => []
  | f :: fs => f :: unwrapFrom f.seqIndex fs

/-- Reassembly of a multi-frame message, protocol_can.py:183-252: the data, or `none`
for `return False`.  `ff[0].data_len` is set for every first frame. -/
def canMulti (frames : List Frame) : Option Bytes :=
  let ff := frames.filter (fun f => f.type == some frameTypeFF)
  let cf := frames.filter (fun f => f.type == some frameTypeCF)
  match ff with
  | [] => none
  | _ :: _ :: _ => none
  | [first] =>
    if cf.length = 0 then none
    else
      let cf := sortBy Frame.seqIndex (unwrapAll cf)
      let indices := cf.map Frame.seqIndex
      if contiguous indices 1 cf.length then
        let data := cf.foldl (fun acc f => acc ++ f.data.drop 1) (first.data.drop 2)
        some (data.take (first.dataLen.getD 0))
      else none

/-- The mode-03 tail of `parse_message`, protocol_can.py:259-268 (raises IndexError on
empty data, and on a lone 0x43). -/
def canTrimDtc (data : Bytes) : Except Exc Bytes := do
  let b0 ← idx data 0
  if b0 = 0x43 then
    let b1 ← idx data 1
    let n := b1.toNat * 2
    return data.take (n + 2)
  else
    return data

/-- `CANProtocol.parse_message`, protocol_can.py:163-270: the message data, or `none`
for `return False`. -/
def canParseMessage (frames : List Frame) : Except Exc (Option Bytes) := do
  match frames with
  | [frame] =>
    if frame.type ≠ some frameTypeSF then return none
    else
      let data := slice frame.data 1 (1 + frame.dataLen.getD 0)
      return some (← canTrimDtc data)
  | _ =>
    match canMulti frames with
    | none => return none
    | some data => return some (← canTrimDtc data)

/-! ## Legacy protocols: obd/protocols/protocol_legacy.py -/

/-- `LegacyProtocol.parse_frame`, protocol_legacy.py:48-80. -/
def legacyParseFrame (frame : Frame) : Except Exc (Option Frame) := do
  if frame.raw.length % 2 = 1 then return none
  let rb ← unhexlify frame.raw
  if rb.length < 6 then return none
  if rb.length > 11 then return none
  let b0 ← idx rb 0
  let b1 ← idx rb 1
  let b2 ← idx rb 2
  return some { frame with data := rb.dropLast.drop 3, priority := some b0.toNat,
                           rxId := some b1.toNat, txId := some b2.toNat }

/-- `f.data[2]` of every frame (the sort key and the indices), protocol_legacy.py:149-152;
IndexError if some frame has fewer than three data bytes. -/
def seqBytes : List Frame → Except Exc (List Nat)
  | [] => .ok []
  | f :: fs => do
    let b ← idx f.data 2
    let bs ← seqBytes fs
    return b.toNat :: bs

/-- The order byte of a frame (`f.data[2]`, protocol_legacy.py:146-149) once `seqBytes` has succeeded. -/
def seqByte (f : Frame) : Nat := ((f.data[2]?).getD 0).toNat

/-- `f.data[0]` of every frame, protocol_legacy.py:91. -/
def modeBytes : List Frame → Except Exc (List UInt8)
  | [] => .ok []
  | f :: fs => do
    let b ← idx f.data 0
    let bs ← modeBytes fs
    return b :: bs

/-- `LegacyProtocol.parse_message`, protocol_legacy.py:82-164. -/
def legacyParseMessage (frames : List Frame) : Except Exc (Option Bytes) := do
  let f0 ← idx frames 0
  let mode ← idx f0.data 0
  let modes ← modeBytes (frames.drop 1)
  if frames.length > 1 ∧ ¬ (modes.all (fun b => mode == b)) then
    return none
  else if mode = 0x43 then
    return some (frames.foldl (fun acc f => acc ++ f.data.drop 1) [0x43, 0x00])
  else
    match frames with
    | [f] => return some f.data
    | _ =>
      let _ ← seqBytes frames
      let sorted := sortBy seqByte frames
      let indices := sorted.map seqByte
      if contiguous indices 1 sorted.length then
        match sorted with
        | [] => .error .indexError
        | g :: gs => return some (gs.foldl (fun acc f => acc ++ f.data.drop 3) (g.data.eraseIdx 2))
      else return none

/-! ## Dispatch to the subclass -/

/-- `self.parse_frame` (protocol_unknown.py:45-46 passes everything). -/
def Proto.parseFrame (p : Proto) (f : Frame) : Except Exc (Option Frame) :=
  match p.family with
  | .unknown => .ok (some f)
  | .legacy => legacyParseFrame f
  | .can n => canParseFrame n f

/-- `self.parse_message`: the new `message.data`; protocol_unknown.py:48-49 leaves the
empty `bytearray()` of the constructor. -/
def Proto.parseMessage (p : Proto) (fs : List Frame) : Except Exc (Option Bytes) :=
  match p.family with
  | .unknown => .ok (some [])
  | .legacy => legacyParseMessage fs
  | .can _ => canParseMessage fs

/-! ## Protocol.__call__, obd/protocols/protocol.py:169-236 -/

/-- `line.replace(' ', '')`, protocol.py:186. -/
def noSpaces (s : Str) : Str := s.filter (fun c => c != ' ')

/-- The sorting of lines, protocol.py:184-191: the space-free hex lines. -/
def obdLines (lines : List Str) : List Str := (lines.map noSpaces).filter isHex

/-- protocol.py:184-191: the other lines, original text. -/
def nonObdLines (lines : List Str) : List Str := lines.filter (fun l => !isHex (noSpaces l))

/-- The frame loop, protocol.py:197-205. -/
def parseFrames (p : Proto) : List Str → Except Exc (List Frame)
  | [] => .ok []
  | l :: ls => do
    let f ← p.parseFrame { raw := l }
    let fs ← parseFrames p ls
    match f with
    | some f => return f :: fs
    | none => return fs

/-- The grouping loop, protocol.py:209-214. -/
def groupFrames (frames : List Frame) : Dict (Option Nat) (List Frame) :=
  frames.foldl (fun d f =>
    match d.get? f.txId with
    | none => d.set f.txId [f]
    | some fs => d.set f.txId (fs ++ [f])) []

/-- Sort key for transmitter ids, protocol.py:217.  `sorted` never compares `None` with an int here: ids are
all `None` (unknown protocol) or all ints. -/
def txKey : Option Nat → Nat
  | none => 0
  | some n => n + 1

/-- The message loop, protocol.py:218-229, over the sorted keys. -/
def parseMessages (p : Proto) (ecuMap : Dict (Option Nat) Nat)
    (groups : Dict (Option Nat) (List Frame)) : List (Option Nat) → Except Exc (List Message)
  | [] => .ok []
  | ecu :: rest => do
    let frames := (groups.get? ecu).getD []
    let data ← p.parseMessage frames
    let ms ← parseMessages p ecuMap groups rest
    match data with
    | some data =>
      return { frames := frames, ecu := (ecuMap.get? ecu).getD ECU.unknown, data := data } :: ms
    | none => return ms

/-- `Protocol.__call__`, protocol.py:169-236. -/
def Proto.call (p : Proto) (ecuMap : Dict (Option Nat) Nat) (lines : List Str) :
    Except Exc (List Message) := do
  let frames ← parseFrames p (obdLines lines)
  let groups := groupFrames frames
  let ms ← parseMessages p ecuMap groups (sortBy txKey groups.keys)
  return ms ++ (nonObdLines lines).map (fun l => { frames := [{ raw := l }] })

/-! ## Protocol.__init__ and populate_ecu_map, protocol.py:137-167, 238-294 -/

/-- The initial map, protocol.py:147-153. -/
def Proto.defaultMap (p : Proto) : Dict (Option Nat) Nat :=
  let m : Dict (Option Nat) Nat := []
  let m := match p.txEngine with
    | some t => m.set (some t) ECU.engine
    | none => m
  match p.txTransmission with
  | some t => m.set (some t) ECU.transmission
  | none => m

/-- The exact-match loop, protocol.py:263-272; the Boolean is `found_engine`. -/
def exactMatches (p : Proto) (ms : List Message) (m : Dict (Option Nat) Nat) :
    Dict (Option Nat) Nat × Bool :=
  ms.foldl (fun (st : Dict (Option Nat) Nat × Bool) msg =>
    if msg.txId = none then st
    else if msg.txId = p.txEngine then (st.1.set msg.txId ECU.engine, true)
    else if msg.txId = p.txTransmission then (st.1.set msg.txId ECU.transmission, st.2)
    else st) (m, false)

/-- The fallback loop, protocol.py:277-285: `(best, tx_id)`. -/
def bestBits (ms : List Message) : Nat × Option Nat :=
  ms.foldl (fun (st : Nat × Option Nat) msg =>
    let bits := (BitArray.ofBytes msg.data).numSet
    if bits > st.1 then (bits, msg.txId) else st) (0, none)

/-- `populate_ecu_map`, protocol.py:238-294. -/
def populateEcuMap (p : Proto) (ecuMap : Dict (Option Nat) Nat) (messages : List Message) :
    Dict (Option Nat) Nat :=
  let ms := messages.filter Message.parsed
  match ms with
  | [] => ecuMap
  | [m] => ecuMap.set m.txId ECU.engine
  | _ =>
    let (map, found) := exactMatches p ms ecuMap
    let map := if found then map else map.set (bestBits ms).2 ECU.engine
    ms.foldl (fun map m => if map.mem m.txId then map else map.set m.txId ECU.unknown) map

/-- A protocol object: its class and its ECU map, protocol.py:127-167. -/
structure ProtoObj where
  cls : Proto
  ecuMap : Dict (Option Nat) Nat
  deriving DecidableEq, Repr

/-- `Protocol.__init__`, protocol.py:137-167.  The final loop formats every key with
`%d`, which raises TypeError for a `None` key (whatever the log level). -/
def Proto.init (p : Proto) (lines0100 : List Str) : Except Exc ProtoObj := do
  let messages ← p.call p.defaultMap lines0100
  let map := populateEcuMap p p.defaultMap messages
  if map.keys.all Option.isSome then return { cls := p, ecuMap := map }
  else .error .typeError

/-- Calling a protocol object, protocol.py:169-236. -/
def ProtoObj.call (o : ProtoObj) (lines : List Str) : Except Exc (List Message) :=
  o.cls.call o.ecuMap lines

end Model
