import Verif.Model.Protocol
import Verif.Model.UasTable
import Verif.Model.DtcTable
/-!
# Model of `obd/decoders.py`

Each decoder takes the list of messages.  `fl` is Python's `float()` on strings
(`none` = ValueError), used by `elm_voltage` only.
-/
namespace Model
open Py

/-- `messages[0].data[2:]`, the first line of most decoders (obd/decoders.py:66, 88, 98, ...). -/
def payload (ms : List Message) : Except Exc Bytes := do
  let m ← idx ms 0
  return m.data.drop 2

/-- `l.index(True)`, obd/decoders.py:329-338 and 356: ValueError if absent. -/
def indexTrue (l : List Bool) : Except Exc Nat :=
  if true ∈ l then .ok (l.idxOf true) else .error .valueError

/-- Lookup in `UAS_IDS`, obd/decoders.py:89 and 453. -/
def uasLookup (id : Nat) : Option UasEntry := Dict.get? uasTable id

/-- `decode_uas`, obd/decoders.py:87-89. -/
def decodeUas (ms : List Message) (id : Nat) : Except Exc Value := do
  let d ← payload ms
  match uasLookup id with
  | none => .error .keyError
  | some u => return (← u.call d).toValue

/-- `count`, obd/decoders.py:97-100. -/
def decCount (ms : List Message) : Except Exc Value := do
  let d ← payload ms
  return .qty (bytesToInt d) "count"

/-- `percent`, obd/decoders.py:103-107. -/
def decPercent (ms : List Message) : Except Exc Value := do
  let d ← payload ms
  let v ← idx d 0
  return .qty (fdiv (fmul v.toNat 100) 255) "percent"

/-- `percent_centered`, obd/decoders.py:110-114. -/
def decPercentCentered (ms : List Message) : Except Exc Value := do
  let d ← payload ms
  let v ← idx d 0
  return .qty (fdiv (fmul ((v.toNat : Int) - 128 : Int) 100) 128) "percent"

/-- `temp`, obd/decoders.py:119-123. -/
def decTemp (ms : List Message) : Except Exc Value := do
  let d ← payload ms
  return .qty ((bytesToInt d : Int) - 40 : Int) "celsius"

/-- `current_centered`, obd/decoders.py:127-131. -/
def decCurrentCentered (ms : List Message) : Except Exc Value := do
  let d ← payload ms
  let v := bytesToInt (slice d 2 4)
  return .qty (fsub (fdiv v 256) 128) "milliampere"

/-- `sensor_voltage`, obd/decoders.py:135-138. -/
def decSensorVoltage (ms : List Message) : Except Exc Value := do
  let d ← payload ms
  let v ← idx d 0
  return .qty (fdiv v.toNat 200) "volt"

/-- `sensor_voltage_big`, obd/decoders.py:142-146. -/
def decSensorVoltageBig (ms : List Message) : Except Exc Value := do
  let d ← payload ms
  let v := bytesToInt (slice d 2 4)
  return .qty (fdiv (fmul v 8) 65535) "volt"

/-- `fuel_pressure`, obd/decoders.py:150-154. -/
def decFuelPressure (ms : List Message) : Except Exc Value := do
  let d ← payload ms
  let v ← idx d 0
  return .qty ((v.toNat * 3 : Nat) : Rat) "kilopascal"

/-- `pressure`, obd/decoders.py:158-161. -/
def decPressure (ms : List Message) : Except Exc Value := do
  let d ← payload ms
  let v ← idx d 0
  return .qty v.toNat "kilopascal"

/-- `evap_pressure`, obd/decoders.py:165-171. -/
def decEvapPressure (ms : List Message) : Except Exc Value := do
  let d ← payload ms
  let d0 ← idx d 0
  let a ← twosComp d0.toNat 8
  let d1 ← idx d 1
  let b ← twosComp d1.toNat 8
  return .qty (fdiv (fadd (fmul a 256) b) 4) "pascal"

/-- `abs_evap_pressure`, obd/decoders.py:175-179. -/
def decAbsEvapPressure (ms : List Message) : Except Exc Value := do
  let d ← payload ms
  return .qty (fdiv (← toFloat (bytesToInt d)) 200) "kilopascal"

/-- `evap_pressure_alt`, obd/decoders.py:183-187. -/
def decEvapPressureAlt (ms : List Message) : Except Exc Value := do
  let d ← payload ms
  return .qty ((bytesToInt d : Int) - 32767 : Int) "pascal"

/-- `timing_advance`, obd/decoders.py:191-195. -/
def decTimingAdvance (ms : List Message) : Except Exc Value := do
  let d ← payload ms
  let v ← idx d 0
  return .qty (fdiv ((v.toNat : Int) - 128 : Int) 2) "degree"

/-- `inject_timing`, obd/decoders.py:199-203. -/
def decInjectTiming (ms : List Message) : Except Exc Value := do
  let d ← payload ms
  return .qty (fdiv (← toFloat ((bytesToInt d : Int) - 26880)) 128) "degree"

/-- `max_maf`, obd/decoders.py:207-211. -/
def decMaxMaf (ms : List Message) : Except Exc Value := do
  let d ← payload ms
  let v ← idx d 0
  return .qty ((v.toNat * 10 : Nat) : Rat) "gps"

/-- `fuel_rate`, obd/decoders.py:215-219. -/
def decFuelRate (ms : List Message) : Except Exc Value := do
  let d ← payload ms
  return .qty (fmul (← toFloat (bytesToInt d)) (rnd (5 / 100))) "liters_per_hour"

/-- `o2_sensors`, obd/decoders.py:223-230. -/
def decO2Sensors (ms : List Message) : Except Exc Value := do
  let d ← payload ms
  let bits := BitArray.ofBytes d
  return .banks [[], bits.getSlice none (some 4), bits.getSlice (some 4) none]

/-- `aux_input_status`, obd/decoders.py:233-235. -/
def decAuxInputStatus (ms : List Message) : Except Exc Value := do
  let d ← payload ms
  let v ← idx d 0
  return .bool (((v.toNat >>> 7) &&& 1) == 1)

/-- `o2_sensors_alt`, obd/decoders.py:239-248. -/
def decO2SensorsAlt (ms : List Message) : Except Exc Value := do
  let d ← payload ms
  let bits := BitArray.ofBytes d
  return .banks [[], bits.getSlice none (some 2), bits.getSlice (some 2) (some 4), bits.getSlice (some 4) (some 6),
    bits.getSlice (some 6) none]

/-- `absolute_load`, obd/decoders.py:252-256. -/
def decAbsoluteLoad (ms : List Message) : Except Exc Value := do
  let d ← payload ms
  return .qty (fmul (← toFloat (bytesToInt d)) (fdiv 100 255)) "percent"

/-- The text given to `float()` by `elm_voltage` (decoders.py:262-265) and by the voltage
check (elm327.py:186): lower case, without any 'v'. -/
def voltText (s : Str) : Str := (lower s).filter (fun c => c != 'v')

/-- `elm_voltage`, obd/decoders.py:259-271. -/
def decElmVoltage (fl : Str → Option PyFloat) (ms : List Message) : Except Exc Value := do
  let m ← idx ms 0
  let f ← idx m.frames 0
  match fl (voltText f.raw) with
  | some x => return .fqty x "volt"
  | none => return .none

/-- The loop `for i, name in enumerate(NAMES[::-1])` of `status`, decoders.py:303-317:
`avail`/`incomplete` are the bit offsets of the two flags. -/
def loadTests (bits : BitArray) (avail incomplete : Nat) (names : List (Option String))
    (tests : Dict (Option String) StatusTest) : Dict (Option String) StatusTest :=
  names.reverse.zipIdx.foldl (fun d e =>
    d.set e.1 { name := e.1, available := bits.getItem ((avail + e.2 : Nat) : Int),
                complete := !bits.getItem ((incomplete + e.2 : Nat) : Int) }) tests

/-- `status`, obd/decoders.py:280-318. -/
def decStatus (ms : List Message) : Except Exc Value := do
  let d ← payload ms
  let bits := BitArray.ofBytes d
  let comp := bits.getItem 12
  let ign ← idx ignitionType comp.toNat
  let out := { StatusObj.init with mil := bits.getItem 0, dtcCount := bits.value (some 1) (some 8), ignitionType := ign }
  let tests := loadTests bits 13 9 baseTests out.tests
  let tests := if comp then loadTests bits 16 24 compressionTests tests
    else loadTests bits 16 24 sparkTests tests
  return .status { out with tests := tests }

/-- One half of `fuel_status`, obd/decoders.py:328-334 and 336-342. -/
def fuelStatusOf (bits : List Bool) : Except Exc Str := do
  if bits.count true = 1 then
    let i ← indexTrue bits
    if 7 - i < fuelStatusTable.length then
      return (← idx fuelStatusTable (7 - i)).toList
    else return []
  else return []

/-- `fuel_status`, obd/decoders.py:321-347. -/
def decFuelStatus (ms : List Message) : Except Exc Value := do
  let d ← payload ms
  let bits := BitArray.ofBytes d
  let s1 ← fuelStatusOf (bits.getSlice (some 0) (some 8))
  let s2 ← fuelStatusOf (bits.getSlice (some 8) (some 16))
  if s1.isEmpty && s2.isEmpty then return .none else return .strPair s1 s2

/-- `air_status`, obd/decoders.py:350-360.  (`7 - index` is never negative: the index
is below 8.) -/
def decAirStatus (ms : List Message) : Except Exc Value := do
  let d ← payload ms
  let bits := BitArray.ofBytes d
  if bits.numSet = 1 then
    let i ← indexTrue (bits.getSlice (some 0) (some 8))
    return .str (← idx airStatusTable (7 - i)).toList
  else return .none

/-- `obd_compliance`, obd/decoders.py:363-374. -/
def decObdCompliance (ms : List Message) : Except Exc Value := do
  let d ← payload ms
  let i ← idx d 0
  match obdComplianceTable[i.toNat]? with
  | some s => return .str s.toList
  | none => return .none

/-- `fuel_type`, obd/decoders.py:377-388. -/
def decFuelType (ms : List Message) : Except Exc Value := do
  let d ← payload ms
  let i ← idx d 0
  match fuelTypesTable[i.toNat]? with
  | some s => return .str s.toList
  | none => return .none

/-- `DTC.get(code, "")`, obd/decoders.py:410. -/
def dtcDesc (code : Str) : Str :=
  match dtcTable.find? (fun e => e.1.toList == code) with
  | some e => e.2.toList
  | none => []

/-- `parse_dtc` on two bytes that pass the validity check, obd/decoders.py:405-410. -/
def parseDtcPair (a b : UInt8) : Except Exc (Str × Str) := do
  let letter ← idx ['P', 'C', 'B', 'U'] (a.toNat >>> 6)
  let code := letter :: (Nat.toDigits 10 ((a.toNat >>> 4) &&& 0b0011) ++ slice (bytesToHex [a, b]) 1 4)
  return (code, dtcDesc code)

/-- `single_dtc`, obd/decoders.py:413-416: `parse_dtc` on a bytearray, which never equals
the tuple `(0, 0)`. -/
def decSingleDtc (ms : List Message) : Except Exc Value := do
  let d ← payload ms
  match d with
  | [a, b] =>
    let c ← parseDtcPair a b
    return .dtc c.1 c.2
  | _ => return .none

/-- The pairs `(d[n-1], d[n])` for `n in range(1, len(d), 2)`, decoders.py:428-431,
parsed with `parse_dtc` on a tuple (None for `(0, 0)`). -/
def dtcPairs : Bytes → Except Exc (List (Str × Str))
  | a :: b :: rest => do
    if a = 0 ∧ b = 0 then dtcPairs rest
    else
      let c ← parseDtcPair a b
      let cs ← dtcPairs rest
      return c :: cs
  | _ => return []

/-- `dtc`, obd/decoders.py:419-436. -/
def decDtc (ms : List Message) : Except Exc Value := do
  let d := ms.foldl (fun acc m => acc ++ m.data.drop 2) []
  return .dtcs (← dtcPairs d)

/-- `parse_monitor_test`, obd/decoders.py:439-465. -/
def parseMonitorTest (d : Bytes) : Except Exc (Option MonitorTest) := do
  let tid ← idx d 1
  let nd : String × String := match Dict.get? testIds tid.toNat with
    | some e => e
    | none => ("Unknown", "Unknown")
  let u ← idx d 2
  match uasLookup u.toNat with
  | none => return none
  | some uas =>
    let value ← uas.call (slice d 3 5)
    let mn ← uas.call (slice d 5 7)
    let mx ← uas.call (d.drop 7)
    return some { tid := some tid.toNat, name := some nd.1, desc := some nd.2,
                  value := some value, min := some mn, max := some mx }

/-- The loop over blocks of 9 bytes, decoders.py:483-488 (`d` already truncated to a
multiple of 9; `fuel` bounds the number of blocks). -/
def monitorBlocks : Nat → Bytes → MonitorObj → Except Exc MonitorObj
  | 0, _, mon => .ok mon
  | fuel + 1, d, mon =>
    if d.isEmpty then .ok mon
    else do
      let t ← parseMonitorTest (d.take 9)
      monitorBlocks fuel (d.drop 9) (match t with
        | some t => mon.addTest t
        | none => mon)

/-- `monitor`, obd/decoders.py:468-490. -/
def decMonitor (ms : List Message) : Except Exc Value := do
  let m ← idx ms 0
  let d := m.data.drop 1
  let d := d.take (d.length - d.length % 9)
  return .monitor (← monitorBlocks d.length d MonitorObj.init)

/-- The bytes removed at both ends by `decode_encoded_string`, decoders.py:508: the
literal `b'\\x00'` is the four characters `\`, `x`, `0`, `0`. -/
def stripSet (b : UInt8) : Bool :=
  b == 0x00 || b == 0x01 || b == 0x02 || b == 0x5C || b == 0x78 || b == 0x30 || b == 0x31 || b == 0x32

/-- `decode_encoded_string`, obd/decoders.py:498-508. -/
def decodeEncodedString (ms : List Message) (length : Nat) : Except Exc (Option Bytes) := do
  let d ← payload ms
  if d.length < length then return none
  else return some (stripBy stripSet (stripBy isSpaceByte d))

/-- `cvn`, obd/decoders.py:511-515. -/
def decCvn (ms : List Message) : Except Exc Value := do
  match ← decodeEncodedString ms 4 with
  | none => return .none
  | some d => return .str (bytesToHex d)

/-- The decoder of a command: the functions of obd/decoders.py, `uas(id)`
(decoders.py:82-84), `encoded_string(length)` (decoders.py:493-495), or any other
Python function (`custom`). -/
inductive Decoder where
  | drop | noop | pid | rawString | count | percent | percentCentered | temp
  | currentCentered | sensorVoltage | sensorVoltageBig | fuelPressure | pressure
  | evapPressure | absEvapPressure | evapPressureAlt | timingAdvance | injectTiming
  | maxMaf | fuelRate | o2Sensors | auxInputStatus | o2SensorsAlt | absoluteLoad
  | elmVoltage | status | fuelStatus | airStatus | obdCompliance | fuelType
  | singleDtc | dtc | monitor | cvn
  | uas (id : Nat)
  | encodedString (length : Nat)
  | custom (f : List Message → Except Exc Value)

/-- Calling a decoder.  `drop` decoders.py:55-56, `noop` :60-61, `pid` :65-67,
`raw_string` :71-72; the others above. -/
def Decoder.run (fl : Str → Option PyFloat) : Decoder → List Message → Except Exc Value
  | .drop, _ => .ok .none
  | .noop, ms => do return .bytes (← idx ms 0).data
  | .pid, ms => do return .bits (BitArray.ofBytes (← payload ms))
  | .rawString, ms => .ok (.str (['\n'].intercalate (ms.map Message.raw)))
  | .count, ms => decCount ms
  | .percent, ms => decPercent ms
  | .percentCentered, ms => decPercentCentered ms
  | .temp, ms => decTemp ms
  | .currentCentered, ms => decCurrentCentered ms
  | .sensorVoltage, ms => decSensorVoltage ms
  | .sensorVoltageBig, ms => decSensorVoltageBig ms
  | .fuelPressure, ms => decFuelPressure ms
  | .pressure, ms => decPressure ms
  | .evapPressure, ms => decEvapPressure ms
  | .absEvapPressure, ms => decAbsEvapPressure ms
  | .evapPressureAlt, ms => decEvapPressureAlt ms
  | .timingAdvance, ms => decTimingAdvance ms
  | .injectTiming, ms => decInjectTiming ms
  | .maxMaf, ms => decMaxMaf ms
  | .fuelRate, ms => decFuelRate ms
  | .o2Sensors, ms => decO2Sensors ms
  | .auxInputStatus, ms => decAuxInputStatus ms
  | .o2SensorsAlt, ms => decO2SensorsAlt ms
  | .absoluteLoad, ms => decAbsoluteLoad ms
  | .elmVoltage, ms => decElmVoltage fl ms
  | .status, ms => decStatus ms
  | .fuelStatus, ms => decFuelStatus ms
  | .airStatus, ms => decAirStatus ms
  | .obdCompliance, ms => decObdCompliance ms
  | .fuelType, ms => decFuelType ms
  | .singleDtc, ms => decSingleDtc ms
  | .dtc, ms => decDtc ms
  | .monitor, ms => decMonitor ms
  | .cvn, ms => decCvn ms
  | .uas id, ms => decodeUas ms id
  | .encodedString n, ms => do
    match ← decodeEncodedString ms n with
    | none => return .none
    | some b => return .bytes b
  | .custom f, ms => f ms

end Model
