import Verif.Model.Text
import Verif.Props.Docs
import Verif.Props.Sensors
/-!
# C94: the unit of a response
-/
namespace Props
open Py Model Spec

/-- The unit of what a decoder returns. -/
def decoderUnit (ps : String → Str) : Decoder → Option Str
  | .drop => none
  | .noop => some "<class 'bytearray'>".toList
  | .pid => some "<class 'obd.utils.BitArray'>".toList
  | .rawString => some "<class 'str'>".toList
  | .count => some (ps "count")
  | .percent => some (ps "percent")
  | .percentCentered => some (ps "percent")
  | .temp => some (ps "celsius")
  | .currentCentered => some (ps "milliampere")
  | .sensorVoltage => some (ps "volt")
  | .sensorVoltageBig => some (ps "volt")
  | .fuelPressure => some (ps "kilopascal")
  | .pressure => some (ps "kilopascal")
  | .evapPressure => some (ps "pascal")
  | .absEvapPressure => some (ps "kilopascal")
  | .evapPressureAlt => some (ps "pascal")
  | .timingAdvance => some (ps "degree")
  | .injectTiming => some (ps "degree")
  | .maxMaf => some (ps "gps")
  | .fuelRate => some (ps "liters_per_hour")
  | .o2Sensors => some "<class 'tuple'>".toList
  | .auxInputStatus => some "<class 'bool'>".toList
  | .o2SensorsAlt => some "<class 'tuple'>".toList
  | .absoluteLoad => some (ps "percent")
  | .elmVoltage => some (ps "volt")
  | .status => some "<class 'obd.OBDResponse.Status'>".toList
  | .fuelStatus => some "<class 'tuple'>".toList
  | .airStatus => some "<class 'str'>".toList
  | .obdCompliance => some "<class 'str'>".toList
  | .fuelType => some "<class 'str'>".toList
  | .singleDtc => some "<class 'tuple'>".toList
  | .dtc => some "<class 'list'>".toList
  | .monitor => some "<class 'obd.OBDResponse.Monitor'>".toList
  | .cvn => some "<class 'str'>".toList
  | .uas id => match uasLookup id with
    | some (.lin _ _ u _) => some (ps u)
    | _ => some "<class 'bool'>".toList
  | .encodedString _ => some "<class 'bytearray'>".toList
  | .custom _ => none

theorem unit_run (ps : String → Str) (fl : Str → Option PyFloat) (d : Decoder) (hd : ∀ f, d ≠ .custom f) (ms : List Message) (r : Response)
    (h : d.run fl ms = .ok r.value) : r.unit ps = none ∨ r.unit ps = decoderUnit ps d := by
  obtain ⟨c, ms', v⟩ := r
  simp only at h
  cases d with
  | custom f => exact absurd rfl (hd f)
  | uas id =>
    simp only [Decoder.run, decodeUas, bind, Except.bind] at h
    split at h
    · cases h
    · cases hu : uasLookup id with
      | none => rw [hu] at h; cases h
      | some e =>
        rw [hu] at h
        simp only at h
        cases e with
        | lin s sc u o =>
          refine Or.inr ?_
          cases hc : UasEntry.call (.lin s sc u o) _ with
          | error e => rw [hc] at h; cases h
          | ok x =>
            rw [hc] at h
            injection h with h; subst h
            simp only [UasEntry.call, bind, Except.bind] at hc
            repeat' (split at hc)
            all_goals first
              | (cases hc; done)
              | (injection hc with hc; subst hc; simp [decoderUnit, hu, Response.unit, UasValue.toValue])
        | anyBit =>
          refine Or.inr ?_
          injection h with h; subst h
          simp [decoderUnit, hu, Response.unit, UasValue.toValue, Value.typeText]
  | encodedString n =>
    simp only [Decoder.run, bind, Except.bind] at h
    repeat' (split at h)
    all_goals first
      | (cases h; done)
      | (injection h with h; subst h; first | exact Or.inl rfl | exact Or.inr rfl)
  | _ =>
    simp only [Decoder.run, decCount, decPercent, decPercentCentered, decAbsoluteLoad, decTemp, decCurrentCentered,
        decSensorVoltage, decSensorVoltageBig, decFuelPressure, decPressure, decAbsEvapPressure, decEvapPressure,
        decEvapPressureAlt, decTimingAdvance, decInjectTiming, decMaxMaf, decFuelRate, decElmVoltage, decO2Sensors, decO2SensorsAlt,
        decAuxInputStatus, decStatus, decFuelStatus, decAirStatus, decObdCompliance, decFuelType, decSingleDtc, decDtc, decMonitor, decCvn,
        bind, Except.bind] at h
    repeat' (split at h)
    all_goals first
      | (cases h; done)
      | (injection h with h; subst h; first | exact Or.inl rfl | exact Or.inr rfl)

theorem table_not_custom : ∀ c ∈ allCommands, ∀ f, c.decode ≠ .custom f := by
  have h : allCommands.all (fun c => match c.decode with | .custom _ => false | _ => true) = true := by decide +kernel
  intro c hc f hf
  have := List.all_eq_true.1 h c hc
  rw [hf] at this
  cases this

theorem unit_call (ps : String → Str) (fl : Str → Option PyFloat) (c : OBDCommand) (hc : c ∈ allCommands) (ms : List Message) (r : Response)
    (h : c.call fl ms = .ok r) : r.unit ps = none ∨ r.unit ps = decoderUnit ps c.decode := by
  rcases call_from fl c ms r h with h0 | ⟨m, rest, h1, _⟩
  · left; unfold Response.unit; rw [h0]
  · exact unit_run ps fl c.decode (table_not_custom c hc) _ r h1

/-- C94: two replies to the same command of the tables have the same unit, unless one of them has no value; however `pint`
prints units, and whatever the vehicle sent. -/
theorem C94_stable (ps : String → Str) (fl : Str → Option PyFloat) (c : OBDCommand) (hc : c ∈ allCommands) (ms ms' : List Message) (r r' : Response)
    (h : c.call fl ms = .ok r) (h' : c.call fl ms' = .ok r') (hv : r.value ≠ .none) (hv' : r'.value ≠ .none) : r.unit ps = r'.unit ps := by
  have key : ∀ r : Response, r.value ≠ .none → r.unit ps ≠ none := by
    intro r hr hu
    unfold Response.unit at hu
    split at hu <;> simp_all
  rw [(unit_call ps fl c hc ms r h).resolve_left (key r hv), (unit_call ps fl c hc ms' r' h').resolve_left (key r' hv')]

/-- C94: a response has no unit exactly if it has no value. -/
theorem C94_none (ps : String → Str) (r : Response) : r.unit ps = none ↔ r.value = .none := by
  unfold Response.unit
  split <;> simp_all

/-- C94: a freeze frame command has the unit of the command it was made from (or, for the lists of PIDs, never a value). -/
theorem C94_freeze (ps : String → Str) (fl : Str → Option PyFloat) (j : Nat) (l1 l2 : List (Option OBDCommand)) (c1 c2 : OBDCommand)
    (h1 : getMode 1 = .ok l1) (h2 : getMode 2 = .ok l2) (hc1 : l1[j]? = some (some c1)) (hc2 : l2[j]? = some (some c2)) (ms ms' : List Message)
    (r r' : Response) (h : c1.call fl ms = .ok r) (h' : c2.call fl ms' = .ok r') (hv : r.value ≠ .none) (hv' : r'.value ≠ .none) :
    r.unit ps = r'.unit ps := by
  have hm : ∀ i l c, getMode i = .ok l → l[j]? = some (some c) → c ∈ allCommands := by
    intro i l c hl hc
    have hl' : modes[i]? = some l := by
      unfold getMode idx at hl
      split at hl
      · next h => injection hl with hl; rw [h, hl]
      · simp at hl
    unfold allCommands
    rw [List.mem_filterMap]
    exact ⟨some c, List.mem_append.2 (Or.inl (List.mem_flatten.2 ⟨l, List.mem_of_getElem? hl', List.mem_of_getElem? hc⟩)), rfl⟩
  obtain ⟨m1, m2, e1, e2, _, h3, _⟩ := C26_mode2 j
  rw [h1] at e1; rw [h2] at e2
  cases e1; cases e2
  obtain ⟨c1', g1, _, _, _, _, _, _, _, g2⟩ := h3 c2 hc2
  rw [hc1] at g1; cases g1
  have a1 := unit_call ps fl c1 (hm 1 l1 c1 h1 hc1) ms r h
  have a2 := unit_call ps fl c2 (hm 2 l2 c2 h2 hc2) ms' r' h'
  rw [C94_none] at a1 a2
  have b1 := a1.resolve_left hv
  have b2 := a2.resolve_left hv'
  rw [b1, b2, g2]
  split
  · exfalso
    rw [g2, if_pos (by assumption)] at b2
    exact hv' ((C94_none ps r').1 b2)
  · rfl

theorem sensor_unit (ps : String → Str) (d : Decoder) (s : Sensor) (h : sensor? d = some s) : decoderUnit ps d = some (ps s.unit) := by
  unfold sensor? at h
  split at h
  all_goals first
    | (cases h; done)
    | (cases h; rfl)

/-- C94: the unit of the scalar sensors is the one of the standard (`pidSensor`). -/
theorem C94_sensor (ps : String → Str) (fl : Str → Option PyFloat) (p : Nat) (s : Sensor) (hp : pidSensor p = some s) (c : OBDCommand)
    (hc : mode1[p]? = some (some c)) (ms : List Message) (r : Response) (h : c.call fl ms = .ok r) (hv : r.value ≠ .none) :
    r.unit ps = some (ps s.unit) := by
  obtain ⟨⟨c', h1, h2, _⟩, _⟩ := C28_pid p s hp
  rw [hc] at h1; cases h1
  have hm : c ∈ allCommands := by
    unfold allCommands
    rw [List.mem_filterMap]
    exact ⟨some c, List.mem_append.2 (Or.inl (List.mem_flatten.2 ⟨mode1, by simp [modes], List.mem_of_getElem? hc⟩)), rfl⟩
  have a1 := unit_call ps fl c hm ms r h
  rw [C94_none] at a1
  rw [a1.resolve_left hv, sensor_unit ps c.decode s h2]

/-- The engine speed, a readiness report, a lamp, a list of codes and a VIN; a coolant temperature of its freeze frame; and an unknown fuel
type, which has neither value nor unit. -/
example : (["RPM", "STATUS", "AUX_INPUT_STATUS", "GET_DTC", "VIN", "DTC_COOLANT_TEMP", "FUEL_TYPE"].map (fun n => (byName n).bind (fun c =>
      ((c.call (fun _ => none) [{ frames := [], ecu := ECU.engine, data := [0x41, 0x0C, 0xFA, 0xF8] ++ List.replicate 20 0x41 }]).toOption.map
        (fun r => r.unit (fun u => ("unit " ++ u).toList)))))) =
    [some (some "unit rpm".toList), some (some "<class 'obd.OBDResponse.Status'>".toList), some (some "<class 'bool'>".toList),
      some (some "<class 'list'>".toList), some (some "<class 'bytearray'>".toList), some (some "unit celsius".toList), some none] := by decide +kernel

end Props
