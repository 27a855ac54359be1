import Verif.Props.Readings
/-!
# C75: what every mode 02 command gives for a freeze frame, scalar or not
-/
namespace Props
open Py Model Spec ObdM

/-- Decoders that look at the bytes from the third on, and at nothing else of a lone message. -/
def fromThird : Decoder → Bool
  | .noop | .rawString | .elmVoltage | .monitor | .custom _ => false
  | _ => true

theorem run_fromThird (fl : Str → Option PyFloat) (d : Decoder) (h : fromThird d = true) (m m' : Message)
    (hd : m.data.drop 2 = m'.data.drop 2) : d.run fl [m] = d.run fl [m'] := by
  have hp : payload [m] = payload [m'] := by
    show Except.ok (m.data.drop 2) = Except.ok (m'.data.drop 2)
    rw [hd]
  cases d <;> first
    | exact absurd h Bool.false_ne_true
    | rfl
    | (simp only [Decoder.run, decCount, decPercent, decPercentCentered, decTemp, decCurrentCentered, decSensorVoltage, decSensorVoltageBig,
        decFuelPressure, decPressure, decEvapPressure, decAbsEvapPressure, decEvapPressureAlt, decTimingAdvance, decInjectTiming, decMaxMaf,
        decFuelRate, decO2Sensors, decAuxInputStatus, decO2SensorsAlt, decAbsoluteLoad, decStatus, decFuelStatus, decAirStatus,
        decObdCompliance, decFuelType, decSingleDtc, decCvn, decodeUas, decodeEncodedString, hp]; done)
    | (simp only [Decoder.run, decDtc, List.foldl, hd])

/-- Every command of mode 02 is made from one of mode 01: same PID, same number of bytes, same decoder (none, for the PID listings). -/
def siblings (c c1 : OBDCommand) : Bool :=
  (match c.mode, c.pid, c1.mode, c1.pid with
    | .ok (some 2), .ok (some n), .ok (some 1), .ok (some n') => n == n'
    | _, _, _, _ => false)

/-- Two decoders are the same function (on constructors without a function inside). -/
def sameDecoder : Decoder → Decoder → Bool
  | .custom _, _ => false
  | _, .custom _ => false
  | .uas i, .uas j => i == j
  | .encodedString i, .encodedString j => i == j
  | a, b => a.ctorIdx == b.ctorIdx

theorem sameDecoder_eq {a b : Decoder} (h : sameDecoder a b = true) : a = b := by
  cases a <;> cases b <;> simp_all [sameDecoder, Decoder.ctorIdx]

theorem siblings_table : allCommands.all (fun c => allCommands.all (fun c1 => !siblings c c1 ||
    (c.bytes == c1.bytes && c.ecu == c1.ecu && fromThird c1.decode &&
      (c1.decode.isPid || sameDecoder c.decode c1.decode)))) = true := by decide +kernel

theorem sibling_facts {c c1 : OBDCommand} (hc : c ∈ allCommands) (hc1 : c1 ∈ allCommands) {n : Nat} (hm : c.mode = .ok (some 2))
    (hp : c.pid = .ok (some n)) (hm1 : c1.mode = .ok (some 1)) (hp1 : c1.pid = .ok (some n)) (hnp : c1.decode.isPid = false) :
    c.bytes = c1.bytes ∧ c.ecu = c1.ecu ∧ fromThird c1.decode = true ∧ c.decode = c1.decode := by
  have h := List.all_eq_true.1 (List.all_eq_true.1 siblings_table c hc) c1 hc1
  have hs : siblings c c1 = true := by
    unfold siblings
    rw [hm, hp, hm1, hp1]
    simp
  rw [hs, hnp] at h
  simp only [Bool.not_true, Bool.false_or, Bool.and_eq_true, beq_iff_eq] at h
  exact ⟨h.1.1.1, h.1.1.2, h.1.2, sameDecoder_eq h.2⟩

/-- C75, every mode 02 command whose mode 01 counterpart is not a PID listing, whatever its decoder and whatever the number of data bytes:
the response to a freeze frame has the value (or the exception) that the mode 01 command of this PID gives for a reply in which the number
of the frame stands before the data. -/
theorem C75_any_partial (dev : Device) (fl : Str → Option PyFloat) (a : Args) (s0 : OW) (hc : Constructed dev fl a s0)
    (hs : status s0 = .carConnected) :
    ∃ (p : Proto) (r : List Str) (t : Nat), ConnectedTo fl a s0 p r ∧ EngineFor p r t ∧
      ∀ (calls : List Call) (c c1 : OBDCommand) (force : Bool) (out : Except Exc Response) (s' : OW) (evs : History) (cmd : Bytes)
        (lines : List Str) (pid frame : UInt8) (data : Bytes), c ∈ allCommands → c.ecu = ECU.engine →
        c.mode = .ok (some 2) → c.pid = .ok (some pid.toNat) →
        c1 ∈ allCommands → c1.mode = .ok (some 1) → c1.pid = .ok (some pid.toNat) → c1.decode.isPid = false →
        query dev fl c force (session dev fl calls s0) = (out, s') → s'.hist = (session dev fl calls s0).hist ++ evs →
        Ends evs cmd lines → (cmd = [] ∨ CommandString c cmd) → ¬ Trips p lines → NoImpostor p t lines →
        Says p t (0x42 :: pid :: frame :: data) lines →
        ∃ m : Message, m.data = 0x41 :: pid :: frame :: data ∧ m.ecu = ECU.engine ∧
          out.map Response.value = (c1.call fl [m]).map Response.value := by
  obtain ⟨p, r, t, h1, h2, h3⟩ := C61_partial dev fl a s0 hc hs
  refine ⟨p, r, t, h1, h2, ?_⟩
  intro calls c c1 force out s' evs cmd lines pid frame data hmem hecu hmode hpid hmem1 hmode1 hpid1 hnp hq hh he hcmd htr himp hsay
  obtain ⟨m, hm1, hm2, -, hm4⟩ := h3 calls c force out s' evs cmd lines _ hmem hecu hq hh he hcmd htr himp (by simp) hsay
  obtain ⟨hb, he1, hft, hdec⟩ := sibling_facts hmem hmem1 hmode hpid hmode1 hpid1 hnp
  have hfil : [m].filter (fun m => decide (Overlap c.ecu m.ecu)) = m :: [] := by
    rw [List.filter_cons_of_pos]
    · rfl
    · rw [hecu, hm2]; decide
  let m1 : Message := { m with data := 0x41 :: pid :: frame :: data }
  have hfil1 : [m1].filter (fun m => decide (Overlap c1.ecu m.ecu)) = m1 :: [] := by
    rw [List.filter_cons_of_pos]
    · rfl
    · show decide (Overlap c1.ecu m.ecu) = true
      rw [← he1, hecu, hm2]; decide
  refine ⟨m1, rfl, hm2, ?_⟩
  rw [hm4, call_value fl c [m] m [] hfil, call_value fl c1 [m1] m1 [] hfil1, hdec]
  apply run_fromThird fl _ hft
  show (fit c.bytes m.data).drop 2 = (fit c1.bytes (0x41 :: pid :: frame :: data)).drop 2
  rw [hb, hm1]
  unfold fit
  split
  · rfl
  · rename_i hb0
    obtain ⟨k, hk⟩ := Nat.exists_eq_succ_of_ne_zero hb0
    rw [hk]
    cases k with
    | zero => rfl
    | succ k => rfl

/-- A car whose fuel system was in closed loop when it stored freeze frame 0. -/
def loopCar : Device := demo ([("0203", "7E8 05 42 03 00 02 00")] ++ table)
def loopObd : OW := (ObdM.construct loopCar fl0 ["COM1".toList] none true {}).2
def loopLines : List Str := ["7E8 05 42 03 00 02 00".toList]

theorem loop_says : Says .can11_500 0 [0x42, 0x03, 0x00, 0x02, 0x00] loopLines :=
  .single (.e11 0) (Or.inl rfl) rfl [] (by simp) (by simp) "7E8 05 42 03 00 02 00".toList (by unfold CanLine Spells; decide +kernel) (by decide +kernel)

/-- The state of system 1 is reported as that of system 2. -/
example : Constructed loopCar fl0 { ports := ["COM1".toList] } loopObd ∧ status loopObd = .carConnected ∧
    ¬ Trips .can11_500 loopLines ∧
    (nameRun loopCar "DTC_FUEL_STATUS" loopObd).map (·.1) =
      some (some (.strPair [] "Closed loop, using oxygen sensor feedback to determine fuel mix".toList)) ∧
    (byName "DTC_FUEL_STATUS").map (fun c => (c.ecu, c.mode, c.pid)) = some (ECU.engine, .ok (some 2), .ok (some 3)) ∧
    (byName "FUEL_STATUS").map (fun c => (c.decode.isPid, c.mode, c.pid)) = some (false, .ok (some 1), .ok (some 3)) :=
  ⟨constructed_of (by decide +kernel), by decide +kernel, not_trips_of_calm rfl (by decide +kernel), by decide +kernel, by decide +kernel,
    by decide +kernel⟩

end Props
