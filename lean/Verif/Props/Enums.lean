import Verif.Spec.Enums
import Verif.Props.Utils
import Verif.Props.Sensors
/-!
# C36: enumerated replies
-/
namespace Props
open Py Model Spec

/-- The value of a call when some message passes the filter. -/
theorem call_value (fl : Str → Option PyFloat) (c : OBDCommand) (ms : List Message) (m : Message) (rest : List Message)
    (h : ms.filter (fun m => decide (Overlap c.ecu m.ecu)) = m :: rest) :
    (c.call fl ms).map Response.value =
      c.decode.run fl ({ m with data := fit c.bytes m.data } :: rest.map (fun m => { m with data := fit c.bytes m.data })) := by
  rw [call_eq, h]
  simp only [List.map_cons, reduceCtorEq, if_false]
  cases c.decode.run fl ({ m with data := fit c.bytes m.data } :: rest.map (fun m => { m with data := fit c.bytes m.data })) <;> rfl

theorem fuel_byte : ∀ n : Fin 256, fuelStatusOf (byteBits (UInt8.ofNat n)) = .ok (fuelSystem (UInt8.ofNat n)).toList := by
  decide +kernel

theorem fuelStatusOf_eq (b : UInt8) : fuelStatusOf (byteBits b) = .ok (fuelSystem b).toList := by
  have := fuel_byte ⟨b.toNat, b.toNat_lt⟩
  simpa using this

/-- The table commands that have a name of the list all have this decoder and size. -/
def areDecodedBy (names : List String) (p : Decoder → Bool) (n : Nat) : Bool :=
  names.all (fun s => match byName s with
    | some c => decide (c.bytes = n) && p c.decode
    | none => false)

theorem decodedBy {names : List String} {p : Decoder → Bool} {n : Nat} (h : areDecodedBy names p n = true)
    {c : OBDCommand} (hc : some c ∈ names.map byName) : c.bytes = n ∧ p c.decode = true := by
  obtain ⟨s, hs, e⟩ := List.mem_map.1 hc
  have := List.all_eq_true.1 h s hs
  rw [e] at this
  simpa using this

/-- C36: fuel status.  The reply holds one byte per fuel system. -/
theorem C36_fuel_status (fl : Str → Option PyFloat) (c : OBDCommand)
    (hc : some c ∈ ["FUEL_STATUS", "DTC_FUEL_STATUS"].map byName) (ms : List Message) (m : Message) (rest : List Message)
    (h : ms.filter (fun m => decide (Overlap c.ecu m.ecu)) = m :: rest) (x y A B : UInt8) (hd : fit 4 m.data = [x, y, A, B]) :
    (c.call fl ms).map Response.value = .ok (if fuelSystem A = "" ∧ fuelSystem B = "" then .none
      else .strPair (fuelSystem A).toList (fuelSystem B).toList) := by
  obtain ⟨hb, hp⟩ := decodedBy (p := fun d => match d with | .fuelStatus => true | _ => false) (n := 4) (by decide +kernel) hc
  have hdec : c.decode = .fuelStatus := by revert hp; cases c.decode <;> simp
  rw [call_value fl c ms m rest h, hb, hdec]
  simp only [Decoder.run, decFuelStatus, payload, idx, List.getElem?_cons_zero, bind, Except.bind, pure, Except.pure, hd,
    List.drop_succ_cons, List.drop_zero]
  have e1 : (BitArray.ofBytes [A, B]).getSlice (some 0) (some 8) = byteBits A := by
    rw [show (some 0 : Option Int) = some ((0 : Nat) : Int) from rfl, show (some 8 : Option Int) = some ((8 : Nat) : Int) from rfl, getSlice_nat]
    unfold slice
    rw [ofBytes_bits]
    simp [List.take_append_of_le_length]
  have e2 : (BitArray.ofBytes [A, B]).getSlice (some 8) (some 16) = byteBits B := by
    rw [show (some 8 : Option Int) = some ((8 : Nat) : Int) from rfl, show (some 16 : Option Int) = some ((16 : Nat) : Int) from rfl, getSlice_nat]
    unfold slice
    rw [ofBytes_bits]
    simp [List.take_of_length_le, List.drop_append]
  rw [e1, e2, fuelStatusOf_eq, fuelStatusOf_eq]
  simp only [List.isEmpty_iff, Bool.and_eq_true, String.toList_eq_nil_iff]
  split <;> rfl

example : answer "FUEL_STATUS" [0x41, 0x03, 0x02, 0x00] = some (.ok (.strPair
    "Closed loop, using oxygen sensor feedback to determine fuel mix".toList [])) := by decide +kernel

/-- A message with this byte after mode and PID. -/
def byteMsg (n : Nat) : List Message := [{ frames := [], ecu := 0, data := [0, 0, UInt8.ofNat n] }]

/-- Decoders that look at nothing but the data after mode and PID of the first message. -/
theorem payload_only (fl : Str → Option PyFloat) (d : Decoder) (ms ms' : List Message)
    (hd : d = .airStatus ∨ d = .obdCompliance ∨ d = .fuelType ∨ d = .o2Sensors ∨ d = .o2SensorsAlt ∨ d = .auxInputStatus)
    (h : payload ms = payload ms') : d.run fl ms = d.run fl ms' := by
  rcases hd with rfl | rfl | rfl | rfl | rfl | rfl <;>
    simp only [Decoder.run, decAirStatus, decObdCompliance, decFuelType, decO2Sensors, decO2SensorsAlt, decAuxInputStatus, h]

theorem one_byte (fl : Str → Option PyFloat) (c : OBDCommand) (d : Decoder)
    (hd : d = .airStatus ∨ d = .obdCompliance ∨ d = .fuelType ∨ d = .o2Sensors ∨ d = .o2SensorsAlt ∨ d = .auxInputStatus)
    (hc : c.decode = d) (hb : c.bytes = 3) (ms : List Message) (m : Message) (rest : List Message)
    (h : ms.filter (fun m => decide (Overlap c.ecu m.ecu)) = m :: rest) (x y A : UInt8) (hf : fit 3 m.data = [x, y, A]) :
    (c.call fl ms).map Response.value = d.run fl (byteMsg A.toNat) := by
  rw [call_value fl c ms m rest h, hb, hc]
  apply payload_only fl d _ _ hd
  simp [payload, idx, hf, byteMsg, bind, Except.bind]

/-- What the secondary air status must be: the state, or None for any other byte. -/
def C36_full : Prop :=
  ∀ (fl : Str → Option PyFloat) (c : OBDCommand), some c ∈ ["AIR_STATUS", "DTC_AIR_STATUS"].map byName →
  ∀ (ms : List Message) (m : Message) (rest : List Message),
    ms.filter (fun m => decide (Overlap c.ecu m.ecu)) = m :: rest → ∀ (x y A : UInt8), fit 3 m.data = [x, y, A] →
    (c.call fl ms).map Response.value = .ok (match airStates.lookup A.toNat with
      | some s => .str s.toList
      | none => .none)

theorem air_byte : ∀ n : Fin 256, decAirStatus (byteMsg n) =
    if n.val ∈ [0x10, 0x20, 0x40, 0x80] then .error .indexError
    else .ok (match airStates.lookup n.val with
      | some s => .str s.toList
      | none => .none) := by decide +kernel

/-- C36: secondary air status.  Each state gives its text and any other byte None, except
that the reserved bits 10, 20, 40 and 80 (alone) raise IndexError. -/
theorem C36_air_status_partial (fl : Str → Option PyFloat) (c : OBDCommand)
    (hc : some c ∈ ["AIR_STATUS", "DTC_AIR_STATUS"].map byName) (ms : List Message) (m : Message) (rest : List Message)
    (h : ms.filter (fun m => decide (Overlap c.ecu m.ecu)) = m :: rest) (x y A : UInt8) (hd : fit 3 m.data = [x, y, A]) :
    (c.call fl ms).map Response.value =
      if A.toNat ∈ [0x10, 0x20, 0x40, 0x80] then .error .indexError
      else .ok (match airStates.lookup A.toNat with
        | some s => .str s.toList
        | none => .none) := by
  obtain ⟨hb, hp⟩ := decodedBy (p := fun d => match d with | .airStatus => true | _ => false) (n := 3) (by decide +kernel) hc
  have hdec : c.decode = .airStatus := by revert hp; cases c.decode <;> simp
  rw [one_byte fl c .airStatus (by simp) hdec hb ms m rest h x y A hd]
  exact air_byte ⟨A.toNat, A.toNat_lt⟩

theorem C36_refuted : ¬ C36_full := by
  intro h
  obtain ⟨c, hc⟩ : ∃ c, byName "AIR_STATUS" = some c := by
    cases e : byName "AIR_STATUS" with
    | some c => exact ⟨c, rfl⟩
    | none => exact absurd e (by decide +kernel)
  have ho : Overlap c.ecu c.ecu := by
    have key : (match byName "AIR_STATUS" with | some c => c.ecu.testBit 1 | none => false) = true := by decide +kernel
    rw [hc] at key
    exact ⟨1, key, key⟩
  have hk : [({ frames := [], ecu := c.ecu, data := [0x41, 0x12, 0x10] } : Message)].filter
      (fun m => decide (Overlap c.ecu m.ecu)) = [{ frames := [], ecu := c.ecu, data := [0x41, 0x12, 0x10] }] := by simp [ho]
  have h1 := h (fun _ => none) c (by simp [hc]) _ _ _ hk 0x41 0x12 0x10 (show fit 3 [0x41, 0x12, 0x10] = _ by decide)
  have h2 := C36_air_status_partial (fun _ => none) c (by simp [hc]) _ _ _ hk 0x41 0x12 0x10 (show fit 3 [0x41, 0x12, 0x10] = _ by decide)
  rw [h1] at h2
  exact absurd h2 (by simp)

example : answer "AIR_STATUS" [0x41, 0x12, 0x02] = some (.ok (.str "Downstream of catalytic converter".toList)) := by
  decide +kernel
example : answer "AIR_STATUS" [0x41, 0x12, 0x03] = some (.ok .none) := by decide +kernel

theorem compliance_byte : ∀ n : Fin 256, decObdCompliance (byteMsg n) =
    .ok (match obdStandards.lookup n.val with
      | some s => .str s.toList
      | none => .none) := by decide +kernel

/-- C36: OBD compliance. -/
theorem C36_obd_compliance (fl : Str → Option PyFloat) (c : OBDCommand)
    (hc : some c ∈ ["OBD_COMPLIANCE", "DTC_OBD_COMPLIANCE"].map byName) (ms : List Message) (m : Message) (rest : List Message)
    (h : ms.filter (fun m => decide (Overlap c.ecu m.ecu)) = m :: rest) (x y A : UInt8) (hd : fit 3 m.data = [x, y, A]) :
    (c.call fl ms).map Response.value = .ok (match obdStandards.lookup A.toNat with
        | some s => .str s.toList
        | none => .none) := by
  obtain ⟨hb, hp⟩ := decodedBy (p := fun d => match d with | .obdCompliance => true | _ => false) (n := 3) (by decide +kernel) hc
  have hdec : c.decode = .obdCompliance := by revert hp; cases c.decode <;> simp
  rw [one_byte fl c .obdCompliance (by simp) hdec hb ms m rest h x y A hd]
  exact compliance_byte ⟨A.toNat, A.toNat_lt⟩

theorem fuelType_byte : ∀ n : Fin 256, decFuelType (byteMsg n) =
    .ok (match fuelKinds.lookup n.val with
      | some s => .str s.toList
      | none => .none) := by decide +kernel

/-- C36: fuel type. -/
theorem C36_fuel_type (fl : Str → Option PyFloat) (c : OBDCommand)
    (hc : some c ∈ ["FUEL_TYPE", "DTC_FUEL_TYPE"].map byName) (ms : List Message) (m : Message) (rest : List Message)
    (h : ms.filter (fun m => decide (Overlap c.ecu m.ecu)) = m :: rest) (x y A : UInt8) (hd : fit 3 m.data = [x, y, A]) :
    (c.call fl ms).map Response.value = .ok (match fuelKinds.lookup A.toNat with
        | some s => .str s.toList
        | none => .none) := by
  obtain ⟨hb, hp⟩ := decodedBy (p := fun d => match d with | .fuelType => true | _ => false) (n := 3) (by decide +kernel) hc
  have hdec : c.decode = .fuelType := by revert hp; cases c.decode <;> simp
  rw [one_byte fl c .fuelType (by simp) hdec hb ms m rest h x y A hd]
  exact fuelType_byte ⟨A.toNat, A.toNat_lt⟩

example : answer "FUEL_TYPE" [0x41, 0x51, 0x04] = some (.ok (.str "Diesel".toList)) ∧
    answer "FUEL_TYPE" [0x41, 0x51, 0x18] = some (.ok .none) := by decide +kernel

theorem o2_byte : ∀ n : Fin 256, decO2Sensors (byteMsg n) =
    .ok (.banks [[], [bitOf (UInt8.ofNat n) 7, bitOf (UInt8.ofNat n) 6, bitOf (UInt8.ofNat n) 5, bitOf (UInt8.ofNat n) 4],
      [bitOf (UInt8.ofNat n) 3, bitOf (UInt8.ofNat n) 2, bitOf (UInt8.ofNat n) 1, bitOf (UInt8.ofNat n) 0]]) := by
  decide +kernel

/-- C36: oxygen sensors present: an unused bank 0, then two banks of four sensors, from the
most significant bit on. -/
theorem C36_o2_sensors (fl : Str → Option PyFloat) (c : OBDCommand)
    (hc : some c ∈ ["O2_SENSORS", "DTC_O2_SENSORS"].map byName) (ms : List Message) (m : Message) (rest : List Message)
    (h : ms.filter (fun m => decide (Overlap c.ecu m.ecu)) = m :: rest) (x y A : UInt8) (hd : fit 3 m.data = [x, y, A]) :
    (c.call fl ms).map Response.value = .ok (.banks [[], [bitOf A 7, bitOf A 6, bitOf A 5, bitOf A 4],
      [bitOf A 3, bitOf A 2, bitOf A 1, bitOf A 0]]) := by
  obtain ⟨hb, hp⟩ := decodedBy (p := fun d => match d with | .o2Sensors => true | _ => false) (n := 3) (by decide +kernel) hc
  have hdec : c.decode = .o2Sensors := by revert hp; cases c.decode <;> simp
  rw [one_byte fl c .o2Sensors (by simp) hdec hb ms m rest h x y A hd]
  have := o2_byte ⟨A.toNat, A.toNat_lt⟩
  simpa [Decoder.run] using this

theorem o2alt_byte : ∀ n : Fin 256, decO2SensorsAlt (byteMsg n) =
    .ok (.banks [[], [bitOf (UInt8.ofNat n) 7, bitOf (UInt8.ofNat n) 6], [bitOf (UInt8.ofNat n) 5, bitOf (UInt8.ofNat n) 4],
      [bitOf (UInt8.ofNat n) 3, bitOf (UInt8.ofNat n) 2], [bitOf (UInt8.ofNat n) 1, bitOf (UInt8.ofNat n) 0]]) := by
  decide +kernel

/-- C36: oxygen sensors present, alternate layout: four banks of two sensors. -/
theorem C36_o2_sensors_alt (fl : Str → Option PyFloat) (c : OBDCommand)
    (hc : some c ∈ ["O2_SENSORS_ALT", "DTC_O2_SENSORS_ALT"].map byName) (ms : List Message) (m : Message) (rest : List Message)
    (h : ms.filter (fun m => decide (Overlap c.ecu m.ecu)) = m :: rest) (x y A : UInt8) (hd : fit 3 m.data = [x, y, A]) :
    (c.call fl ms).map Response.value = .ok (.banks [[], [bitOf A 7, bitOf A 6], [bitOf A 5, bitOf A 4],
      [bitOf A 3, bitOf A 2], [bitOf A 1, bitOf A 0]]) := by
  obtain ⟨hb, hp⟩ := decodedBy (p := fun d => match d with | .o2SensorsAlt => true | _ => false) (n := 3) (by decide +kernel) hc
  have hdec : c.decode = .o2SensorsAlt := by revert hp; cases c.decode <;> simp
  rw [one_byte fl c .o2SensorsAlt (by simp) hdec hb ms m rest h x y A hd]
  have := o2alt_byte ⟨A.toNat, A.toNat_lt⟩
  simpa [Decoder.run] using this

theorem aux_byte : ∀ n : Fin 256, decAuxInputStatus (byteMsg n) = .ok (.bool (bitOf (UInt8.ofNat n) 7)) := by decide +kernel

/-- C36: auxiliary input (power take off): the first bit. -/
theorem C36_aux_input (fl : Str → Option PyFloat) (c : OBDCommand)
    (hc : some c ∈ ["AUX_INPUT_STATUS", "DTC_AUX_INPUT_STATUS"].map byName) (ms : List Message) (m : Message) (rest : List Message)
    (h : ms.filter (fun m => decide (Overlap c.ecu m.ecu)) = m :: rest) (x y A : UInt8) (hd : fit 3 m.data = [x, y, A]) :
    (c.call fl ms).map Response.value = .ok (.bool (bitOf A 7)) := by
  obtain ⟨hb, hp⟩ := decodedBy (p := fun d => match d with | .auxInputStatus => true | _ => false) (n := 3) (by decide +kernel) hc
  have hdec : c.decode = .auxInputStatus := by revert hp; cases c.decode <;> simp
  rw [one_byte fl c .auxInputStatus (by simp) hdec hb ms m rest h x y A hd]
  have := aux_byte ⟨A.toNat, A.toNat_lt⟩
  simpa [Decoder.run] using this

example : answer "O2_SENSORS" [0x41, 0x13, 0xE0] = some (.ok (.banks [[], [true, true, true, false],
    [false, false, false, false]])) := by decide +kernel

end Props
