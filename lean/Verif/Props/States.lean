import Verif.Props.Readings
import Verif.Spec.States
/-!
# C92, C93: states and identification data, end to end
-/
namespace Props
open Py Model Spec ObdM

theorem engine_states : ["O2_SENSORS", "OBD_COMPLIANCE", "O2_SENSORS_ALT", "AUX_INPUT_STATUS", "FUEL_TYPE", "FUEL_STATUS", "AIR_STATUS"].all
    (fun n => decide ((byName n).map (fun c => c.ecu) = some ECU.engine)) = true := by decide +kernel

theorem state_engine {name : String} {c : OBDCommand} (hb : byName name = some c)
    (hn : name ∈ ["O2_SENSORS", "OBD_COMPLIANCE", "O2_SENSORS_ALT", "AUX_INPUT_STATUS", "FUEL_TYPE", "FUEL_STATUS", "AIR_STATUS"]) : c.ecu = ECU.engine := by
  have := of_decide_eq_true (List.all_eq_true.1 engine_states _ hn)
  rw [hb] at this
  simpa using this

/-- C92: on a connection to a car there is an ECU, the engine, such that whenever it answers the query of a one-byte state (oxygen
sensors present, OBD standard, auxiliary input, fuel type) with the byte A, whatever other lines there are, the response is what A
means in the table; likewise the fuel systems with two bytes; and the secondary air status, where a byte with one of the upper four bits
alone raises IndexError (C36). -/
theorem C92_states (dev : Device) (fl : Str → Option PyFloat) (a : Args) (s0 : OW) (hc : Constructed dev fl a s0)
    (hs : status s0 = .carConnected) :
    ∃ (p : Proto) (r : List Str) (t : Nat), ConnectedTo fl a s0 p r ∧ EngineFor p r t ∧
      ∀ (calls : List Call) (c : OBDCommand) (force : Bool) (out : Except Exc Response) (s' : OW) (evs : History) (cmd : Bytes)
        (lines : List Str),
        query dev fl c force (session dev fl calls s0) = (out, s') → s'.hist = (session dev fl calls s0).hist ++ evs →
        Ends evs cmd lines → (cmd = [] ∨ CommandString c cmd) → ¬ Trips p lines → NoImpostor p t lines →
        (∀ e ∈ oneByteStates, ∀ A : UInt8, byName e.1 = some c → Says p t [0x41, e.2.1, A] lines →
          ∃ res, out = .ok res ∧ res.value = e.2.2 A) ∧
        (∀ A B : UInt8, byName "FUEL_STATUS" = some c → Says p t [0x41, 0x03, A, B] lines →
          ∃ res, out = .ok res ∧ res.value = fuelReading A B) ∧
        (∀ A : UInt8, byName "AIR_STATUS" = some c → Says p t [0x41, 0x12, A] lines →
          if A.toNat ∈ airBroken then out = .error .indexError else ∃ res, out = .ok res ∧ res.value = textOf airStates A) := by
  obtain ⟨p, r, t, h1, h2, h3⟩ := engine_value dev fl a s0 hc hs
  refine ⟨p, r, t, h1, h2, ?_⟩
  intro calls c force out s' evs cmd lines hq hh he hcmd htr himp
  refine ⟨?_, ?_, ?_⟩
  · intro e hmem A hb hsay
    simp only [oneByteStates, List.mem_cons, List.not_mem_nil, or_false] at hmem
    rcases hmem with rfl | rfl | rfl | rfl | rfl
    all_goals
      obtain ⟨m, hm1, hm2, hm3, -⟩ := h3 calls c force out s' evs cmd lines _ (mem_of_byName hb) (state_engine hb (by simp)) hq hh he hcmd htr himp
        (by simp) hsay
    · have := C36_o2_sensors fl c (by simp [hb]) [m] m [] hm2 0x41 0x13 A (by rw [hm1]; rfl)
      rw [← hm3] at this
      exact map_value this
    · have := C36_obd_compliance fl c (by simp [hb]) [m] m [] hm2 0x41 0x1C A (by rw [hm1]; rfl)
      rw [← hm3] at this
      exact map_value this
    · have := C36_o2_sensors_alt fl c (by simp [hb]) [m] m [] hm2 0x41 0x1D A (by rw [hm1]; rfl)
      rw [← hm3] at this
      exact map_value this
    · have := C36_aux_input fl c (by simp [hb]) [m] m [] hm2 0x41 0x1E A (by rw [hm1]; rfl)
      rw [← hm3] at this
      exact map_value this
    · have := C36_fuel_type fl c (by simp [hb]) [m] m [] hm2 0x41 0x51 A (by rw [hm1]; rfl)
      rw [← hm3] at this
      exact map_value this
  · intro A B hb hsay
    obtain ⟨m, hm1, hm2, hm3, -⟩ := h3 calls c force out s' evs cmd lines _ (mem_of_byName hb) (state_engine hb (by simp)) hq hh he hcmd htr himp
      (by simp) hsay
    have := C36_fuel_status fl c (by simp [hb]) [m] m [] hm2 0x41 0x03 A B (by rw [hm1]; rfl)
    rw [← hm3] at this
    exact map_value this
  · intro A hb hsay
    obtain ⟨m, hm1, hm2, hm3, -⟩ := h3 calls c force out s' evs cmd lines _ (mem_of_byName hb) (state_engine hb (by simp)) hq hh he hcmd htr himp
      (by simp) hsay
    have := C36_air_status_partial fl c (by simp [hb]) [m] m [] hm2 0x41 0x12 A (by rw [hm1]; rfl)
    rw [← hm3] at this
    unfold airBroken
    by_cases hA : A.toNat ∈ [0x10, 0x20, 0x40, 0x80]
    · rw [if_pos hA] at this ⊢
      cases out with
      | ok res => cases this
      | error e =>
        have : e = .indexError := by simpa [Except.map] using this
        rw [this]
    · rw [if_neg hA] at this ⊢
      exact map_value this

/-- A diesel car whose engine says so, between the lines of another ECU, and whose second ECU has its own idea of the fuel. -/
def dieselCar : Device := demo ([("0151", "7E9 03 41 51 01\rBUS INIT: OK\r7E8 03 41 51 04"), ("0103", "7E8 04 41 03 02 00"), ("0112", "7E8 03 41 12 20")] ++ table)
def dieselObd : OW := (construct dieselCar fl0 ["COM1".toList] none true {}).2
def dieselLines : List Str := ["7E9 03 41 51 01".toList, "BUS INIT: OK".toList, "7E8 03 41 51 04".toList]

/-- Everything that C92 asks for happens with this car. -/
example : Constructed dieselCar fl0 { ports := ["COM1".toList] } dieselObd ∧ status dieselObd = .carConnected ∧
    protocolOf dieselObd = some .can11_500 ∧ ¬ Trips .can11_500 dieselLines ∧ NoImpostor .can11_500 0 dieselLines ∧
    Says .can11_500 0 [0x41, 0x51, 0x04] dieselLines ∧
    nameRun dieselCar "FUEL_TYPE" dieselObd = some (some (.str "Diesel".toList), dieselObd.hist,
        nameEvents "0151" "7E9 03 41 51 01\rBUS INIT: OK\r7E8 03 41 51 04\r\r>") := by
  refine ⟨constructed_of (by decide +kernel), by decide +kernel, by decide +kernel, not_trips_of_calm rfl (by decide +kernel), ?_, ?_, by decide +kernel⟩
  · intro e he hne
    cases he
    exact absurd rfl hne
  · exact .single (.e11 0) (Or.inl rfl) rfl [] (by simp) (by simp) "7E8 03 41 51 04".toList (by unfold CanLine Spells; decide +kernel)
      (by decide +kernel)

example : (nameRun dieselCar "FUEL_STATUS" dieselObd).map (fun x => x.1) =
      some (some (.strPair "Closed loop, using oxygen sensor feedback to determine fuel mix".toList [])) ∧
    (nameRun dieselCar "AIR_STATUS" dieselObd).map (fun x => x.1) = some none := by
  refine ⟨by decide +kernel, by decide +kernel⟩

/-! ## C93: identification data -/

/-- Commands meant for every ECU: the decoder's first message is that of the lowest address. -/
theorem lowest_value (dev : Device) (fl : Str → Option PyFloat) (a : Args) (s0 : OW) (hc : Constructed dev fl a s0)
    (hs : status s0 = .carConnected) :
    ∃ (p : Proto) (r : List Str), ConnectedTo fl a s0 p r ∧
      ∀ (calls : List Call) (c : OBDCommand) (force : Bool) (out : Except Exc Response) (s' : OW) (evs : History) (cmd : Bytes)
        (lines : List Str) (t : Nat) (payload : Bytes), c ∈ allCommands → c.ecu = ECU.all →
        query dev fl c force (session dev fl calls s0) = (out, s') → s'.hist = (session dev fl calls s0).hist ++ evs →
        Ends evs cmd lines → (cmd = [] ∨ CommandString c cmd) → ¬ Trips p lines → payload.head? ≠ some 0x43 → Says p t payload lines →
        (∀ t' < t, framesBy p t' lines = []) →
        ∃ ms m rest, m.data = payload ∧ ms.filter (fun m => decide (Overlap c.ecu m.ecu)) = m :: rest ∧ out = c.call fl ms := by
  obtain ⟨r, o, h1, hu, hi, hq⟩ := connected_query hc hs
  refine ⟨o.cls, r, h1, ?_⟩
  intro calls c force out s' evs cmd lines t payload hmem hecu hqq hh he hcmd htr h43 hsay hlow
  rw [hq calls c force out s' evs cmd lines hqq hh he (table_not_header hmem hcmd _)]
  cases hms : o.call lines with
  | error x => exact absurd (trips_of hms).2 htr
  | ok ms =>
    obtain ⟨m, hm1, hm2⟩ := says_message hsay h43 o.ecuMap ms hms
    have hin : m ∈ ms.filter (fun m => m.txId == some t) := by rw [hm1]; simp
    obtain ⟨hin, htx⟩ := List.mem_filter.1 hin
    obtain ⟨rest, rfl⟩ := lowest_first hu hms hlow hin (by simpa using htx) hm1
    simp only [List.cons_ne_nil, if_false]
    refine ⟨m :: rest, m, rest, hm2, ?_, rfl⟩
    rw [List.filter_eq_self]
    intro m' hm'
    rw [hecu]
    simpa using message_all hi hms m' hm'

theorem all_ident : ["CALIBRATION_ID", "CVN", "CALIBRATION_ID_MESSAGE_COUNT", "CVN_MESSAGE_COUNT"].all
    (fun n => decide ((byName n).map (fun c => c.ecu) = some ECU.all)) = true := by decide +kernel

theorem ident_all {name : String} {c : OBDCommand} (hb : byName name = some c)
    (hn : name ∈ ["CALIBRATION_ID", "CVN", "CALIBRATION_ID_MESSAGE_COUNT", "CVN_MESSAGE_COUNT"]) : c.ecu = ECU.all := by
  have := of_decide_eq_true (List.all_eq_true.1 all_ident _ hn)
  rw [hb] at this
  simpa using this

theorem count_byte : ∀ n : Fin 256, decCount (byteMsg n) = .ok (.qty n.val "count") := by decide +kernel

/-- C93: on a connection to a car, whatever the ECUs answer to a query of identification data, the response is about the ECU of
the lowest address that says anything: its calibration ID without the digits 0, 1 and 2 at the ends (on CAN, without the last
character first, C65); its calibration verification numbers, without the bytes of C38; and its numbers of messages. -/
theorem C93_identification (dev : Device) (fl : Str → Option PyFloat) (a : Args) (s0 : OW) (hc : Constructed dev fl a s0)
    (hs : status s0 = .carConnected) :
    ∃ (p : Proto) (r : List Str), ConnectedTo fl a s0 p r ∧
      ∀ (calls : List Call) (c : OBDCommand) (force : Bool) (out : Except Exc Response) (s' : OW) (evs : History) (cmd : Bytes)
        (lines : List Str) (t : Nat),
        query dev fl c force (session dev fl calls s0) = (out, s') → s'.hist = (session dev fl calls s0).hist ++ evs →
        Ends evs cmd lines → (cmd = [] ∨ CommandString c cmd) → ¬ Trips p lines → (∀ t' < t, framesBy p t' lines = []) →
        (∀ (can : Bool) (id : Bytes), byName "CALIBRATION_ID" = some c → id.length = 16 → (∀ b ∈ id, alnum b = true) →
          Says p t (calReply can id) lines →
          ∃ res short, out = .ok res ∧ res.value = .bytes short ∧ Trimmed digit012 (if can then id.take 15 else id) short) ∧
        (∀ d : Bytes, byName "CVN" = some c → Says p t (0x49 :: 0x06 :: d) lines →
          ∃ res inner short s, out = .ok res ∧ res.value = .str s ∧ unhexlify s = .ok short ∧
            Trimmed (fun b : UInt8 => decide ((9 ≤ b.toNat ∧ b.toNat ≤ 13) ∨ b.toNat = 32)) (d.take 8 ++ List.replicate (8 - d.length) 0) inner ∧
            Trimmed cvnLost inner short) ∧
        (∀ (name : String) (pid A : UInt8), (name, pid) ∈ [("CALIBRATION_ID_MESSAGE_COUNT", 0x03), ("CVN_MESSAGE_COUNT", 0x05)] →
          byName name = some c → Says p t [0x49, pid, A] lines →
          ∃ res, out = .ok res ∧ res.value = .qty A.toNat "count") := by
  obtain ⟨p, r, h1, h3⟩ := lowest_value dev fl a s0 hc hs
  refine ⟨p, r, h1, ?_⟩
  intro calls c force out s' evs cmd lines t hq hh he hcmd htr hlow
  refine ⟨?_, ?_, ?_⟩
  · intro can id hb hlen hal hsay
    obtain ⟨ms, m, rest, g1, g2, g3⟩ := h3 calls c force out s' evs cmd lines t _ (mem_of_byName hb) (ident_all hb (by simp)) hq hh he hcmd htr
      (by cases can <;> simp [calReply]) hsay hlow
    obtain ⟨short, e1, e2⟩ := C65_calibration_partial fl c hb ms m rest g2 can id hlen hal g1
    rw [← g3] at e2
    obtain ⟨res, e3, e4⟩ := map_value e2
    exact ⟨res, short, e3, e4, e1⟩
  · intro d hb hsay
    obtain ⟨ms, m, rest, g1, g2, g3⟩ := h3 calls c force out s' evs cmd lines t _ (mem_of_byName hb) (ident_all hb (by simp)) hq hh he hcmd htr
      (by simp) hsay hlow
    obtain ⟨inner, short, s, e1, e2, e3, e4⟩ := C38_any_partial fl c hb ms m rest g2 _ _ d g1
    rw [← g3] at e3
    obtain ⟨res, e5, e6⟩ := map_value e3
    exact ⟨res, inner, short, s, e5, e6, e4, e1, e2⟩
  · intro name pid A hn hb hsay
    have hn' : name ∈ ["CALIBRATION_ID_MESSAGE_COUNT", "CVN_MESSAGE_COUNT"] := by
      simp only [List.mem_cons, List.not_mem_nil, or_false, Prod.mk.injEq] at hn ⊢
      rcases hn with ⟨h, -⟩ | ⟨h, -⟩ <;> simp [h]
    obtain ⟨ms, m, rest, g1, g2, g3⟩ := h3 calls c force out s' evs cmd lines t _ (mem_of_byName hb)
      (ident_all hb (by simp only [List.mem_cons, List.not_mem_nil, or_false] at hn' ⊢; rcases hn' with h | h <;> simp [h])) hq hh he hcmd htr
      (by simp) hsay hlow
    obtain ⟨hbytes, hp⟩ := decodedBy (names := ["CALIBRATION_ID_MESSAGE_COUNT", "CVN_MESSAGE_COUNT"])
      (p := fun d => match d with | .count => true | _ => false) (n := 3) (by decide +kernel)
      (show some c ∈ _ from List.mem_map.2 ⟨name, hn', hb⟩)
    have hdec : c.decode = .count := by revert hp; cases c.decode <;> simp
    have hv : (c.call fl ms).map Response.value = .ok (.qty A.toNat "count") := by
      rw [call_value fl c ms m rest g2, hbytes, hdec, g1]
      have := count_byte ⟨A.toNat, A.toNat_lt⟩
      simpa [Decoder.run, decCount, payload, byteMsg, idx, fit] using this
    rw [← g3] at hv
    exact map_value hv

/-- Two ECUs that send their calibration IDs. -/
def tunedCar : Device := demo ([("0904", "7E9 10 13 49 04 01 58 58 58\r7E8 10 13 49 04 01 41 42 43\r7E8 21 44 45 46 47 48 49 4A\r7E8 22 4B 4C 4D 4E 4F 50\r7E9 21 58 58 58 58 58 58 58\r7E9 22 58 58 58 58 58 58"),
  ("0905", "7E8 03 49 05 02"), ("0906", "7E8 07 49 06 01 17 91 BC 82")] ++ table)
def tunedObd : OW := (construct tunedCar fl0 ["COM1".toList] none true {}).2
def tunedLines : List Str := ["7E9 10 13 49 04 01 58 58 58".toList, "7E8 10 13 49 04 01 41 42 43".toList, "7E8 21 44 45 46 47 48 49 4A".toList,
  "7E8 22 4B 4C 4D 4E 4F 50".toList, "7E9 21 58 58 58 58 58 58 58".toList, "7E9 22 58 58 58 58 58 58".toList]

/-- Everything that C93 asks for happens with this car. -/
example : Constructed tunedCar fl0 { ports := ["COM1".toList] } tunedObd ∧ status tunedObd = .carConnected ∧
    protocolOf tunedObd = some .can11_500 ∧ ¬ Trips .can11_500 tunedLines ∧
    Says .can11_500 0 (calReply true (ascii "ABCDEFGHIJKLMNOP")) tunedLines ∧ (∀ t' < 0, framesBy .can11_500 t' tunedLines = []) ∧
    (nameRun tunedCar "CALIBRATION_ID" tunedObd).map (fun x => x.1) = some (some (.bytes (ascii "ABCDEFGHIJKLMNO"))) ∧
    (nameRun tunedCar "CVN_MESSAGE_COUNT" tunedObd).map (fun x => x.1) = some (some (.qty 2 "count")) ∧
    (nameRun tunedCar "CVN" tunedObd).map (fun x => x.1) = some (some (.str "1791bc82".toList)) := by
  refine ⟨constructed_of (by decide +kernel), by decide +kernel, by decide +kernel, not_trips_of_calm rfl (by decide +kernel), ?_,
    by simp, by decide +kernel, by decide +kernel, by decide +kernel⟩
  exact .segmented (.e11 0) (Or.inl rfl) rfl [] ⟨by decide, by decide, by decide⟩
    [("7E8 10 13 49 04 01 41 42 43".toList, 0), ("7E8 21 44 45 46 47 48 49 4A".toList, 1), ("7E8 22 4B 4C 4D 4E 4F 50".toList, 2)]
    (by unfold Received CanLine Spells; decide +kernel) (by decide) (by decide +kernel)

end Props
