import Verif.Spec.Docs
import Verif.Props.Enums
import Verif.Props.Status
import Verif.Props.Monitor
/-!
# C64: the command tables and the values are as documented
-/
namespace Props
open Py Model Spec

instance (a b : String) : Decidable (SameUnit a b) := by unfold SameUnit; infer_instance

/-- The reply of a command came from its decoder, on messages of the declared size. -/
theorem call_from (fl : Str → Option PyFloat) (c : OBDCommand) (ms : List Message) (r : Response)
    (h : c.call fl ms = .ok r) :
    r.value = .none ∨ ∃ m rest, c.decode.run fl (m :: rest) = .ok r.value ∧
      (0 < c.bytes → m.data.length = c.bytes) := by
  rw [call_eq] at h
  simp only at h
  split at h
  · injection h with h; subst h; exact Or.inl rfl
  · next hne =>
    right
    cases hl : ms.filter (fun m => decide (Overlap c.ecu m.ecu)) with
    | nil => rw [hl] at hne; exact absurd rfl hne
    | cons m rest =>
      rw [hl] at h
      simp only [List.map_cons] at h
      split at h
      · next v hv =>
        injection h with h; subst h
        refine ⟨_, _, hv, fun hb => ?_⟩
        simp [fit, Nat.pos_iff_ne_zero.1 hb]
      · cases h

/-- The static type of a decoder (with the declared number of bytes). -/
def typed (bytes : Nat) : Decoder → DocType → Bool
  | .drop, _ => true
  | .pid, .bitArray => true
  | .rawString, .string => true
  | .count, .unit u => decide (SameUnit u "count")
  | .percent, .unit u | .percentCentered, .unit u | .absoluteLoad, .unit u => decide (SameUnit u "percent")
  | .temp, .unit u => decide (SameUnit u "celsius")
  | .currentCentered, .unit u => decide (SameUnit u "milliampere")
  | .sensorVoltage, .unit u | .sensorVoltageBig, .unit u | .elmVoltage, .unit u => decide (SameUnit u "volt")
  | .fuelPressure, .unit u | .pressure, .unit u | .absEvapPressure, .unit u => decide (SameUnit u "kilopascal")
  | .evapPressure, .unit u | .evapPressureAlt, .unit u => decide (SameUnit u "pascal")
  | .timingAdvance, .unit u | .injectTiming, .unit u => decide (SameUnit u "degree")
  | .maxMaf, .unit u => decide (SameUnit u "gps")
  | .fuelRate, .unit u => decide (SameUnit u "liters_per_hour")
  | .o2Sensors, .banks l => decide (bytes = 3) && decide (l = [4, 4])
  | .o2SensorsAlt, .banks l => decide (bytes = 3) && decide (l = [2, 2, 2, 2])
  | .auxInputStatus, .boolean => true
  | .status, .status => true
  | .fuelStatus, .fuelStatus => true
  | .airStatus, .airStatus => true
  | .obdCompliance, .string | .fuelType, .string => true
  | .singleDtc, .dtc => true
  | .dtc, .dtcs => true
  | .monitor, .monitor => true
  | .cvn, .hexString => true
  | .uas id, .unit u => match uasLookup id with
    | some (.lin _ _ unit _) => decide (SameUnit u unit)
    | _ => false
  | _, .open => true
  | _, _ => false

theorem idx_mem {α : Type} {l : List α} {i : Nat} {x : α} (h : idx l i = .ok x) : x ∈ l := by
  unfold idx at h
  cases hg : l[i]? with
  | none => rw [hg] at h; cases h
  | some y => rw [hg] at h; injection h with h; subst h; exact List.mem_of_getElem? hg

theorem fuel_doc {bits : List Bool} {s : Str} (h : fuelStatusOf bits = .ok s) : String.ofList s ∈ docFuel := by
  have hall : ∀ t ∈ fuelStatusTable, t ∈ docFuel := by decide +kernel
  unfold fuelStatusOf at h
  split at h
  · simp only [bind, Except.bind] at h
    split at h
    · cases h
    · split at h
      · split at h
        · cases h
        · next x hx =>
          injection h with h; subst h
          rw [String.ofList_toList]
          exact hall _ (idx_mem hx)
      · injection h with h; subst h; decide
  · injection h with h; subst h; decide

theorem hex_doc (bs : Bytes) : ∀ ch ∈ bytesToHex bs, ch ∈ "0123456789abcdef".toList := by
  intro ch hch
  rw [bytesToHex_eq, List.mem_flatMap] at hch
  obtain ⟨b, _, hb⟩ := hch
  have hall : ∀ ch ∈ lowerHex, ch ∈ "0123456789abcdef".toList := by decide +kernel
  exact hall ch (hex2_mem b ch hb)

theorem get?_foldl_set {κ ν α : Type} [DecidableEq κ] (f : α → κ) (g : α → ν) (l : List α) (d : Dict κ ν) (k : κ)
    (h : ∃ v, d.get? k = some v) : ∃ v, (l.foldl (fun d e => d.set (f e) (g e)) d).get? k = some v := by
  induction l generalizing d with
  | nil => exact h
  | cons a l ih =>
    apply ih
    rw [Dict.get?_set]
    split
    · exact ⟨_, rfl⟩
    · exact h

theorem loadTests_keeps (bits : BitArray) (a i : Nat) (names : List (Option String)) (d : Dict (Option String) StatusTest) (k : Option String)
    (h : ∃ v, d.get? k = some v) : ∃ v, (loadTests bits a i names d).get? k = some v :=
  get?_foldl_set (fun e : Option String × Nat => e.1) 
    (fun e : Option String × Nat => (StatusTest.mk e.1 (bits.getItem ((a + e.2 : Nat) : Int)) (!bits.getItem ((i + e.2 : Nat) : Int)))) _ d k h

theorem status_doc {m : Message} {rest : List Message} {v : Value} (h : decStatus (m :: rest) = .ok v) : HasType .status v := by
  have hin : ∀ t ∈ docTests, ∃ test, StatusObj.init.tests.get? (some t) = some test := by
    have : docTests.all (fun t => (StatusObj.init.tests.get? (some t)).isSome) = true := by decide +kernel
    intro t ht
    exact Option.isSome_iff_exists.1 (List.all_eq_true.1 this t ht)
  have hp : payload (m :: rest) = .ok (m.data.drop 2) := rfl
  simp only [decStatus, hp, bind, Except.bind] at h
  cases hc : (BitArray.ofBytes (m.data.drop 2)).getItem 12
  · rw [hc] at h
    injection h with h; subst h
    refine ⟨_, rfl, by simp, fun t ht => ?_⟩
    exact loadTests_keeps _ _ _ _ _ _ (loadTests_keeps _ _ _ _ _ _ (hin t ht))
  · rw [hc] at h
    injection h with h; subst h
    refine ⟨_, rfl, by simp, fun t ht => ?_⟩
    exact loadTests_keeps _ _ _ _ _ _ (loadTests_keeps _ _ _ _ _ _ (hin t ht))

theorem monitor_doc {m : Message} {rest : List Message} {v : Value} (h : decMonitor (m :: rest) = .ok v) : HasType .monitor v := by
  obtain ⟨mon, h1, h2⟩ := decMonitor_spec m rest
  rw [h1] at h
  injection h with h; subst h
  refine ⟨mon, rfl, fun e he => ?_⟩
  have hin : (∃ test, MonitorObj.init.tests.get? e.1 = some test) ∧ ∃ test, MonitorObj.init.attrs.get? e.2.1 = some test := by
    have : docTids.all (fun e => (MonitorObj.init.tests.get? e.1).isSome && (MonitorObj.init.attrs.get? e.2.1).isSome) = true := by
      decide +kernel
    have := List.all_eq_true.1 this e he
    rw [Bool.and_eq_true] at this
    exact ⟨Option.isSome_iff_exists.1 this.1, Option.isSome_iff_exists.1 this.2⟩
  clear h1
  generalize MonitorObj.init = m0 at h2 hin
  generalize blocks (m.data.drop 1) = bl at h2
  induction h2 with
  | nil => exact hin
  | skip _ _ ih => exact ih hin
  | @add mon b bs t mon' _ _ _ ih =>
    apply ih
    constructor
    · show ∃ test, (mon.tests.set (t.tid.getD 0) t).get? e.1 = some test
      rw [Dict.get?_set]
      split
      · exact ⟨_, rfl⟩
      · exact hin.1
    · show ∃ test, (match t.name with | some n => mon.attrs.set n t | none => mon.attrs).get? e.2.1 = some test
      split
      · rw [Dict.get?_set]
        split
        · exact ⟨_, rfl⟩
        · exact hin.2
      · exact hin.2

theorem uas_doc {id : Nat} {m : Message} {rest : List Message} {v : Value} {s : Bool} {sc : UasScale} {u : String} {o : Rat}
    (hu : uasLookup id = some (.lin s sc u o)) (h : decodeUas (m :: rest) id = .ok v) : ∃ q, v = .qty q u := by
  have hp : payload (m :: rest) = .ok (m.data.drop 2) := rfl
  simp only [decodeUas, hp, bind, Except.bind, hu] at h
  cases hc : UasEntry.call (.lin s sc u o) (m.data.drop 2) with
  | error e => rw [hc] at h; cases h
  | ok x =>
    rw [hc] at h
    injection h with h; subst h
    simp only [UasEntry.call, bind, Except.bind] at hc
    repeat' (split at hc)
    all_goals first
      | (cases hc; done)
      | (injection hc with hc; subst hc; exact ⟨_, rfl⟩)

theorem typed_ok (fl : Str → Option PyFloat) (bytes : Nat) (d : Decoder) (t : DocType) (ht : typed bytes d t = true)
    (m : Message) (rest : List Message) (v : Value) (h : d.run fl (m :: rest) = .ok v)
    (hm : 0 < bytes → m.data.length = bytes) : v = .none ∨ HasType t v := by
  have hp : payload (m :: rest) = .ok (m.data.drop 2) := rfl
  have hi : idx (m :: rest) 0 = .ok m := rfl
  have unit : ∀ {u u' : String} {q : Rat}, decide (SameUnit u u') = true → HasType (.unit u) (.qty q u') :=
    fun hu => ⟨_, of_decide_eq_true hu, Or.inl ⟨_, rfl⟩⟩
  unfold typed at ht
  split at ht
  -- drop, pid, rawString
  · injection h with h; subst h; exact Or.inl rfl
  · injection h with h; subst h; exact Or.inr ⟨_, rfl⟩
  · injection h with h; subst h; exact Or.inr ⟨_, rfl⟩
  all_goals first
    | (simp only [Decoder.run, decCount, decPercent, decPercentCentered, decAbsoluteLoad, decTemp, decCurrentCentered,
        decSensorVoltage, decSensorVoltageBig, decFuelPressure, decPressure, decAbsEvapPressure, decEvapPressure,
        decEvapPressureAlt, decTimingAdvance, decInjectTiming, decMaxMaf, decFuelRate, hp, bind, Except.bind] at h
       repeat' (split at h)
       all_goals first
         | (cases h; done)
         | (injection h with h; subst h; exact Or.inr (unit ht)))
    | skip
  -- elmVoltage
  · simp only [Decoder.run, decElmVoltage, hi, bind, Except.bind] at h
    repeat' (split at h)
    · cases h
    · injection h with h; subst h; exact Or.inr ⟨_, of_decide_eq_true ht, Or.inr ⟨_, rfl⟩⟩
    · injection h with h; subst h; exact Or.inl rfl
  -- oxygen sensors
  · simp only [Bool.and_eq_true, decide_eq_true_eq] at ht
    obtain ⟨hb, rfl⟩ := ht
    subst hb
    have hl := hm (by decide)
    obtain ⟨x, y, z, hd⟩ : ∃ x y z, m.data = [x, y, z] := by
      match m.data, hl with | [x, y, z], _ => exact ⟨x, y, z, rfl⟩
    have hb := o2_byte ⟨z.toNat, z.toNat_lt⟩
    simp only [decO2Sensors, byteMsg, payload, idx, bind, Except.bind, pure, Except.pure, List.getElem?_cons_zero, List.drop_succ_cons, List.drop_zero,
      UInt8.ofNat_toNat] at hb
    simp only [Decoder.run, decO2Sensors, hp, hd, bind, Except.bind, List.drop_succ_cons, List.drop_zero] at h
    have h := h.symm.trans hb
    injection h with h; subst h
    exact Or.inr ⟨_, rfl, rfl⟩
  · simp only [Bool.and_eq_true, decide_eq_true_eq] at ht
    obtain ⟨hb, rfl⟩ := ht
    subst hb
    have hl := hm (by decide)
    obtain ⟨x, y, z, hd⟩ : ∃ x y z, m.data = [x, y, z] := by
      match m.data, hl with | [x, y, z], _ => exact ⟨x, y, z, rfl⟩
    have hb := o2alt_byte ⟨z.toNat, z.toNat_lt⟩
    simp only [decO2SensorsAlt, byteMsg, payload, idx, bind, Except.bind, pure, Except.pure, List.getElem?_cons_zero, List.drop_succ_cons, List.drop_zero,
      UInt8.ofNat_toNat] at hb
    simp only [Decoder.run, decO2SensorsAlt, hp, hd, bind, Except.bind, List.drop_succ_cons, List.drop_zero] at h
    have h := h.symm.trans hb
    injection h with h; subst h
    exact Or.inr ⟨_, rfl, rfl⟩
  -- auxInputStatus, status
  · simp only [Decoder.run, decAuxInputStatus, hp, bind, Except.bind] at h
    split at h
    · cases h
    · injection h with h; subst h; exact Or.inr ⟨_, rfl⟩
  · exact Or.inr (status_doc h)
  -- fuelStatus, airStatus
  · simp only [Decoder.run, decFuelStatus, hp, bind, Except.bind] at h
    split at h
    · cases h
    · next a ha =>
      split at h
      · cases h
      · next b hb =>
        split at h
        · injection h with h; subst h; exact Or.inl rfl
        · injection h with h; subst h; exact Or.inr ⟨_, _, rfl, fuel_doc ha, fuel_doc hb⟩
  · simp only [Decoder.run, decAirStatus, hp, bind, Except.bind] at h
    split at h
    · split at h
      · cases h
      · split at h
        · cases h
        · next x hx =>
          injection h with h; subst h
          refine Or.inr ⟨_, rfl, ?_⟩
          rw [String.ofList_toList]
          have : ∀ t ∈ airStatusTable, t ∈ docAir := by decide +kernel
          exact this _ (idx_mem hx)
    · injection h with h; subst h; exact Or.inl rfl
  -- obdCompliance, fuelType
  · simp only [Decoder.run, decObdCompliance, hp, bind, Except.bind] at h
    repeat' (split at h)
    · cases h
    · injection h with h; subst h; exact Or.inr ⟨_, rfl⟩
    · injection h with h; subst h; exact Or.inl rfl
  · simp only [Decoder.run, decFuelType, hp, bind, Except.bind] at h
    repeat' (split at h)
    · cases h
    · injection h with h; subst h; exact Or.inr ⟨_, rfl⟩
    · injection h with h; subst h; exact Or.inl rfl
  -- singleDtc, dtc, monitor, cvn, uas
  · simp only [Decoder.run, decSingleDtc, hp, bind, Except.bind] at h
    split at h
    · split at h
      · cases h
      · injection h with h; subst h; exact Or.inr ⟨_, _, rfl⟩
    · injection h with h; subst h; exact Or.inl rfl
  · simp only [Decoder.run, decDtc, bind, Except.bind] at h
    split at h
    · cases h
    · injection h with h; subst h; exact Or.inr ⟨_, rfl⟩
  · exact Or.inr (monitor_doc h)
  · simp only [Decoder.run, decCvn, bind, Except.bind] at h
    split at h
    · cases h
    · split at h
      · injection h with h; subst h; exact Or.inl rfl
      · injection h with h; subst h; exact Or.inr ⟨_, rfl, hex_doc _⟩
  · split at ht
    · next hu =>
      obtain ⟨q, rfl⟩ := uas_doc hu h
      exact Or.inr (unit ht)
    · cases ht
  · exact Or.inr trivial
  · cases ht

/-- The command is where the documentation puts it: at `commands[mode][pid]` (at position 0
if the mode has no PIDs), or an adapter command, outside of the modes. -/
def Placed (row : DocRow) (c : OBDCommand) : Prop :=
  match row.mode with
  | some m => (∃ l, getMode m = .ok l ∧ l[row.pid.getD 0]? = some (some c)) ∧ c.mode = .ok (some m) ∧ c.pid = .ok row.pid
  | none => c.mode = .ok none

/-- A documented command exists, and its value, if there is one, is of the documented type, whatever
the messages received; and (unless the type is left open) there are replies with a value. -/
def RowOk (row : DocRow) : Prop :=
  ∃ c, byName row.name = some c ∧ Placed row c ∧
    (∀ (fl : Str → Option PyFloat) (ms : List Message) (r : Response), c.call fl ms = .ok r → r.value = .none ∨ HasType row.type r.value) ∧
    (row.type ≠ .open → ∃ (fl : Str → Option PyFloat) (ms : List Message) (r : Response), c.call fl ms = .ok r ∧ r.value ≠ .none)

/-- C64: every documented command exists at its place and returns values of the documented type, and
every command of the tables is documented (those of mode 02 by their mode 01 counterpart). -/
def C64_full : Prop :=
  (∀ row ∈ docTable, RowOk row) ∧
  ∀ c ∈ allCommands, ∃ row ∈ docTable, c.name = row.name ∨ row.mode = some 1 ∧ c.name = "DTC_" ++ row.name

/-- The documented commands of which this is not true. -/
def docMissing : List String :=
  ["PERF_TRACKING_MESSAGE_COUNT", "PERF_TRACKING_SPARK", "ECU_NAME_MESSAGE_COUNT", "ECU_NAME", "PERF_TRACKING_COMPRESSION"]

/-- A message whose data are all ones. -/
def onesMsg (ecu : Nat) : Message := { frames := [{ raw := ['1', '2', '.', '0', 'V'] }], ecu := ecu, data := List.replicate 25 1 }

def onesOk (c : OBDCommand) : Bool :=
  match c.call (fun _ => some (.fin 12)) [onesMsg c.ecu] with
  | .ok r => decide (r.value ≠ .none)
  | .error _ => false

theorem onesOk_some {c : OBDCommand} (h : onesOk c = true) :
    ∃ (fl : Str → Option PyFloat) (ms : List Message) (r : Response), c.call fl ms = .ok r ∧ r.value ≠ .none := by
  unfold onesOk at h
  split at h
  · next r hr => exact ⟨_, _, r, hr, of_decide_eq_true h⟩
  · cases h

def rowCheck (row : DocRow) : Bool :=
  match row.mode with
  | some m => match modes[m]? with
    | none => false
    | some l => match l[row.pid.getD 0]? with
      | some (some c) => decide (c.name = row.name) && decide (c.mode = .ok (some m)) && decide (c.pid = .ok row.pid) && typed c.bytes c.decode row.type && (decide (row.type = .open) || onesOk c)
      | _ => false
  | none => misc.any (fun o => match o with
    | some c => decide (c.name = row.name) && decide (c.mode = .ok none) && typed c.bytes c.decode row.type && onesOk c
    | none => false)

theorem rows_check : docTable.all (fun row => decide (row.name ∈ docMissing) || decide (row.name ∈ ["VIN", "CALIBRATION_ID"]) || rowCheck row) = true := by
  decide +kernel

theorem mem_of_modes {m p : Nat} {l : List (Option OBDCommand)} {c : OBDCommand} (h1 : modes[m]? = some l) (h2 : l[p]? = some (some c)) :
    c ∈ allCommands := by
  unfold allCommands
  rw [List.mem_filterMap]
  refine ⟨some c, List.mem_append.2 (Or.inl ?_), rfl⟩
  exact List.mem_flatten.2 ⟨l, List.mem_of_getElem? h1, List.mem_of_getElem? h2⟩

/-- C64: all rows but seven. -/
theorem C64_rows_partial (row : DocRow) (h : row ∈ docTable) (h1 : row.name ∉ docMissing)
    (h2 : row.name ∉ ["VIN", "CALIBRATION_ID"]) : RowOk row := by
  have hc := List.all_eq_true.1 rows_check row h
  simp only [h1, h2, decide_false, Bool.false_or] at hc
  unfold rowCheck at hc
  have fin : ∀ c : OBDCommand, typed c.bytes c.decode row.type = true → ∀ (fl : Str → Option PyFloat) (ms : List Message) (r : Response),
      c.call fl ms = .ok r → r.value = .none ∨ HasType row.type r.value := by
    intro c ht fl ms r hr
    rcases call_from fl c ms r hr with hn | ⟨m, rest, hv, hl⟩
    · exact Or.inl hn
    · exact typed_ok fl c.bytes c.decode row.type ht m rest _ hv hl
  split at hc
  · next m hm =>
    split at hc
    · cases hc
    · next l hl =>
      split at hc
      · next c hcc =>
        simp only [Bool.and_eq_true, decide_eq_true_eq] at hc
        obtain ⟨⟨⟨⟨a1, a2⟩, a3⟩, a4⟩, a5⟩ := hc
        refine ⟨c, ?_, ?_, fin c a4, ?_⟩
        · rw [← a1]; exact C26_by_name c (mem_of_modes hl hcc)
        · unfold Placed
          rw [hm]
          refine ⟨⟨l, ?_, hcc⟩, a2, a3⟩
          unfold getMode idx
          rw [hl]
        · intro ho
          simp only [ho, Bool.or_eq_true, decide_eq_true_eq, false_or] at a5
          exact onesOk_some a5
      · cases hc
  · next hm =>
    rw [List.any_eq_true] at hc
    obtain ⟨o, ho, hc⟩ := hc
    cases o with
    | none => cases hc
    | some c =>
      simp only [Bool.and_eq_true, decide_eq_true_eq] at hc
      obtain ⟨⟨⟨a1, a2⟩, a4⟩, a5⟩ := hc
      refine ⟨c, ?_, ?_, fin c a4, fun _ => onesOk_some a5⟩
      · rw [← a1]
        apply C26_by_name
        unfold allCommands
        rw [List.mem_filterMap]
        exact ⟨some c, List.mem_append.2 (Or.inr ho), rfl⟩
      · unfold Placed
        rw [hm]
        exact a2

/-- C64: the freeze-frame commands: next to a documented command of mode 01 there is the one named
`DTC_...` at the same PID of mode 02, with values of the same documented type. -/
theorem C64_freeze (row : DocRow) (h : row ∈ docTable) (hm : row.mode = some 1) (p : Nat) (hp : row.pid = some p) :
    ∃ c, byName ("DTC_" ++ row.name) = some c ∧ (∃ l, getMode 2 = .ok l ∧ l[p]? = some (some c)) ∧
      c.mode = .ok (some 2) ∧ c.pid = .ok (some p) ∧
      ∀ (fl : Str → Option PyFloat) (ms : List Message) (r : Response), c.call fl ms = .ok r → r.value = .none ∨ HasType row.type r.value := by
  have key : docTable.all (fun row => decide (row.mode ≠ some 1) || (match mode2[row.pid.getD 0]? with
      | some (some c) => decide (c.name = "DTC_" ++ row.name) && decide (c.mode = .ok (some 2)) && decide (c.pid = .ok row.pid) &&
          typed c.bytes c.decode row.type
      | _ => false)) = true := by decide +kernel
  have hc := List.all_eq_true.1 key row h
  simp only [hm, ne_eq, not_true_eq_false, decide_false, Bool.false_or] at hc
  split at hc
  · next c hcc =>
    simp only [Bool.and_eq_true, decide_eq_true_eq] at hc
    obtain ⟨⟨⟨a1, a2⟩, a3⟩, a4⟩ := hc
    rw [hp] at hcc a3
    refine ⟨c, ?_, ⟨mode2, rfl, hcc⟩, a2, a3, ?_⟩
    · rw [← a1]; exact C26_by_name c (mem_of_modes (m := 2) rfl hcc)
    · intro fl ms r hr
      rcases call_from fl c ms r hr with hn | ⟨m, rest, hv, hl⟩
      · exact Or.inl hn
      · exact typed_ok fl c.bytes c.decode row.type a4 m rest _ hv hl
  · cases hc

/-- C64: what the two text commands of mode 09 return instead of a string: bytes. -/
theorem C64_bytes_partial (name : String) (h : name ∈ ["VIN", "CALIBRATION_ID"]) :
    ∃ row ∈ docTable, row.name = name ∧ row.type = .string ∧ ∃ c, byName name = some c ∧ Placed row c ∧
      ∀ (fl : Str → Option PyFloat) (ms : List Message) (r : Response), c.call fl ms = .ok r → r.value = .none ∨ ∃ b, r.value = .bytes b := by
  have key : ["VIN", "CALIBRATION_ID"].all (fun name => docTable.any (fun row => decide (row.name = name) && decide (row.type = .string) &&
      (match row.mode, mode9[row.pid.getD 0]? with
      | some 9, some (some c) => decide (c.name = row.name) && decide (c.mode = .ok (some 9)) && decide (c.pid = .ok row.pid) &&
          (match c.decode with | .encodedString _ => true | _ => false)
      | _, _ => false))) = true := by decide +kernel
  have hc := List.all_eq_true.1 key name h
  rw [List.any_eq_true] at hc
  obtain ⟨row, hrow, hc⟩ := hc
  rw [Bool.and_eq_true, Bool.and_eq_true, decide_eq_true_eq, decide_eq_true_eq] at hc
  obtain ⟨⟨b1, b2⟩, hc⟩ := hc
  refine ⟨row, hrow, b1, b2, ?_⟩
  split at hc
  · next c hm hcc =>
    simp only [Bool.and_eq_true, decide_eq_true_eq] at hc
    obtain ⟨⟨⟨a1, a2⟩, a3⟩, a4⟩ := hc
    refine ⟨c, ?_, ?_, ?_⟩
    · rw [← b1, ← a1]; exact C26_by_name c (mem_of_modes (m := 9) rfl hcc)
    · unfold Placed
      rw [hm]
      exact ⟨⟨mode9, rfl, hcc⟩, a2, a3⟩
    · intro fl ms r hr
      rcases call_from fl c ms r hr with hn | ⟨m, rest, hv, hl⟩
      · exact Or.inl hn
      · split at a4
        · next n hd =>
          rw [hd] at hv
          simp only [Decoder.run, bind, Except.bind] at hv
          split at hv
          · cases hv
          · split at hv
            · injection hv with hv; exact Or.inl hv.symm
            · injection hv with hv; exact Or.inr ⟨_, hv.symm⟩
        · cases a4
  · cases hc

/-- C64: all commands but two are documented. -/
theorem C64_documented_partial (c : OBDCommand) (h : c ∈ allCommands)
    (h1 : c.name ∉ ["EMISSION_REQ", "MAX_VALUES", "DTC_EMISSION_REQ", "DTC_MAX_VALUES"]) :
    ∃ row ∈ docTable, c.name = row.name ∨ row.mode = some 1 ∧ c.name = "DTC_" ++ row.name := by
  have key : allCommands.all (fun c => decide (c.name ∈ ["EMISSION_REQ", "MAX_VALUES", "DTC_EMISSION_REQ", "DTC_MAX_VALUES"]) ||
      docTable.any (fun row => decide (c.name = row.name ∨ row.mode = some 1 ∧ c.name = "DTC_" ++ row.name))) = true := by decide +kernel
  have hc := List.all_eq_true.1 key c h
  simp only [h1, decide_false, Bool.false_or, List.any_eq_true, decide_eq_true_eq] at hc
  exact hc

/-- C64 is not true: the documented ECU_NAME does not exist. -/
theorem C64_refuted : ¬ C64_full := by
  intro h
  have hm : (⟨some 9, some 0x0A, "ECU_NAME", .open⟩ : DocRow) ∈ docTable := by decide +kernel
  obtain ⟨c, hc, _⟩ := h.1 _ hm
  have : (byName "ECU_NAME").isNone = true := by decide +kernel
  rw [hc] at this
  cases this

-- a case: engine speed, a quantity in the documented unit
example : (byName "RPM").map (fun c => ((c.call (fun _ => none) [{ frames := [], ecu := ECU.engine, data := [0x41, 0x0C, 0x1A, 0xF8] }]).map
    Response.value).toOption) = some (some (.qty 1726 "rpm")) := by decide +kernel

-- the VIN is not a string
example : (byName "VIN").any (fun c => (match (c.call (fun _ => none) 
      [{ frames := [], ecu := ECU.engine, data := [0x49, 0x02, 0x01] ++ ascii "WP0ZZZ99ZTS392124" }]).map Response.value with
    | .ok (.bytes _) => true
    | _ => false)) = true := by decide +kernel

end Props
