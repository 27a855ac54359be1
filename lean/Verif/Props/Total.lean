import Verif.Props.Vin
import Verif.Props.Monitor
import Verif.Props.Dtc
import Verif.Props.Status
/-!
# C27: no vehicle reply can crash a built-in decoder
-/
namespace Props
open Py Model Spec

/-- Each table command has a decoder that is either a scalar sensor or one of these, with
enough data bytes. -/
def neverFails (c : OBDCommand) : Bool :=
  match sensor? c.decode with
  | some s => !s.signed || decide (4 ≤ c.bytes)
  | none => match c.decode with
    | .drop | .noop | .pid | .rawString | .status | .fuelStatus | .dtc | .singleDtc | .monitor | .cvn
    | .encodedString _ | .o2Sensors | .o2SensorsAlt | .elmVoltage => true
    | .auxInputStatus | .obdCompliance | .fuelType => decide (3 ≤ c.bytes)
    | .airStatus => decide (c.bytes = 3) && decide (c.name ∈ ["AIR_STATUS", "DTC_AIR_STATUS"])
    | _ => false

theorem neverFails_table : allCommands.all neverFails = true := by decide +kernel

theorem o2_ok (d : Decoder) (hd : d = .o2Sensors ∨ d = .o2SensorsAlt ∨ d = .pid ∨ d = .noop) (fl : Str → Option PyFloat) (m : Message)
    (rest : List Message) : ∃ v, d.run fl (m :: rest) = .ok v := by
  rcases hd with rfl | rfl | rfl | rfl <;> exact ⟨_, rfl⟩

theorem status_ok (fl : Str → Option PyFloat) (m : Message) (rest : List Message) :
    ∃ v, Decoder.run fl .status (m :: rest) = .ok v := by
  simp only [Decoder.run, decStatus, payload_cons, bind, Except.bind]
  cases (BitArray.ofBytes (m.data.drop 2)).getItem 12 <;> exact ⟨_, rfl⟩

theorem fuelStatusOf_ok (bits : List Bool) : ∃ s, fuelStatusOf bits = .ok s := by
  unfold fuelStatusOf
  split
  · next h =>
    have hm : true ∈ bits := List.count_pos_iff.1 (by omega)
    simp only [indexTrue, if_pos hm, bind, Except.bind]
    split
    · next hl =>
      simp only [idx, List.getElem?_eq_getElem hl]
      exact ⟨_, rfl⟩
    · exact ⟨_, rfl⟩
  · exact ⟨_, rfl⟩

theorem fuelStatus_ok (fl : Str → Option PyFloat) (m : Message) (rest : List Message) :
    ∃ v, Decoder.run fl .fuelStatus (m :: rest) = .ok v := by
  simp only [Decoder.run, decFuelStatus, payload_cons, bind, Except.bind]
  obtain ⟨a, ha⟩ := fuelStatusOf_ok ((BitArray.ofBytes (m.data.drop 2)).getSlice (some 0) (some 8))
  obtain ⟨b, hb⟩ := fuelStatusOf_ok ((BitArray.ofBytes (m.data.drop 2)).getSlice (some 8) (some 16))
  rw [ha]
  simp only [hb]
  split <;> exact ⟨_, rfl⟩

theorem encoded_ok (m : Message) (rest : List Message) (n : Nat) : ∃ v, decodeEncodedString (m :: rest) n = .ok v := by
  simp only [decodeEncodedString, payload_cons, bind, Except.bind]
  split <;> exact ⟨_, rfl⟩

theorem byte_ok (m : Message) (h : 3 ≤ m.data.length) : ∃ x, idx (m.data.drop 2) 0 = .ok x := by
  match hd : m.data, h with
  | _ :: _ :: x :: t, _ => exact ⟨x, rfl⟩

/-- C27: the one way in which decoding a reply to a table command can fail: secondary air
status with a single reserved bit (IndexError). -/
theorem C27_raises_iff_partial (fl : Str → Option PyFloat) (c : OBDCommand) (hc : c ∈ allCommands) (ms : List Message)
    (hf : ∀ m ∈ ms, m.frames ≠ []) :
    (∃ e, c.call fl ms = .error e) ↔
      (some c ∈ ["AIR_STATUS", "DTC_AIR_STATUS"].map byName ∧
        ∃ m rest x y A, ms.filter (fun m => decide (Overlap c.ecu m.ecu)) = m :: rest ∧ fit 3 m.data = [x, y, A] ∧
          A.toNat ∈ [0x10, 0x20, 0x40, 0x80]) := by
  constructor
  · rintro ⟨e, he⟩
    cases hk : ms.filter (fun m => decide (Overlap c.ecu m.ecu)) with
    | nil =>
      rw [call_eq, hk] at he
      simp at he
    | cons m rest =>
      have hv := call_value fl c ms m rest hk
      rw [he] at hv
      have hlen : c.bytes ≠ 0 → (fit c.bytes m.data).length = c.bytes := by
        intro hb; simp [fit, hb]
      have hfr : m.frames ≠ [] := hf m (List.mem_of_mem_filter (by rw [hk]; exact List.mem_cons_self ..))
      generalize hm' : ({ m with data := fit c.bytes m.data } : Message) = m' at hv
      have hd' : m'.data = fit c.bytes m.data := by rw [← hm']
      have hfr' : m'.frames ≠ [] := by rw [← hm']; exact hfr
      generalize rest.map (fun m => ({ m with data := fit c.bytes m.data } : Message)) = rest' at hv
      have noerr : (∃ v, c.decode.run fl (m' :: rest') = .ok v) → False := by
        rintro ⟨v, h⟩; rw [h] at hv; cases hv
      have hnf := List.all_eq_true.1 neverFails_table c hc
      have hb1 : ∀ k, k ≠ 0 → k ≤ c.bytes → k ≤ m'.data.length := by
        intro k hk hle; rw [hd', hlen (by omega)]; exact hle
      unfold neverFails at hnf
      cases hs : sensor? c.decode with
      | some s =>
        rw [hs] at hnf
        exfalso
        cases hsg : s.signed with
        | false =>
          have hok := List.all_eq_true.1 sizes_table c hc
          unfold sizesOk at hok
          rw [hs] at hok
          simp only [Bool.and_eq_true, Bool.or_eq_true, decide_eq_true_eq] at hok
          have hw : m'.data.length = c.bytes := by rw [hd']; exact hlen (by omega)
          refine noerr ⟨_, run_mag fl c.decode s hs hsg m' rest' (by omega) ?_⟩
          intro hp; rcases hok.2 with h | h
          · rw [hp] at h; cases h
          · omega
        | true =>
          have hdec : c.decode = .evapPressure := by
            revert hs hsg
            generalize c.decode = d
            unfold sensor?
            split <;> intro hs hsg <;> first
              | rfl
              | (injection hs with hs; subst hs; cases hsg; done)
              | (cases hs; done)
          simp only [hsg, Bool.not_true, Bool.false_or, decide_eq_true_eq] at hnf
          have h4 := hb1 4 (by decide) hnf
          apply noerr
          rw [hdec]
          match hmd : m'.data, h4 with
          | _ :: _ :: a :: b :: t, _ => exact ⟨_, evap_value m' rest' a b t (by rw [hmd]; rfl)⟩
      | none =>
        rw [hs] at hnf
        simp only at hnf
        cases hdec : c.decode <;> rw [hdec] at hnf noerr hv <;> simp only [Bool.false_eq_true] at hnf
        case drop => exact (noerr ⟨_, rfl⟩).elim
        case noop => exact (noerr ⟨_, rfl⟩).elim
        case pid => exact (noerr ⟨_, rfl⟩).elim
        case rawString => exact (noerr ⟨_, rfl⟩).elim
        case o2Sensors => exact (noerr ⟨_, rfl⟩).elim
        case o2SensorsAlt => exact (noerr ⟨_, rfl⟩).elim
        case status => exact (noerr (status_ok fl m' rest')).elim
        case fuelStatus => exact (noerr (fuelStatus_ok fl m' rest')).elim
        case dtc => obtain ⟨cs, h, -⟩ := C32_concatenated fl (m' :: rest'); exact (noerr ⟨_, h⟩).elim
        case singleDtc =>
          exfalso
          by_cases hl : (m'.data.drop 2).length = 2
          · match hmd : m'.data, hl with
            | [x, y, a, b], _ => obtain ⟨_, _, h, -⟩ := C31_single_partial fl m' rest' x y a b hmd; exact noerr ⟨_, h⟩
          · exact noerr ⟨_, C31_length fl m' rest' hl⟩
        case monitor => obtain ⟨mon, h, -⟩ := decMonitor_spec m' rest'; exact (noerr ⟨_, h⟩).elim
        case cvn =>
          exfalso
          obtain ⟨v, h⟩ := encoded_ok m' rest' 4
          apply noerr
          simp only [Decoder.run, decCvn, h, bind, Except.bind]
          cases v <;> exact ⟨_, rfl⟩
        case encodedString n =>
          exfalso
          obtain ⟨v, h⟩ := encoded_ok m' rest' n
          apply noerr
          simp only [Decoder.run, h, bind, Except.bind]
          cases v <;> exact ⟨_, rfl⟩
        case elmVoltage =>
          exfalso
          obtain ⟨f, fs, hfs⟩ := List.exists_cons_of_ne_nil hfr'
          apply noerr
          simp only [Decoder.run, decElmVoltage, idx, List.getElem?_cons_zero, hfs, bind, Except.bind]
          cases fl (voltText f.raw) <;> exact ⟨_, rfl⟩
        case auxInputStatus =>
          exfalso
          obtain ⟨x, hx⟩ := byte_ok m' (hb1 3 (by decide) (of_decide_eq_true hnf))
          exact noerr ⟨_, by simp only [Decoder.run, decAuxInputStatus, payload_cons, hx, bind, Except.bind]; rfl⟩
        case obdCompliance =>
          exfalso
          obtain ⟨x, hx⟩ := byte_ok m' (hb1 3 (by decide) (of_decide_eq_true hnf))
          apply noerr
          simp only [Decoder.run, decObdCompliance, payload_cons, hx, bind, Except.bind]
          cases obdComplianceTable[x.toNat]? <;> exact ⟨_, rfl⟩
        case fuelType =>
          exfalso
          obtain ⟨x, hx⟩ := byte_ok m' (hb1 3 (by decide) (of_decide_eq_true hnf))
          apply noerr
          simp only [Decoder.run, decFuelType, payload_cons, hx, bind, Except.bind]
          cases fuelTypesTable[x.toNat]? <;> exact ⟨_, rfl⟩
        case airStatus =>
          simp only [Bool.and_eq_true, decide_eq_true_eq] at hnf
          have hn : some c ∈ ["AIR_STATUS", "DTC_AIR_STATUS"].map byName :=
            List.mem_map.2 ⟨c.name, hnf.2, C26_by_name c hc⟩
          refine ⟨hn, ?_⟩
          have hl3 : (fit 3 m.data).length = 3 := by rw [← hnf.1]; exact hlen (by omega)
          match hfit : fit 3 m.data, hl3 with
          | [x, y, A], _ =>
            refine ⟨m, rest, x, y, A, rfl, hfit, ?_⟩
            by_contra hA
            have h1 := C36_air_status_partial fl c hn ms m rest hk x y A hfit
            rw [if_neg hA, he] at h1
            cases h1
  · rintro ⟨hn, m, rest, x, y, A, hk, hfit, hA⟩
    have h1 := C36_air_status_partial fl c hn ms m rest hk x y A hfit
    rw [if_pos hA] at h1
    cases hcall : c.call fl ms with
    | error e => exact ⟨e, rfl⟩
    | ok r => rw [hcall] at h1; cases h1

/-- Both sides happen: secondary air status 10 raises, 04 does not. -/
example : (byName "AIR_STATUS").map (fun c => ([0x10, 0x04] : Bytes).map (fun A =>
      (c.call (fun _ => none) [{ frames := [{ raw := "7E8 03 41 12 10".toList }], ecu := ECU.engine, data := [0x41, 0x12, A] }]).isOk)) =
    some [false, true] := by decide +kernel

/-- No table command fails on any reply. -/
def C27_full : Prop :=
  ∀ (fl : Str → Option PyFloat) (c : OBDCommand), c ∈ allCommands → ∀ ms : List Message, (∀ m ∈ ms, m.frames ≠ []) →
    ∃ r, c.call fl ms = .ok r

/-- C27 for every table command except secondary air status. -/
theorem C27_total_partial (fl : Str → Option PyFloat) (c : OBDCommand) (hc : c ∈ allCommands) (ms : List Message)
    (hf : ∀ m ∈ ms, m.frames ≠ []) (hn : c.name ≠ "AIR_STATUS" ∧ c.name ≠ "DTC_AIR_STATUS") :
    ∃ r, c.call fl ms = .ok r := by
  cases h : c.call fl ms with
  | ok r => exact ⟨r, rfl⟩
  | error e =>
    obtain ⟨hm, -⟩ := (C27_raises_iff_partial fl c hc ms hf).1 ⟨e, h⟩
    simp only [List.map_cons, List.map_nil, List.mem_cons, List.not_mem_nil, or_false] at hm
    have hname : ∀ s, some c = byName s → c.name = s := by
      intro s hs
      have := List.find?_some hs.symm
      simpa using this
    rcases hm with hm | hm
    · exact absurd (hname _ hm) hn.1
    · exact absurd (hname _ hm) hn.2

/-- A command whose reply is far too short. -/
example : ∃ c ∈ allCommands, c.name = "RPM" ∧ ∃ r, c.call (fun _ => none) [{ frames := [{ raw := "7E8 01 41".toList }], ecu := ECU.engine, data := [0x41] }] = .ok r := by
  have h : (byName "RPM").any (fun c => decide (c.name = "RPM")) = true := by decide +kernel
  cases hb : byName "RPM" with
  | none => rw [hb] at h; cases h
  | some c =>
    rw [hb] at h
    have hn : c.name = "RPM" := by simpa using h
    exact ⟨c, byName_mem hb, hn, C27_total_partial _ c (byName_mem hb) _ (by simp) (by rw [hn]; decide)⟩

theorem C27_refuted : ¬ C27_full := by
  intro h
  obtain ⟨c, hc⟩ : ∃ c, byName "AIR_STATUS" = some c := by
    cases e : byName "AIR_STATUS" with
    | some c => exact ⟨c, rfl⟩
    | none => exact absurd e (by decide +kernel)
  have hmem : c ∈ allCommands := byName_mem hc
  have hk : (match byName "AIR_STATUS" with | some c => c.ecu.testBit 1 | none => false) = true := by decide +kernel
  rw [hc] at hk
  have ho : Overlap c.ecu ECU.engine := ⟨1, hk, by decide⟩
  have := (C27_raises_iff_partial (fun _ => none) c hmem
    [{ frames := [{ raw := "7E8 03 41 12 10".toList }], ecu := ECU.engine, data := [0x41, 0x12, 0x10] }]
    (by simp)).2 ⟨by simp [hc],
      { frames := [{ raw := "7E8 03 41 12 10".toList }], ecu := ECU.engine, data := [0x41, 0x12, 0x10] }, [], 0x41, 0x12, 0x10, by simp only [List.filter_cons, ho, decide_true, if_true, List.filter_nil],
      (show fit 3 [0x41, 0x12, 0x10] = [0x41, 0x12, 0x10] by decide), by decide⟩
  obtain ⟨e, he⟩ := this
  obtain ⟨r, hr⟩ := h (fun _ => none) c hmem
    [{ frames := [{ raw := "7E8 03 41 12 10".toList }], ecu := ECU.engine, data := [0x41, 0x12, 0x10] }] (by simp)
  rw [he] at hr
  cases hr

end Props
