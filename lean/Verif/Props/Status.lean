import Verif.Spec.Status
import Verif.Props.Utils
import Verif.Props.Sensors
/-!
# C34: the status reply
-/
namespace Props
open Py Model Spec

theorem low7 : ∀ n : Fin 256, ((byteBits (UInt8.ofNat n)).drop 1).foldl (fun acc b => 2 * acc + b.toNat) 0 = n.val % 128 := by
  decide +kernel

theorem dtcCount_eq (A : UInt8) (t : Bytes) : (BitArray.ofBytes (A :: t)).value (some 1) (some 8) = A.toNat % 128 := by
  unfold BitArray.value
  change (((BitArray.ofBytes (A :: t)).getSlice (some ((1 : Nat) : Int)) (some ((8 : Nat) : Int))).foldl _ 0) = _
  rw [getSlice_nat, ofBytes_bits, List.flatMap_cons]
  unfold slice
  rw [List.take_append_of_le_length (by simp), List.take_of_length_le (by simp)]
  have := low7 ⟨A.toNat, A.toNat_lt⟩
  simpa using this

theorem bit_eq (A B C D : UInt8) (t : Bytes) (k : Nat) (hk : k < 32) :
    (BitArray.ofBytes (A :: B :: C :: D :: t)).getItem k =
      bitOf (if k < 8 then A else if k < 16 then B else if k < 24 then C else D) (7 - k % 8) := by
  rw [C04_get _ k (by simp; omega)]
  congr 1
  split
  · have : k / 8 = 0 := by omega
    simp [this]
  · split
    · have : k / 8 = 1 := by omega
      simp [this]
    · split
      · have : k / 8 = 2 := by omega
        simp [this]
      · have : k / 8 = 3 := by omega
        simp [this]

/-- The test reported under a name. -/
def testOf (s : StatusObj) (name : String) : Option StatusTest := s.tests.get? (some name)

/-- Before decoding, every monitor of either type is unavailable and incomplete. -/
theorem init_tests (e : String × Nat) (h : e ∈ sparkMonitors ∨ e ∈ compressionMonitors) :
    StatusObj.init.tests.get? (some e.1) = some {} := by
  have key : (sparkMonitors ++ compressionMonitors).all (fun e =>
      decide (StatusObj.init.tests.get? (some e.1) = some {})) = true := by decide +kernel
  exact of_decide_eq_true (List.all_eq_true.1 key e (List.mem_append.2 h))

/-- C34: a status reply with the bytes A B C D after mode and PID. -/
theorem C34_status (fl : Str → Option PyFloat) (m : Message) (rest : List Message) (x y A B C D : UInt8) (t : Bytes)
    (h : m.data = x :: y :: A :: B :: C :: D :: t) :
    ∃ s, Decoder.run fl .status (m :: rest) = .ok (.status s) ∧
      s.mil = bitOf A 7 ∧ s.dtcCount = A.toNat % 128 ∧
      s.ignitionType = (if bitOf B 3 then "compression" else "spark") ∧
      (∀ e ∈ baseMonitors, testOf s e.1 =
        some { name := some e.1, available := bitOf B e.2, complete := !bitOf B (e.2 + 4) }) ∧
      (∀ e ∈ ownMonitors (bitOf B 3), testOf s e.1 =
        some { name := some e.1, available := bitOf C e.2, complete := !bitOf D e.2 }) ∧
      (∀ e ∈ otherMonitors (bitOf B 3), e.1 ∉ (ownMonitors (bitOf B 3)).map Prod.fst → ∃ n, testOf s e.1 =
        some { name := n, available := false, complete := false }) := by
  have hp : payload (m :: rest) = .ok (A :: B :: C :: D :: t) := by
    simp [payload, idx, h, bind, Except.bind, pure, Except.pure]
  have hb := bit_eq A B C D t
  have hv := dtcCount_eq A (B :: C :: D :: t)
  have hrun : Decoder.run fl .status (m :: rest) = decStatus (m :: rest) := rfl
  rw [hrun]
  unfold decStatus
  simp only [hp, bind, Except.bind, hv]
  generalize BitArray.ofBytes (A :: B :: C :: D :: t) = bits at hb
  have hb : ∀ k : Nat, k < 32 → bits.getItem k = _ := hb
  have h12 : bits.getItem 12 = bitOf B 3 := hb 12 (by decide)
  have h0 : bits.getItem 0 = bitOf A 7 := hb 0 (by decide)
  have g9 : bits.getItem 9 = bitOf B 6 := hb 9 (by decide)
  have g10 : bits.getItem 10 = bitOf B 5 := hb 10 (by decide)
  have g11 : bits.getItem 11 = bitOf B 4 := hb 11 (by decide)
  have g13 : bits.getItem 13 = bitOf B 2 := hb 13 (by decide)
  have g14 : bits.getItem 14 = bitOf B 1 := hb 14 (by decide)
  have g15 : bits.getItem 15 = bitOf B 0 := hb 15 (by decide)
  have g16 : bits.getItem 16 = bitOf C 7 := hb 16 (by decide)
  have g17 : bits.getItem 17 = bitOf C 6 := hb 17 (by decide)
  have g18 : bits.getItem 18 = bitOf C 5 := hb 18 (by decide)
  have g19 : bits.getItem 19 = bitOf C 4 := hb 19 (by decide)
  have g20 : bits.getItem 20 = bitOf C 3 := hb 20 (by decide)
  have g21 : bits.getItem 21 = bitOf C 2 := hb 21 (by decide)
  have g22 : bits.getItem 22 = bitOf C 1 := hb 22 (by decide)
  have g23 : bits.getItem 23 = bitOf C 0 := hb 23 (by decide)
  have g24 : bits.getItem 24 = bitOf D 7 := hb 24 (by decide)
  have g25 : bits.getItem 25 = bitOf D 6 := hb 25 (by decide)
  have g26 : bits.getItem 26 = bitOf D 5 := hb 26 (by decide)
  have g27 : bits.getItem 27 = bitOf D 4 := hb 27 (by decide)
  have g28 : bits.getItem 28 = bitOf D 3 := hb 28 (by decide)
  have g29 : bits.getItem 29 = bitOf D 2 := hb 29 (by decide)
  have g30 : bits.getItem 30 = bitOf D 1 := hb 30 (by decide)
  have g31 : bits.getItem 31 = bitOf D 0 := hb 31 (by decide)
  rw [h12, h0]
  cases hc : bitOf B 3
  · refine ⟨_, rfl, rfl, rfl, rfl, ?_, ?_, ?_⟩
    · simp [baseMonitors, testOf, loadTests, baseTests, sparkTests, Dict.get?_set, g9, g10, g11, g13, g14, g15, g16, g17, g18, g19, g20, g21, g22, g23, g24,
        g25, g26, g27, g28, g29, g30, g31, List.zipIdx]
    · simp [ownMonitors, sparkMonitors, testOf, loadTests, sparkTests, Dict.get?_set, g9, g10, g11, g13, g14, g15, g16, g17, g18, g19, g20, g21, g22, g23, g24,
        g25, g26, g27, g28, g29, g30, g31, List.zipIdx]
    · have i0 := init_tests ("NMHC_CATALYST_MONITORING", 0) (by decide)
      have i1 := init_tests ("NOX_SCR_AFTERTREATMENT_MONITORING", 1) (by decide)
      have i2 := init_tests ("BOOST_PRESSURE_MONITORING", 3) (by decide)
      have i3 := init_tests ("EXHAUST_GAS_SENSOR_MONITORING", 5) (by decide)
      have i4 := init_tests ("PM_FILTER_MONITORING", 6) (by decide)
      simp only at i0 i1 i2 i3 i4
      simp [ownMonitors, otherMonitors, sparkMonitors, compressionMonitors, testOf, loadTests, baseTests, sparkTests,
        Dict.get?_set, List.zipIdx, i0, i1, i2, i3, i4]
  · refine ⟨_, rfl, rfl, rfl, rfl, ?_, ?_, ?_⟩
    · simp [baseMonitors, testOf, loadTests, baseTests, compressionTests, Dict.get?_set, g9, g10, g11, g13, g14, g15, g16, g17, g18, g19, g20, g21, g22, g23, g24,
        g25, g26, g27, g28, g29, g30, g31, List.zipIdx]
    · simp [ownMonitors, compressionMonitors, testOf, loadTests, compressionTests, Dict.get?_set, g9, g10, g11, g13, g14, g15, g16, g17, g18, g19, g20, g21, g22, g23, g24,
        g25, g26, g27, g28, g29, g30, g31, List.zipIdx]
    · have i0 := init_tests ("CATALYST_MONITORING", 0) (by decide)
      have i1 := init_tests ("HEATED_CATALYST_MONITORING", 1) (by decide)
      have i2 := init_tests ("EVAPORATIVE_SYSTEM_MONITORING", 2) (by decide)
      have i3 := init_tests ("SECONDARY_AIR_SYSTEM_MONITORING", 3) (by decide)
      have i4 := init_tests ("OXYGEN_SENSOR_MONITORING", 5) (by decide)
      have i5 := init_tests ("OXYGEN_SENSOR_HEATER_MONITORING", 6) (by decide)
      simp only at i0 i1 i2 i3 i4 i5
      simp [ownMonitors, otherMonitors, sparkMonitors, compressionMonitors, testOf, loadTests, baseTests, compressionTests,
        Dict.get?_set, List.zipIdx, i0, i1, i2, i3, i4, i5]

/-- C34: the replies to the status commands always have the four bytes (short ones are
zero-filled, see C23). -/
theorem C34_commands (fl : Str → Option PyFloat) (c : OBDCommand)
    (hc : some c ∈ [byName "STATUS", byName "STATUS_DRIVE_CYCLE", byName "DTC_STATUS", byName "DTC_STATUS_DRIVE_CYCLE"])
    (ms : List Message) (r : Response) (m : Message) (rest : List Message) (hr : c.call fl ms = .ok r)
    (hm : r.messages = m :: rest) :
    ∃ x y A B C D, m.data = [x, y, A, B, C, D] ∧ Decoder.run fl .status (m :: rest) = .ok r.value := by
  obtain ⟨h1, h2⟩ := call_head fl c ms r m rest hr hm
  have key : [byName "STATUS", byName "STATUS_DRIVE_CYCLE", byName "DTC_STATUS", byName "DTC_STATUS_DRIVE_CYCLE"].all
      (fun o => match o with
        | some c => decide (c.bytes = 6) && (match c.decode with | .status => true | _ => false)
        | none => false) = true := by decide +kernel
  have := List.all_eq_true.1 key _ hc
  simp only [Bool.and_eq_true, decide_eq_true_eq] at this
  obtain ⟨hb, hd⟩ := this
  have hdec : c.decode = .status := by
    revert hd; cases c.decode <;> simp
  rw [hdec] at h1
  have hlen := h2 (by omega)
  rw [hb] at hlen
  match hmd : m.data, hlen with
  | [x, y, A, B, C, D], _ => exact ⟨x, y, A, B, C, D, rfl, h1⟩

example : (answer "STATUS" [0x41, 0x01, 0x83, 0x07, 0xFF, 0x00]).map (fun v => v.map (fun v => match v with
      | .status s => (s.mil, s.dtcCount, s.ignitionType, (testOf s "EGR_VVT_SYSTEM_MONITORING").map StatusTest.complete)
      | _ => (false, 0, "", none))) = some (.ok (true, 3, "spark", some true)) := by decide +kernel

end Props
