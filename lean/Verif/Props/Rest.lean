import Verif.Props.States
import Verif.Props.Dtc
import Verif.Props.Utils
/-!
# C101: the other readings of the engine, end to end
-/
namespace Props
open Py Model Spec ObdM

/-- Which decoder, for the names of this file. -/
def restKind (c : OBDCommand) : Nat :=
  match c.decode with
  | .pid => 1
  | .singleDtc => 2
  | .status => 3
  | .drop => 4
  | _ => 0

theorem rest_attrs : [("PIDS_A", 1, 6), ("PIDS_B", 1, 6), ("PIDS_C", 1, 6), ("FREEZE_DTC", 2, 4), ("STATUS_DRIVE_CYCLE", 3, 6), ("MAX_VALUES", 4, 6),
    ("EMISSION_REQ", 4, 3)].all (fun (e : String × Nat × Nat) => decide ((byName e.1).map (fun c => (c.ecu, restKind c, c.bytes)) = some (ECU.engine, e.2.1, e.2.2))) = true := by
  decide +kernel

theorem rest_attr {name : String} {kind bytes : Nat} {c : OBDCommand} (hb : byName name = some c)
    (hn : (name, kind, bytes) ∈ [("PIDS_A", 1, 6), ("PIDS_B", 1, 6), ("PIDS_C", 1, 6), ("FREEZE_DTC", 2, 4), ("STATUS_DRIVE_CYCLE", 3, 6), ("MAX_VALUES", 4, 6),
      ("EMISSION_REQ", 4, 3)]) : c.ecu = ECU.engine ∧ restKind c = kind ∧ c.bytes = bytes := by
  have := of_decide_eq_true (List.all_eq_true.1 rest_attrs _ hn)
  rw [hb] at this
  simpa using this

/-- C101: on a connection to a car there is an ECU, the engine, such that whenever it answers, whatever other lines there are:
the trouble code that caused the freeze frame is the code that the bytes denote, with its description; bit `k` of a list of supported
PIDs is the bit for PID `pid + k + 1`; the status of this drive cycle is decoded like STATUS (C72); and what the
library does not decode (MAX_VALUES, EMISSION_REQ) is a null value, without an exception. -/
theorem C101_engine (dev : Device) (fl : Str → Option PyFloat) (a : Args) (s0 : OW) (hc : Constructed dev fl a s0)
    (hs : status s0 = .carConnected) :
    ∃ (p : Proto) (r : List Str) (t : Nat), ConnectedTo fl a s0 p r ∧ EngineFor p r t ∧
      ∀ (calls : List Call) (c : OBDCommand) (force : Bool) (out : Except Exc Response) (s' : OW) (evs : History) (cmd : Bytes)
        (lines : List Str),
        query dev fl c force (session dev fl calls s0) = (out, s') → s'.hist = (session dev fl calls s0).hist ++ evs →
        Ends evs cmd lines → (cmd = [] ∨ CommandString c cmd) → ¬ Trips p lines → NoImpostor p t lines →
        (∀ A B : UInt8, byName "FREEZE_DTC" = some c → Says p t [0x41, 0x02, A, B] lines →
          ∃ res code desc, out = .ok res ∧ res.value = .dtc code desc ∧ Denotes code A B ∧ Described code desc) ∧
        (∀ e ∈ [("PIDS_A", (0x00 : UInt8)), ("PIDS_B", 0x20), ("PIDS_C", 0x40)], ∀ A B C D : UInt8, byName e.1 = some c → Says p t [0x41, e.2, A, B, C, D] lines →
          ∃ res bits, out = .ok res ∧ res.value = .bits bits ∧ bits.len = 32 ∧
            ∀ k : Nat, ∀ hk : k < 32, bits.getItem k = bitOf ([A, B, C, D][k / 8]'(by simp; omega)) (7 - k % 8)) ∧
        (∀ A B C D : UInt8, byName "STATUS_DRIVE_CYCLE" = some c → Says p t [0x41, 0x41, A, B, C, D] lines →
          ∃ res st, out = .ok res ∧ res.value = .status st ∧ st.ignitionType = (if bitOf B 3 then "compression" else "spark") ∧
            (∀ e ∈ baseMonitors, testOf st e.1 = some { name := some e.1, available := bitOf B e.2, complete := !bitOf B (e.2 + 4) }) ∧
            (∀ e ∈ ownMonitors (bitOf B 3), testOf st e.1 = some { name := some e.1, available := bitOf C e.2, complete := !bitOf D e.2 })) ∧
        (∀ payload : Bytes, byName "MAX_VALUES" = some c ∨ byName "EMISSION_REQ" = some c → payload.head? ≠ some 0x43 → Says p t payload lines →
          ∃ res, out = .ok res ∧ res.value = .none) := by
  obtain ⟨p, r, t, h1, h2, h3⟩ := engine_value dev fl a s0 hc hs
  refine ⟨p, r, t, h1, h2, ?_⟩
  intro calls c force out s' evs cmd lines hq hh he hcmd htr himp
  refine ⟨?_, ?_, ?_, ?_⟩
  · intro A B hb hsay
    obtain ⟨a1, a2, a3⟩ := rest_attr (kind := 2) (bytes := 4) hb (by simp)
    have a2 : c.decode = .singleDtc := by unfold restKind at a2; split at a2 <;> simp_all
    obtain ⟨m, -, -, -, hm⟩ := h3 calls c force out s' evs cmd lines _ (mem_of_byName hb) a1 hq hh he hcmd htr himp (by simp) hsay
    rw [a2, a3] at hm
    obtain ⟨code, desc, g1, g2, g3⟩ := C31_single_partial fl { m with data := fit 4 [0x41, 0x02, A, B] } [] 0x41 0x02 A B rfl
    rw [g1] at hm
    obtain ⟨res, e1, e2⟩ := map_value hm
    exact ⟨res, code, desc, e1, e2, g2, g3⟩
  · intro e hmem A B C D hb hsay
    obtain ⟨a1, a2, a3⟩ := rest_attr (kind := 1) (bytes := 6) hb (by
      simp only [List.mem_cons, List.not_mem_nil, or_false] at hmem
      rcases hmem with rfl | rfl | rfl <;> simp)
    have a2 : c.decode = .pid := by unfold restKind at a2; split at a2 <;> simp_all
    obtain ⟨m, -, -, -, hm⟩ := h3 calls c force out s' evs cmd lines _ (mem_of_byName hb) a1 hq hh he hcmd htr himp (by simp) hsay
    rw [a2, a3] at hm
    have hrun : Decoder.run fl .pid [{ m with data := fit 6 [0x41, e.2, A, B, C, D] }] = .ok (.bits (BitArray.ofBytes [A, B, C, D])) := rfl
    rw [hrun] at hm
    obtain ⟨res, e1, e2⟩ := map_value hm
    exact ⟨res, _, e1, e2, C04_length _, fun k hk => C04_get [A, B, C, D] k (by simpa using hk)⟩
  · intro A B C D hb hsay
    obtain ⟨a1, a2, a3⟩ := rest_attr (kind := 3) (bytes := 6) hb (by simp)
    have a2 : c.decode = .status := by unfold restKind at a2; split at a2 <;> simp_all
    obtain ⟨m, -, -, -, hm⟩ := h3 calls c force out s' evs cmd lines _ (mem_of_byName hb) a1 hq hh he hcmd htr himp (by simp) hsay
    rw [a2, a3] at hm
    obtain ⟨st, g1, -, -, g2, g3, g4, -⟩ := C34_status fl { m with data := fit 6 [0x41, 0x41, A, B, C, D] } [] 0x41 0x41 A B C D [] rfl
    rw [g1] at hm
    obtain ⟨res, e1, e2⟩ := map_value hm
    exact ⟨res, st, e1, e2, g2, g3, g4⟩
  · intro payload hb h43 hsay
    have hx : c.ecu = ECU.engine ∧ restKind c = 4 ∧ c ∈ allCommands := by
      rcases hb with hb | hb
      · obtain ⟨a1, a2, -⟩ := rest_attr (kind := 4) (bytes := 6) hb (by simp)
        exact ⟨a1, a2, mem_of_byName hb⟩
      · obtain ⟨a1, a2, -⟩ := rest_attr (kind := 4) (bytes := 3) hb (by simp)
        exact ⟨a1, a2, mem_of_byName hb⟩
    obtain ⟨a1, a2, a3⟩ := hx
    have a2 : c.decode = .drop := by unfold restKind at a2; split at a2 <;> simp_all
    obtain ⟨m, -, -, -, hm⟩ := h3 calls c force out s' evs cmd lines _ a3 a1 hq hh he hcmd htr himp h43 hsay
    rw [a2] at hm
    exact map_value hm

/-- A car whose engine kept a freeze frame for P0104 (another ECU answers, too), and whose list of PIDs 21 to 40 has 21 and 40 only. -/
def keptCodeCar : Device := demo ([("0102", "7E9 04 41 02 03 00\r7E8 04 41 02 01 04"), ("0120", "7E8 06 41 20 80 00 00 01")] ++ table)
def keptCodeObd : OW := (construct keptCodeCar fl0 ["COM1".toList] none true {}).2
def keptCodeLines : List Str := ["7E9 04 41 02 03 00".toList, "7E8 04 41 02 01 04".toList]

example : Constructed keptCodeCar fl0 { ports := ["COM1".toList] } keptCodeObd ∧ status keptCodeObd = .carConnected ∧
    protocolOf keptCodeObd = some .can11_500 ∧ ¬ Trips .can11_500 keptCodeLines ∧ NoImpostor .can11_500 0 keptCodeLines ∧
    Says .can11_500 0 [0x41, 0x02, 0x01, 0x04] keptCodeLines ∧
    nameRun keptCodeCar "FREEZE_DTC" keptCodeObd = some (some (.dtc "P0104".toList "Mass or Volume Air Flow Circuit Intermittent".toList), keptCodeObd.hist,
        nameEvents "0102" "7E9 04 41 02 03 00\r7E8 04 41 02 01 04\r\r>") := by
  refine ⟨constructed_of (by decide +kernel), by decide +kernel, by decide +kernel, not_trips_of_calm rfl (by decide +kernel), ?_, ?_, by decide +kernel⟩
  · intro e he hne
    cases he
    exact absurd rfl hne
  · exact .single (.e11 0) (Or.inl rfl) rfl [] (by simp) (by simp) "7E8 04 41 02 01 04".toList (by unfold CanLine Spells; decide +kernel)
      (by decide +kernel)

end Props
