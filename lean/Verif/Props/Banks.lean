import Verif.Spec.Banks
import Verif.Props.Enums
/-!
# C103: the oxygen sensors that a car has
-/
namespace Props
open Py Model Spec

/-- The commands for sensors present, with the number of banks and of sensors per bank. -/
def presence : List (String × Nat × Nat) := [("O2_SENSORS", 2, 4), ("DTC_O2_SENSORS", 2, 4), ("O2_SENSORS_ALT", 4, 2), ("DTC_O2_SENSORS_ALT", 4, 2)]

/-- The full statement: each sensor is reported in its place, and the power take off is active if bit 0 is set. -/
def C103_full : Prop :=
  ∀ (fl : Str → Option PyFloat) (c : OBDCommand) (ms : List Message) (m : Message) (rest : List Message),
    ms.filter (fun m => decide (Overlap c.ecu m.ecu)) = m :: rest → ∀ (x y A : UInt8), fit 3 m.data = [x, y, A] →
    (∀ e ∈ presence, byName e.1 = some c → ∃ r, c.call fl ms = .ok r ∧ InPlace e.2.1 e.2.2 r.value A) ∧
    (byName "AUX_INPUT_STATUS" = some c → ∃ r, c.call fl ms = .ok r ∧ r.value = .bool (bitOf A 0))

theorem value_of_map {x : Except Exc Response} {v : Value} (h : x.map Response.value = .ok v) : ∃ r, x = .ok r ∧ r.value = v := by
  cases x with
  | error e => cases h
  | ok r => exact ⟨r, rfl, by injection h⟩

/-- What holds: each sensor is reported exactly once, but in the place that belongs to the sensor counted from the other end
(bank 1, sensor 1 as bank 2, sensor 4); power take off is read off bit 7. -/
theorem C103_partial (fl : Str → Option PyFloat) (c : OBDCommand) (ms : List Message) (m : Message) (rest : List Message)
    (h : ms.filter (fun m => decide (Overlap c.ecu m.ecu)) = m :: rest) (x y A : UInt8) (hd : fit 3 m.data = [x, y, A]) :
    (∀ e ∈ presence, byName e.1 = some c → ∃ r, c.call fl ms = .ok r ∧ Mirrored e.2.1 e.2.2 r.value A) ∧
    (byName "AUX_INPUT_STATUS" = some c → ∃ r, c.call fl ms = .ok r ∧ r.value = .bool (bitOf A 7)) := by
  have two : some c ∈ ["O2_SENSORS", "DTC_O2_SENSORS"].map byName → ∃ r, c.call fl ms = .ok r ∧ Mirrored 2 4 r.value A := by
    intro hc
    obtain ⟨r, h1, h2⟩ := value_of_map (C36_o2_sensors fl c hc ms m rest h x y A hd)
    refine ⟨r, h1, ?_⟩
    rw [h2]
    intro z hz
    have : z ∈ [(1, 1), (1, 2), (1, 3), (1, 4), (2, 1), (2, 2), (2, 3), (2, 4)] := hz
    simp only [List.mem_cons, List.not_mem_nil, or_false] at this
    rcases this with rfl | rfl | rfl | rfl | rfl | rfl | rfl | rfl <;> rfl
  have four : some c ∈ ["O2_SENSORS_ALT", "DTC_O2_SENSORS_ALT"].map byName → ∃ r, c.call fl ms = .ok r ∧ Mirrored 4 2 r.value A := by
    intro hc
    obtain ⟨r, h1, h2⟩ := value_of_map (C36_o2_sensors_alt fl c hc ms m rest h x y A hd)
    refine ⟨r, h1, ?_⟩
    rw [h2]
    intro z hz
    have : z ∈ [(1, 1), (1, 2), (2, 1), (2, 2), (3, 1), (3, 2), (4, 1), (4, 2)] := hz
    simp only [List.mem_cons, List.not_mem_nil, or_false] at this
    rcases this with rfl | rfl | rfl | rfl | rfl | rfl | rfl | rfl <;> rfl
  constructor
  · intro e he hc
    simp only [presence, List.mem_cons, List.not_mem_nil, or_false] at he
    rcases he with rfl | rfl | rfl | rfl
    · exact two (by rw [← hc]; simp)
    · exact two (by rw [← hc]; simp)
    · exact four (by rw [← hc]; simp)
    · exact four (by rw [← hc]; simp)
  · intro hc
    exact value_of_map (C36_aux_input fl c (by rw [← hc]; simp) ms m rest h x y A hd)

/-- A message of the engine with the given bytes. -/
def engineSays (data : Bytes) : Message := { frames := [], ecu := ECU.engine, data := data }

theorem C103_refuted : ¬ C103_full := by
  intro h
  obtain ⟨c, hc⟩ : ∃ c, byName "O2_SENSORS" = some c := Option.isSome_iff_exists.1 (by decide +kernel)
  have hecu : c.ecu = ECU.engine := by
    have : (byName "O2_SENSORS").map OBDCommand.ecu = some ECU.engine := by decide +kernel
    rw [hc] at this; simpa using this
  have hf : [engineSays [0x41, 0x13, 0x01]].filter (fun m => decide (Overlap c.ecu m.ecu)) = engineSays [0x41, 0x13, 0x01] :: [] := by
    rw [hecu]; decide
  have fl : Str → Option PyFloat := fun _ => none
  obtain ⟨r, h1, h2⟩ := (h fl c _ _ _ hf 0x41 0x13 0x01 (by decide)).1 ("O2_SENSORS", 2, 4) (by simp [presence]) hc
  obtain ⟨r', h3, h4⟩ := (C103_partial fl c _ _ _ hf 0x41 0x13 0x01 (by decide)).1 ("O2_SENSORS", 2, 4) (by simp [presence]) hc
  rw [h1] at h3
  injection h3 with h3
  subst h3
  have a := h2 (1, 1) (by decide)
  have b := h4 (2, 4) (by decide)
  rw [show (2 : Nat) + 1 - (2, 4).1 = (1, 1).1 by rfl, show (4 : Nat) - (2, 4).2 = (1, 1).2 - 1 by rfl, a] at b
  revert b
  decide

/-- A car with sensors 1 and 2 of bank 1: the response says that bank 2 has its sensors 3 and 4. -/
example : answer "O2_SENSORS" [0x41, 0x13, 0x03] = some (.ok (.banks [[], [false, false, false, false], [false, false, true, true]])) ∧
    fit 3 (engineSays [0x41, 0x13, 0x03]).data = [0x41, 0x13, 0x03] := by decide +kernel

end Props
