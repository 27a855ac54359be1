import Verif.Props.Refine
import Verif.Props.Readings
import Verif.Props.States
import Verif.Props.TroubleCodes
import Verif.Props.AsyncActual
/-!
# C99: what the car says, in the hands of a callback
-/
namespace Props
open Py Model Spec AW

theorem due_from : ∀ (log done : List Ev) (d : List (Nat × Response)) (all : List Ev), all = done ++ log →
    (∀ j r, (j, r) ∈ d → ∃ x c y cbs last, done = x ++ .stored c r :: y ∧ subA c.key x = some (cbs, last) ∧ j ∈ cbs) →
    ∀ j r, (j, r) ∈ dueAuxA done d log → ∃ x c y cbs last, all = x ++ .stored c r :: y ∧ subA c.key x = some (cbs, last) ∧ j ∈ cbs
  | [], done, d, all, h, hd => by
    intro j r hm
    rw [h, List.append_nil]
    exact hd j r hm
  | e :: rest, done, d, all, h, hd => by
    refine due_from rest (done ++ [e]) (nextDueA done d e) all (by rw [h]; simp) ?_
    intro j r hm
    have old : (j, r) ∈ d → ∃ x c y cbs last, done ++ [e] = x ++ .stored c r :: y ∧ subA c.key x = some (cbs, last) ∧ j ∈ cbs := by
      intro hj
      obtain ⟨x, c, y, cbs, last, h1, h2, h3⟩ := hd j r hj
      exact ⟨x, c, y ++ [e], cbs, last, by rw [h1]; simp, h2, h3⟩
    cases e with
    | stored c r' =>
      simp only [nextDueA] at hm
      cases hsub : subA c.key done with
      | none => rw [hsub] at hm; simp at hm
      | some l =>
        obtain ⟨cbs, last⟩ := l
        rw [hsub] at hm
        simp only [List.mem_map, Prod.mk.injEq] at hm
        obtain ⟨j', h1, h2, h3⟩ := hm
        subst h2; subst h3
        exact ⟨done, c, [], cbs, last, rfl, hsub, h1⟩
    | fired _ _ => exact old (List.mem_of_mem_tail hm)
    | ended _ => simp [nextDueA] at hm
    | _ => exact old hm

/-- C99: a callback is called only with a response that was stored for a command to which it was subscribed at that time (callbacks as
in C56, subscriptions as in C57_exact_partial). -/
theorem C99_subscribed (dev : Device) (fl : Str → Option PyFloat) (s : AW) (h : AReach dev fl politeCallback s) :
    ∀ a j r b, s.log = a ++ .fired j r :: b →
      ∃ x c y cbs last, a = x ++ .stored c r :: y ∧ subA c.key x = some (cbs, last) ∧ j ∈ cbs := by
  intro a j r b hl
  obtain ⟨later, hd⟩ := (C56_exact_partial dev fl s h).1 a j r b hl
  refine due_from a [] [] a rfl (by simp) j r ?_
  show (j, r) ∈ dueA a
  rw [hd]
  simp

/-- C99: what is stored for a command, hence what callbacks and `query` get (C85, C55), is what the bytes mean that the engine said in
reply to the query of the loop, whatever else was said.  Scalar sensors, as in C61: -/
theorem C99_sensor (dev : Device) (fl : Str → Option PyFloat) (a : Args) (o : OW) (hc : Constructed dev fl a o) (hs : ObdM.status o = .carConnected) :
    ∃ (p : Proto) (r : List Str) (t : Nat), ConnectedTo fl a o p r ∧ EngineFor p r t ∧
      ∀ (as : List Action) (s : AW) (c : OBDCommand) (res : Response), ARun dev fl anyCallback { obd := o } as s → .stored c res ∈ s.log →
        ∃ before evs later, s.obd.hist = before ++ evs ++ later ∧
          ∀ (cmd : Bytes) (lines : List Str) (payload : Bytes) (sen : Sensor), Ends evs cmd lines → (cmd = [] ∨ CommandString c cmd) →
            ¬ Trips p lines → NoImpostor p t lines → c ∈ allCommands → c.ecu = ECU.engine → sensor? c.decode = some sen → c.decode ≠ .evapPressure →
            payload.head? ≠ some 0x43 → payload.length = c.bytes → Says p t payload lines →
            ∃ v, res.value = .qty v sen.unit ∧
              |v - sen.physical (sen.raw payload)| ≤ (|sen.scale * sen.raw payload| + |sen.offset|) / 2 ^ 50 := by
  obtain ⟨p, r, t, h1, h2, h3⟩ := C61_sensor_partial dev fl a o hc hs
  refine ⟨p, r, t, h1, h2, ?_⟩
  intro as s c res hrun hst
  obtain ⟨calls, evs, later, h4, h5, h6⟩ := (C85_delivered dev fl a o hc as s hrun).2 c res hst
  refine ⟨_, evs, later, h6, ?_⟩
  intro cmd lines payload sen g1 g2 g3 g4 g5 g6 g7 g8 g9 g10 g11
  obtain ⟨res', v, k1, k2⟩ := h3 calls c true (ObdM.query dev fl c true (session dev fl calls o)).1 (ObdM.query dev fl c true (session dev fl calls o)).2 evs cmd lines payload sen
    g5 g6 g7 g8 rfl h5 g1 g2 g3 g4 g9 g10 g11
  rw [h4] at k1
  cases k1
  exact ⟨v, k2⟩

/-- States, as in C92 (a response for AIR_STATUS is stored only if the byte is not one on which the library fails): -/
theorem C99_states (dev : Device) (fl : Str → Option PyFloat) (a : Args) (o : OW) (hc : Constructed dev fl a o) (hs : ObdM.status o = .carConnected) :
    ∃ (p : Proto) (r : List Str) (t : Nat), ConnectedTo fl a o p r ∧ EngineFor p r t ∧
      ∀ (as : List Action) (s : AW) (c : OBDCommand) (res : Response), ARun dev fl anyCallback { obd := o } as s → .stored c res ∈ s.log →
        ∃ before evs later, s.obd.hist = before ++ evs ++ later ∧
          ∀ (cmd : Bytes) (lines : List Str), Ends evs cmd lines → (cmd = [] ∨ CommandString c cmd) → ¬ Trips p lines → NoImpostor p t lines →
            (∀ e ∈ oneByteStates, ∀ A : UInt8, byName e.1 = some c → Says p t [0x41, e.2.1, A] lines → res.value = e.2.2 A) ∧
            (∀ A B : UInt8, byName "FUEL_STATUS" = some c → Says p t [0x41, 0x03, A, B] lines → res.value = fuelReading A B) ∧
            (∀ A : UInt8, byName "AIR_STATUS" = some c → Says p t [0x41, 0x12, A] lines →
              A.toNat ∉ airBroken ∧ res.value = textOf airStates A) := by
  obtain ⟨p, r, t, h1, h2, h3⟩ := C92_states dev fl a o hc hs
  refine ⟨p, r, t, h1, h2, ?_⟩
  intro as s c res hrun hst
  obtain ⟨calls, evs, later, h4, h5, h6⟩ := (C85_delivered dev fl a o hc as s hrun).2 c res hst
  refine ⟨_, evs, later, h6, ?_⟩
  intro cmd lines g1 g2 g3 g4
  obtain ⟨k1, k2, k3⟩ := h3 calls c true (ObdM.query dev fl c true (session dev fl calls o)).1 (ObdM.query dev fl c true (session dev fl calls o)).2 evs cmd lines rfl h5 g1 g2 g3 g4
  rw [h4] at k1 k2 k3
  refine ⟨?_, ?_, ?_⟩
  · intro e he A hb hsay
    obtain ⟨res', e1, e2⟩ := k1 e he A hb hsay
    cases e1
    exact e2
  · intro A B hb hsay
    obtain ⟨res', e1, e2⟩ := k2 A B hb hsay
    cases e1
    exact e2
  · intro A hb hsay
    have := k3 A hb hsay
    by_cases hA : A.toNat ∈ airBroken
    · rw [if_pos hA] at this
      cases this
    · rw [if_neg hA] at this
      obtain ⟨res', e1, e2⟩ := this
      cases e1
      exact ⟨hA, e2⟩

/-- The check-engine light, as in C72: -/
theorem C99_check_engine (dev : Device) (fl : Str → Option PyFloat) (a : Args) (o : OW) (hc : Constructed dev fl a o) (hs : ObdM.status o = .carConnected) :
    ∃ (p : Proto) (r : List Str) (t : Nat), ConnectedTo fl a o p r ∧ EngineFor p r t ∧
      ∀ (as : List Action) (s : AW) (c : OBDCommand) (res : Response), ARun dev fl anyCallback { obd := o } as s → .stored c res ∈ s.log →
        ∃ before evs later, s.obd.hist = before ++ evs ++ later ∧
          ∀ (cmd : Bytes) (lines : List Str) (A B C D : UInt8), Ends evs cmd lines → (cmd = [] ∨ CommandString c cmd) → ¬ Trips p lines →
            NoImpostor p t lines → byName "STATUS" = some c → Says p t [0x41, 0x01, A, B, C, D] lines →
            ∃ st, res.value = .status st ∧ st.mil = bitOf A 7 ∧ st.dtcCount = A.toNat % 128 := by
  obtain ⟨p, r, t, h1, h2, h3⟩ := C72_check_engine dev fl a o hc hs
  refine ⟨p, r, t, h1, h2, ?_⟩
  intro as s c res hrun hst
  obtain ⟨calls, evs, later, h4, h5, h6⟩ := (C85_delivered dev fl a o hc as s hrun).2 c res hst
  refine ⟨_, evs, later, h6, ?_⟩
  intro cmd lines A B C D g1 g2 g3 g4 g5 g6
  obtain ⟨res', st, k1, k2, k3, k4, -⟩ := h3 calls c true (ObdM.query dev fl c true (session dev fl calls o)).1 (ObdM.query dev fl c true (session dev fl calls o)).2 evs cmd lines A B C D g5 rfl h5 g1 g2 g3 g4 g6
  rw [h4] at k1
  cases k1
  exact ⟨st, k2, k3, k4⟩

/-- The stored trouble codes, as in C68: -/
theorem C99_trouble_codes (dev : Device) (fl : Str → Option PyFloat) (a : Args) (o : OW) (hc : Constructed dev fl a o) (hs : ObdM.status o = .carConnected) :
    ∃ (p : Proto) (r : List Str), ConnectedTo fl a o p r ∧
      ∀ (as : List Action) (s : AW) (c : OBDCommand) (res : Response), ARun dev fl anyCallback { obd := o } as s → .stored c res ∈ s.log →
        ∃ before evs later, s.obd.hist = before ++ evs ++ later ∧
          ∀ (cmd : Bytes) (lines : List Str) (ecus : List Nat) (codes : Nat → List (UInt8 × UInt8)), Ends evs cmd lines → (cmd = [] ∨ CommandString c cmd) →
            byName "GET_DTC" = some c → Reported p 0x43 lines ecus codes →
            ∃ cs, res.value = .dtcs cs ∧ List.Forall₂ Decoded (ecus.flatMap codes) cs := by
  obtain ⟨p, r, h1, h3⟩ := C68_stored_codes dev fl a o hc hs
  refine ⟨p, r, h1, ?_⟩
  intro as s c res hrun hst
  obtain ⟨calls, evs, later, h4, h5, h6⟩ := (C85_delivered dev fl a o hc as s hrun).2 c res hst
  refine ⟨_, evs, later, h6, ?_⟩
  intro cmd lines ecus codes g1 g2 g3 g4
  obtain ⟨res', cs, k1, k2⟩ := h3 calls c true (ObdM.query dev fl c true (session dev fl calls o)).1 (ObdM.query dev fl c true (session dev fl calls o)).2 evs cmd lines ecus codes g3 rfl h5 g1 g2 g4
  rw [h4] at k1
  cases k1
  exact ⟨cs, k2⟩

/-- The diesel car of C92, its fuel type watched by callback 1: the loop asks once, stores what the engine said, and the callback gets it. -/
def watchFuel : List Action := .call (.watch ((byName "FUEL_TYPE").getD rpmCommand) (some 1) true) :: user 2

def dieselAfter : AW := (play dieselCar fl0 { obd := dieselObd } (watchFuel ++ startUp ++ loop 9)).getD { obd := dieselObd }

theorem dieselAfter_play : play dieselCar fl0 { obd := dieselObd } (watchFuel ++ startUp ++ loop 9) = some dieselAfter := by
  have h : (play dieselCar fl0 { obd := dieselObd } (watchFuel ++ startUp ++ loop 9)).isSome = true := by decide +kernel
  unfold dieselAfter
  cases hp : play dieselCar fl0 { obd := dieselObd } (watchFuel ++ startUp ++ loop 9) with
  | none => rw [hp] at h; cases h
  | some s => rfl

example : ARun dieselCar fl0 anyCallback { obd := dieselObd } (watchFuel ++ startUp ++ loop 9) dieselAfter ∧ ObdM.status dieselObd = .carConnected ∧
    (loopStored dieselAfter.log).map (fun x => (x.1.name, x.2.value)) = [("FUEL_TYPE", Value.str "Diesel".toList)] ∧ fires dieselAfter.log = [1] :=
  ⟨play_any dieselAfter_play, by decide +kernel, by decide +kernel, by decide +kernel⟩

end Props
