import Verif.Lemmas.Names
import Verif.Spec.ProtocolNames
import Verif.Props.Unconnected
/-!
# C108: the protocol that the adapter uses, by number and name
-/
namespace Props
open Py Model Spec ObdM

/-- The property in full, as documented: on a connection to a car, number and name of the
protocol are a row of the documented table; if there is no connection to a car, both are empty. -/
def C108_full : Prop :=
  ∀ (dev : Device) (fl : Str → Option PyFloat) (s : OW), Reachable dev fl s →
    ∃ id name, protocolId s = .ok id ∧ protocolName s = .ok name ∧
      (status s = .carConnected → (id, name) ∈ documentedNames) ∧
      (status s ≠ .carConnected → (id = [] ∧ name = []) ∨ (id, name) ∈ documentedNames)

/-- The ten protocols are the ten rows. -/
theorem known_row (p : Proto) (h : p ≠ .unknown) : (p.elmId, p.elmName) ∈ protocolNames := by
  cases p <;> first | exact absurd rfl h | decide

theorem unknown_row : Proto.unknown.elmId = [] ∧ Proto.unknown.elmName = [] := ⟨rfl, rfl⟩

/-- What holds: on a connection to a car, number and name are a row of the table (with the name
`ISO 9141-2` for number 3); with an adapter but no car, both are empty; without a connection,
both are empty, or still a row (the connection was lost), or both raise AttributeError: then a
`close()` has been called (and has raised, see below). -/
theorem C108_partial (dev : Device) (fl : Str → Option PyFloat) (s : OW) (hr : Reachable dev fl s) :
    (status s = .carConnected → ∃ id name, protocolId s = .ok id ∧ protocolName s = .ok name ∧ (id, name) ∈ protocolNames) ∧
    (status s = .elmConnected ∨ status s = .obdConnected → protocolId s = .ok [] ∧ protocolName s = .ok []) ∧
    (status s = .notConnected →
      (protocolId s = .ok [] ∧ protocolName s = .ok []) ∨
      (∃ id name, protocolId s = .ok id ∧ protocolName s = .ok name ∧ (id, name) ∈ protocolNames) ∨
      (protocolId s = .error .attributeError ∧ protocolName s = .error .attributeError)) := by
  have hn := reachable_named hr
  cases hi : s.interface with
  | none => simp [status, protocolId, protocolName, hi]
  | some e =>
    have hs : status s = e.status := by simp [status, hi]
    have hid : protocolId s = e.protocolId := by simp [protocolId, hi]
    have hnm : protocolName s = e.protocolName := by simp [protocolName, hi]
    rw [hs, hid, hnm]
    rcases hn e hi with ⟨h1, h2⟩ | ⟨o, h1, ⟨h2, h3⟩ | ⟨h2, h3⟩⟩
    · simp [Elm.protocolId, Elm.protocolName, h1, h2]
    · have h4 : e.protocolId = .ok [] ∧ e.protocolName = .ok [] := by
        simp only [Elm.protocolId, Elm.protocolName, h1, h2]; exact ⟨rfl, rfl⟩
      exact ⟨fun h => absurd h h3, fun _ => h4, fun _ => Or.inl h4⟩
    · have h4 : ∃ id name, e.protocolId = .ok id ∧ e.protocolName = .ok name ∧ (id, name) ∈ protocolNames :=
        ⟨o.cls.elmId, o.cls.elmName, by simp [Elm.protocolId, h1], by simp [Elm.protocolName, h1], known_row _ h2⟩
      refine ⟨fun _ => h4, fun h => ?_, fun _ => Or.inr (Or.inl h4)⟩
      rcases h3 with h3 | h3 <;> rw [h3] at h <;> rcases h with h | h <;> cases h

theorem close_ok_none {dev : Device} {s s' : OW} (h : close dev s = (.ok (), s')) : s'.interface = none := by
  unfold close at h
  obtain ⟨_, s1, h1, h⟩ := bind_inv h
  obtain ⟨t, s2, h2, h⟩ := bind_inv h
  cases h2
  cases hi : s1.interface with
  | none => rw [hi] at h; cases h; exact hi
  | some e =>
    rw [hi] at h
    obtain ⟨_, s3, h3, h⟩ := bind_inv h
    obtain ⟨_, s4, h4, h⟩ := bind_inv h
    cases h
    rfl

theorem closeIfFailed_has {dev : Device} {s s' : OW} (hn : Named s) (h : closeIfFailed dev s = (.ok (), s')) :
    s'.interface.map Elm.protocol ≠ some none := by
  unfold closeIfFailed at h
  obtain ⟨t, s1, h1, h⟩ := bind_inv h
  cases h1
  by_cases hs : status s = .notConnected
  · rw [if_pos hs] at h; rw [close_ok_none h]; simp
  · rw [if_neg hs] at h
    cases h
    cases hi : s.interface with
    | none => simp
    | some e =>
      rcases hn e hi with ⟨-, h2⟩ | ⟨o, h1, -⟩
      · exact absurd (by simp [status, hi, h2]) hs
      · simp [h1]

theorem connect_has {dev : Device} {fl : ElmM.FloatFn} {ports : List Str} {portstr : Option Str} {cfg : ElmM.Config} {s s' : OW}
    (h : connect dev fl ports portstr cfg s = (.ok (), s')) (hs : s.interface = none) : s'.interface.map Elm.protocol ≠ some none := by
  unfold connect at h
  cases portstr with
  | none =>
    simp only at h
    split at h
    · cases h; simp [hs]
    · obtain ⟨_, s1, h1, h⟩ := bind_inv h
      exact closeIfFailed_has (tryPorts_named ports h1 (by intro e he; rw [hs] at he; cases he)) h
  | some p =>
    obtain ⟨_, s1, h1, h⟩ := bind_inv h
    exact closeIfFailed_has (openInterface_named h1) h

/-- Before `close()` is called, number and name can always be read, even after the connection
was lost; they do not change. -/
theorem C108_before_close (dev : Device) (fl : Str → Option PyFloat) (a : Args) (s0 : OW) (hc : Constructed dev fl a s0)
    (calls : List Call) (hcl : .close ∉ calls) :
    ∃ id name, protocolId (session dev fl calls s0) = .ok id ∧ protocolName (session dev fl calls s0) = .ok name ∧
      protocolId s0 = .ok id ∧ protocolName s0 = .ok name ∧ ((id = [] ∧ name = []) ∨ (id, name) ∈ protocolNames) := by
  obtain ⟨h1, h2, -⟩ := C63_lost_partial dev fl s0 calls hcl

  rw [h1, h2]
  have h0 : s0.interface.map Elm.protocol ≠ some none := by
    unfold Constructed construct at hc
    obtain ⟨_, s1, h1, h⟩ := bind_inv hc
    have h3 := connect_has h1 rfl
    have h4 := kept_loadCommands (ostable_protoIs dev (s1.interface.map Elm.protocol)) fl s1 rfl
    rw [h] at h4
    exact fun h5 => h3 (by rw [← h5]; exact h4.symm)
  have hn := reachable_named ⟨a, s0, [], hc, rfl⟩
  cases hi : s0.interface with
  | none => exact ⟨[], [], by simp [protocolId, hi], by simp [protocolName, hi], by simp [protocolId, hi], by simp [protocolName, hi], Or.inl ⟨rfl, rfl⟩⟩
  | some e =>
    rcases hn e hi with ⟨h2, -⟩ | ⟨o, h2, h3⟩
    · rw [hi] at h0; simp [h2] at h0
    · refine ⟨o.cls.elmId, o.cls.elmName, by simp [protocolId, Elm.protocolId, hi, h2], by simp [protocolName, Elm.protocolName, hi, h2],
        by simp [protocolId, Elm.protocolId, hi, h2], by simp [protocolName, Elm.protocolName, hi, h2], ?_⟩
      rcases h3 with ⟨h3, -⟩ | ⟨h3, -⟩
      · rw [h3]; exact Or.inl unknown_row
      · exact Or.inr (known_row _ h3)

/-- The number of a connection can be passed back as `protocol=`: the constructor knows it. -/
theorem C108_passed_back (dev : Device) (fl : Str → Option PyFloat) (s : OW) (hr : Reachable dev fl s)
    (id : Str) (h : protocolId s = .ok id) (hne : id ≠ []) : id ∈ knownIds := by
  have hn := reachable_named hr
  have hrow : ∀ r ∈ protocolNames, r.1 ∈ knownIds := by decide
  cases hi : s.interface with
  | none => rw [protocolId, hi] at h; cases h; exact absurd rfl hne
  | some e =>
    rw [protocolId, hi] at h
    simp only [Elm.protocolId] at h
    rcases hn e hi with ⟨h1, -⟩ | ⟨o, h1, ⟨h2, -⟩ | ⟨h2, -⟩⟩ <;> rw [h1] at h <;> cases h
    · rw [h2] at hne; exact absurd rfl hne
    · exact hrow _ (known_row _ h2)

/-- The text read is `t`. -/
def reads (r : Except Exc Str) (t : Str) : Bool := match r with | .ok a => decide (a = t) | .error _ => false

theorem of_reads {r : Except Exc Str} {t : Str} (h : reads r t = true) : r = .ok t := by
  cases r with
  | error x => cases h
  | ok a => rw [of_decide_eq_true h]

/-- Reading it raises AttributeError. -/
def failsAttr (r : Except Exc Str) : Bool := match r with | .error .attributeError => true | _ => false

theorem of_failsAttr {r : Except Exc Str} (h : failsAttr r = true) : r = .error .attributeError := by
  rcases r with x | a
  · cases x <;> first | rfl | cases h
  · cases h

/-- A car with ISO 9141-2. -/
def oldIsoCar : Device := demo (("ATDPN", "A3") :: ("0100", "48 6B 10 41 00 BE 3E B8 11 00") :: table)

def oldIsoCarObd : OW := (ObdM.construct oldIsoCar fl0 [] (some "COM1".toList) true {}).2

theorem oldIsoCar_constructed : Constructed oldIsoCar fl0 { portstr := some "COM1".toList } oldIsoCarObd := constructed_of (by decide +kernel)

theorem oldIsoCar_reports : status oldIsoCarObd = .carConnected ∧ protocolId oldIsoCarObd = .ok "3".toList ∧
    protocolName oldIsoCarObd = .ok "ISO 9141-2".toList := by
  exact ⟨by decide +kernel, of_reads (by decide +kernel), of_reads (by decide +kernel)⟩

/-- C108 does not hold in full: a car with ISO 9141-2 is not reported under the documented name. -/
theorem C108_refuted : ¬ C108_full := by
  intro h
  obtain ⟨id, name, h1, h2, h3, -⟩ := h oldIsoCar fl0 oldIsoCarObd ⟨_, _, [], oldIsoCar_constructed, rfl⟩
  obtain ⟨g1, g2, g3⟩ := oldIsoCar_reports
  rw [g2] at h1; rw [g3] at h2
  cases h1; cases h2
  exact absurd (h3 g1) (by decide)

/-- After an unplugged adapter made `close()` raise, the two raise as well. -/
def unpluggedClosed : OW :=
  session unpluggedMidway fl0 [.query rpmCommand true, .close] (ObdM.construct unpluggedMidway fl0 [] (some "COM1".toList) true {}).2

theorem unpluggedClosed_raises : Reachable unpluggedMidway fl0 unpluggedClosed ∧ protocolId unpluggedClosed = .error .attributeError ∧
    protocolName unpluggedClosed = .error .attributeError := by
  have hc := constructed_of (dev := unpluggedMidway) (fl := fl0) (a := { portstr := some "COM1".toList }) (by decide +kernel)
  exact ⟨⟨_, _, [.query rpmCommand true, .close], hc, rfl⟩, of_failsAttr (by decide +kernel), of_failsAttr (by decide +kernel)⟩

/-- C108 does not hold in full: after a `close()` that raised, the number cannot be read. -/
theorem C108_refuted_unplugged : ¬ C108_full := by
  intro h
  obtain ⟨g0, g1, -⟩ := unpluggedClosed_raises
  obtain ⟨id, -, h1, -⟩ := h unpluggedMidway fl0 unpluggedClosed g0
  rw [g1] at h1; cases h1

/-- The demo car uses CAN with 11 bits; its number can be passed back. -/
example : Reachable (demo table) fl0 (demoObd true) ∧ status (demoObd true) = .carConnected ∧
    (∃ id name, protocolId (demoObd true) = .ok id ∧ protocolName (demoObd true) = .ok name ∧ (id, name) ∈ protocolNames ∧ id ∈ knownIds) := by
  have hr : Reachable (demo table) fl0 (demoObd true) := ⟨_, _, [], demoObd_constructed true, rfl⟩
  have hs : status (demoObd true) = .carConnected := by decide +kernel
  obtain ⟨id, name, h1, h2, h3⟩ := (C108_partial _ _ _ hr).1 hs
  refine ⟨hr, hs, id, name, h1, h2, h3, C108_passed_back _ _ _ hr id h1 ?_⟩
  intro h0
  rw [h0] at h3
  revert h3
  simp [protocolNames]

/-- C77: what `status()` returns is one of the four documented texts, and comparing the texts
(as the documentation asks for) compares the states. -/
theorem C77_status_text (s t : OW) :
    ((status s).text ∈ statusTexts) ∧ ((status s).text = (status t).text ↔ status s = status t) ∧
    (status s = .notConnected ↔ (status s).text = "Not Connected".toList) ∧
    (status s = .elmConnected ↔ (status s).text = "ELM Connected".toList) ∧
    (status s = .obdConnected ↔ (status s).text = "OBD Connected".toList) ∧
    (status s = .carConnected ↔ (status s).text = "Car Connected".toList) := by
  generalize status s = a
  generalize status t = b
  cases a <;> cases b <;> decide

/-- The demo car. -/
example : (status (demoObd true)).text = "Car Connected".toList :=
  ((C77_status_text _ (demoObd true)).2.2.2.2.2).1 (by decide +kernel)

end Props
