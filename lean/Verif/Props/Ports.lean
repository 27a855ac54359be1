import Verif.Spec.Ports
import Verif.Props.Query
import Verif.Lemmas.Supported
/-!
# Choosing the port (C51)
-/
namespace Props
open Py Model Spec ObdM

/-- The property in full: with no port given, the object uses the first port on which an
adapter answers; if there is none, it is not connected. -/
def C51_full : Prop :=
  ∀ (dev : Device) (fl : Str → Option PyFloat) (a : Args) (s : OW), a.portstr = none → Constructed dev fl a s →
  ∀ r, Search dev fl a.cfg [] a.ports r →
    Chosen r s

/-- An adapter on COM2 only. -/
def secondOnly : Device := { demo table with openPort := fun _ p => if p = "COM2".toList then none else some .serialException }

theorem constructed_of {dev : Device} {fl : Str → Option PyFloat} {a : Args}
    (h : (ObdM.construct dev fl a.ports a.portstr a.fast a.cfg).1 = .ok ()) :
    Constructed dev fl a (ObdM.construct dev fl a.ports a.portstr a.fast a.cfg).2 := by
  unfold Constructed
  rw [← h]

theorem elm_of {dev : Device} {fl : Str → Option PyFloat} {p : Str} {cfg : ElmM.Config} {h : History}
    (hc : (ElmM.construct dev fl p cfg h).1 = .ok ()) :
    ElmM.construct dev fl p cfg h = (.ok (), (ElmM.construct dev fl p cfg h).2) := by
  rw [← hc]

/-- It does not hold: statuses are compared as strings, and "Not Connected" >= "ELM Connected",
so the search stops at the first port even if nothing answers there. -/
theorem C51_refuted : ¬ C51_full := by
  intro h
  have hc := constructed_of (dev := secondOnly) (fl := fl0) (a := { ports := ["COM1".toList, "COM2".toList] }) (by decide +kernel)
  have hs : Search secondOnly fl0 {} [] ["COM1".toList, "COM2".toList]
      (some ("COM2".toList, (ElmM.construct secondOnly fl0 "COM2".toList {} (ElmM.construct secondOnly fl0 "COM1".toList {} []).2.hist).2)) :=
    .next (elm_of (by decide +kernel)) (by decide +kernel) (.found (elm_of (by decide +kernel)) (by decide +kernel))
  obtain ⟨-, h2, -⟩ := h _ _ _ _ rfl hc _ hs
  obtain ⟨e, he, -⟩ := h2 (by decide +kernel)
  have : (ObdM.construct secondOnly fl0 ["COM1".toList, "COM2".toList] none true {}).2.interface = none := by decide +kernel
  rw [this] at he; cases he

/-- And "Car Connected" < "ELM Connected": a port with a car is given up for the next one. -/
theorem C51_refuted_car : ¬ C51_full := by
  intro h
  have hc := constructed_of (dev := demo table) (fl := fl0) (a := { ports := ["COM1".toList, "COM2".toList] }) (by decide +kernel)
  have hs : Search (demo table) fl0 {} [] ["COM1".toList, "COM2".toList]
      (some ("COM1".toList, (ElmM.construct (demo table) fl0 "COM1".toList {} []).2)) :=
    .found (elm_of (by decide +kernel)) (by decide +kernel)
  obtain ⟨-, h2, -⟩ := h _ _ _ _ rfl hc _ hs
  obtain ⟨e, he, h3⟩ := h2 (by decide +kernel)
  have h4 : (ObdM.construct (demo table) fl0 ["COM1".toList, "COM2".toList] none true {}).2.interface.map (fun e => (e.portName, e.status)) =
      some ("COM2".toList, .carConnected) := by decide +kernel
  have h5 : (ElmM.construct (demo table) fl0 "COM1".toList {} []).2.elm.portName = "COM1".toList := by decide +kernel
  rw [he] at h4
  simp only [Option.map_some, Option.some.injEq, Prod.mk.injEq] at h4
  rcases h3 with h3 | ⟨-, h3⟩
  · have : e.portName = (ElmM.construct (demo table) fl0 "COM1".toList {} []).2.elm.portName := by
      unfold Elm.portName; rw [h3]
    rw [h5, h4.1] at this
    simp at this
  · rw [h3] at h4; simp at h4

/-! ### what holds -/

theorem stop_iff (st : Status) : strGe st.text Status.elmConnected.text = true ↔ st ≠ .carConnected := by
  cases st <;> decide

theorem tryPorts_actual {dev : Device} {fl : ElmM.FloatFn} {cfg : ElmM.Config} (ports : List Str) (hne : ports ≠ []) {s s' : OW}
    (h : tryPorts dev fl cfg ports s = (.ok (), s')) :
    ∃ p w, Actual dev fl cfg s.hist ports (p, w) ∧ s' = { s with interface := some w.elm, hist := w.hist } := by
  induction ports generalizing s with
  | nil => exact absurd rfl hne
  | cons p ports ih =>
    unfold tryPorts at h
    obtain ⟨_, s1, h1, h⟩ := bind_inv h
    obtain ⟨s2, s3, h2, h⟩ := bind_inv h
    cases h2
    obtain ⟨w, hw, rfl⟩ := openInterface_ok h1
    have hst : status { s with interface := some w.elm, hist := w.hist } = w.elm.status := rfl
    rw [hst] at h
    by_cases hge : strGe w.elm.status.text Status.elmConnected.text = true
    · rw [if_pos hge] at h
      cases h
      exact ⟨p, w, .stop hw ((stop_iff _).1 hge), rfl⟩
    · rw [if_neg hge] at h
      have hcar : w.elm.status = .carConnected := by
        apply Decidable.byContradiction
        intro hn
        exact hge ((stop_iff _).2 hn)
      by_cases hp : ports = []
      · subst hp
        cases h
        exact ⟨p, w, .last hw, rfl⟩
      · obtain ⟨p', w', h3, h4⟩ := ih hp h
        exact ⟨p', w', .next hw hcar h3, h4⟩

theorem stays {dev : Device} {fl : ElmM.FloatFn} {s s1 s' : OW} {w : EW} (hi : s.interface = some w.elm) (hh : s.hist = w.hist) (hsnd : OSound s)
    (h1 : closeIfFailed dev s = (.ok (), s1)) (h : loadCommands dev fl s1 = (.ok (), s')) : StaysOn w s' := by
  have hss : status s = w.elm.status := by simp [status, hi]
  unfold closeIfFailed at h1
  rw [PyM.bind_ok (show PyM.get s = (.ok s, s) from rfl)] at h1
  by_cases hst : w.elm.status = .notConnected
  · rw [if_pos (by rw [hss, hst]), close_nc hsnd (by rw [hss, hst])] at h1
    cases h1
    unfold loadCommands at h
    rw [PyM.bind_ok (show PyM.get _ = (.ok _, _) from rfl), if_pos (by simp [status])] at h
    cases h
    exact ⟨⟨[], by simp [hh], by simp [NoOpen]⟩, fun hn => absurd hst hn, fun _ => rfl⟩
  · rw [if_neg (by rw [hss]; exact hst)] at h1
    cases h1
    have hk := kept_loadCommands (ostable_sameLine dev w.hist w.elm) fl s
      (show SameLine w.hist w.elm s from ⟨by rw [hh]; exact Ext.refl _, _, hi, rfl, rfl, Or.inl ⟨rfl, rfl⟩⟩)
    rw [h] at hk
    obtain ⟨⟨later, hl, hno⟩, e, he, -, -, h2⟩ := hk
    refine ⟨⟨later, hl, hno⟩, fun _ => ⟨e, he, ?_⟩, fun hn => absurd hn hst⟩
    rcases h2 with h2 | h2
    · exact Or.inl h2.1
    · exact Or.inr h2

/-- What the program does: the ports are tried in order up to the first one without a car (or
the last one), and the object stays there. -/
theorem C51_actual (dev : Device) (fl : Str → Option PyFloat) (a : Args) (s : OW) (hp : a.portstr = none) (hne : a.ports ≠ [])
    (hc : Constructed dev fl a s) : ∃ p w, Actual dev fl a.cfg [] a.ports (p, w) ∧ StaysOn w s := by
  unfold Constructed construct at hc
  obtain ⟨_, s1, h1, h⟩ := bind_inv hc
  rw [hp] at h1
  unfold connect at h1
  simp only at h1
  rw [if_neg (by simpa using hne)] at h1
  obtain ⟨_, s2, h2, h1⟩ := bind_inv h1
  obtain ⟨p, w, h3, h4⟩ := tryPorts_actual a.ports hne h2
  have hsnd : OSound s2 := tryPorts_sound a.ports h2 ⟨shape_nil, by simp⟩
  subst h4
  exact ⟨p, w, h3, stays rfl rfl hsnd h1 h⟩

theorem search_det {dev : Device} {fl : Str → Option PyFloat} {cfg : ElmM.Config} {h : History} {ports : List Str} {r r' : Option (Str × EW)}
    (h1 : Search dev fl cfg h ports r) (h2 : Search dev fl cfg h ports r') : r = r' := by
  induction h1 with
  | exhausted => cases h2; rfl
  | found hc hs =>
    cases h2 with
    | found hc' hs' => rw [hc] at hc'; cases hc'; rfl
    | next hc' hs' => rw [hc] at hc'; cases hc'; exact absurd hs' hs
  | next hc hs _ ih =>
    cases h2 with
    | found hc' hs' => rw [hc] at hc'; cases hc'; exact absurd hs hs'
    | next hc' hs' hr' => rw [hc] at hc'; cases hc'; exact ih hr'

/-- The property holds if there is only one port, or if an adapter without a car answers on
the first port. -/
theorem C51_partial (dev : Device) (fl : Str → Option PyFloat) (a : Args) (s : OW) (hp : a.portstr = none) (hc : Constructed dev fl a s)
    (r : Option (Str × EW)) (hr : Search dev fl a.cfg [] a.ports r)
    (h : a.ports.length ≤ 1 ∨ ∃ p w, r = some (p, w) ∧ a.ports.head? = some p ∧ (w.elm.status = .elmConnected ∨ w.elm.status = .obdConnected) ∧
      ElmM.construct dev fl p a.cfg [] = (.ok (), w)) :
    Chosen r s := by
  cases hps : a.ports with
  | nil =>
    rw [hps] at hr
    cases hr
    unfold Constructed construct at hc
    obtain ⟨_, s1, h1, h2⟩ := bind_inv hc
    rw [hp, hps] at h1
    cases h1
    cases h2
    rfl
  | cons p ports =>
    obtain ⟨q, w, h1, h2⟩ := C51_actual dev fl a s hp (by rw [hps]; simp) hc
    rw [hps] at h1 hr h
    rcases h with h | ⟨p', w', rfl, h3, h4, h5⟩
    · have : ports = [] := by
        cases ports with
        | nil => rfl
        | cons x xs => simp at h
      subst this
      have hw : ElmM.construct dev fl p a.cfg [] = (.ok (), w) := by
        cases h1 with
        | last hc => exact hc
        | stop hc hs => exact hc
        | next hc hs hr => cases hr
      cases hr with
      | found hc' hs' => rw [hw] at hc'; cases hc'; exact h2
      | next hc' hs' hr' =>
        rw [hw] at hc'; cases hc'
        cases hr'
        show status s = .notConnected
        simp [status, h2.2.2 hs']
    · simp only [List.head?_cons, Option.some.injEq] at h3
      subst h3
      have hw : w = w' := by
        cases h1 with
        | last hc => rw [hc] at h5; cases h5; rfl
        | stop hc hs => rw [hc] at h5; cases h5; rfl
        | next hc hs hr =>
          rw [hc] at h5; cases h5
          rw [hs] at h4
          rcases h4 with h4 | h4 <;> cases h4
      subst hw
      exact h2

/-- With a port given, that port is used and no other. -/
theorem C51_given (dev : Device) (fl : Str → Option PyFloat) (a : Args) (s : OW) (p : Str) (hp : a.portstr = some p)
    (hc : Constructed dev fl a s) : ∃ w, ElmM.construct dev fl p a.cfg [] = (.ok (), w) ∧ StaysOn w s := by
  unfold Constructed construct at hc
  obtain ⟨_, s1, h1, h⟩ := bind_inv hc
  rw [hp] at h1
  unfold connect at h1
  obtain ⟨_, s2, h2, h1⟩ := bind_inv h1
  have hsnd : OSound s2 := openInterface_sound h2 ⟨shape_nil, by simp⟩
  obtain ⟨w, hw, h4⟩ := openInterface_ok h2
  subst h4
  exact ⟨w, hw, stays rfl rfl hsnd h1 h⟩

/-- Both cases of the partial theorem occur. -/
example : (ElmM.construct (demo table) fl0 "COM1".toList {} []).2.elm.status = .carConnected := by
  decide +kernel

example : (ElmM.construct (demo [("ATZ", "ELM327 v1.5"), ("ATE0", "OK"), ("ATH1", "OK"), ("ATL0", "OK"), ("AT RV", "12.5V"), ("ATSP0", "OK"), ("0100", "UNABLE TO CONNECT")]) fl0
    "COM1".toList {} []).2.elm.status = .obdConnected := by
  decide +kernel

end Props
