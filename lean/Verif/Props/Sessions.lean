import Verif.Props.Start
import Verif.Lemmas.Leaks
/-!
# C77, C78: sessions: what stays the same, and which ports stay open
-/
namespace Props
open Py Model Spec ObdM

theorem supported_setHeader (dev : Device) (hd : Bytes) (l : List OBDCommand) : Kept (fun s : OW => s.supported = l) (setHeader dev hd) := by
  unfold setHeader
  refine Kept.bind Kept.get (fun s => ?_)
  split
  · exact Kept.pure _
  · refine Kept.bind (fun s h => by unfold onInterface; split <;> exact h) (fun r => ?_)
    split
    · exact Kept.pure _
    · split
      · exact Kept.pure _
      · split
        · exact Kept.pure _
        · exact fun s h => h

theorem supported_query (dev : Device) (fl : ElmM.FloatFn) (c : OBDCommand) (force : Bool) (l : List OBDCommand) :
    Kept (fun s : OW => s.supported = l) (query dev fl c force) := by
  have hx : Kept (fun s : OW => s.supported = l) (exchange dev fl c) := by
    unfold exchange
    refine Kept.bind (supported_setHeader dev _ l) (fun _ => Kept.bind Kept.get (fun s => ?_))
    refine Kept.bind (fun s h => by unfold onInterface; split <;> exact h) (fun ms => ?_)
    refine Kept.bind (fun s h => by rw [noteCommand_eq]; exact h) (fun _ => ?_)
    refine Kept.bind (fun s h => by unfold noteFrames; split; exact h; split <;> exact h) (fun _ => ?_)
    unfold ObdM.answer
    split
    · exact Kept.pure _
    · split
      · exact Kept.pure _
      · exact Kept.ofExcept _
  unfold query
  refine Kept.bind Kept.get (fun s => ?_)
  split
  · exact Kept.pure _
  · split
    · exact hx
    · refine Kept.bind (Kept.ofExcept _) (fun b => ?_)
      split
      · exact hx
      · exact Kept.pure _

/-- The connection of `s` is that of `s0`, or there is none any more. -/
def SameConn (s0 s : OW) : Prop :=
  status s = .notConnected ∨ (s.supported = s0.supported ∧ ∃ e e0, s0.interface = some e0 ∧ s.interface = some e ∧
    e.protocol = e0.protocol ∧ e.port = e0.port ∧ e.status = e0.status)

theorem sameConn_call (dev : Device) (fl : ElmM.FloatFn) (s0 s : OW) (hs : OSound s) (h : SameConn s0 s) (call : Call) (hc : call ≠ .close) :
    SameConn s0 (call.after dev fl s) := by
  rcases h with h | ⟨h1, e, e0, h2, h3, h4, h5, h6⟩
  · left; exact (session_nc dev fl [call] hs h).2
  · have hsl : SameLine s.hist e s := ⟨Ext.refl _, e, h3, rfl, rfl, Or.inl ⟨rfl, rfl⟩⟩
    have fin : ∀ s', SameLine s.hist e s' → s'.supported = s.supported → SameConn s0 s' := by
      rintro s' ⟨-, e', g1, g2, -, ⟨g3, g4⟩ | ⟨g3, g4⟩⟩ hsup
      · right
        exact ⟨by rw [hsup, h1], e', e0, h2, g1, by rw [g2, h4], by rw [g3, h5], by rw [g4, h6]⟩
      · left; simp [status, g1, g4]
    cases call with
    | query c force => exact fin _ (kept_query (ostable_sameLine dev _ e) fl c force s hsl) (supported_query dev fl c force _ s rfl)
    | lowPower =>
      refine fin _ ?_ ?_
      · refine (?_ : Kept (SameLine s.hist e) (lowPower dev)) s hsl
        unfold lowPower
        refine Kept.bind Kept.get (fun s => ?_)
        split
        · exact Kept.pure _
        · exact sameLine_on (ElmM.kept_lowPower (C := fun _ => True) (fun c d m _ => sameLine_send dev _ e c d m) trivial (fun _ h => h))
      · refine (?_ : Kept (fun t : OW => t.supported = s.supported) (lowPower dev)) s rfl
        unfold lowPower
        refine Kept.bind Kept.get (fun s => ?_)
        split
        · exact Kept.pure _
        · intro s h; unfold onInterface; split <;> exact h
    | normalPower =>
      refine fin _ ?_ ?_
      · refine (?_ : Kept (SameLine s.hist e) (normalPower dev)) s hsl
        unfold normalPower
        refine Kept.bind Kept.get (fun s => ?_)
        split
        · exact Kept.pure _
        · exact sameLine_on (ElmM.kept_normalPower (C := fun _ => True) (fun c d m _ => sameLine_send dev _ e c d m) trivial (fun _ h => h))
      · refine (?_ : Kept (fun t : OW => t.supported = s.supported) (normalPower dev)) s rfl
        unfold normalPower
        refine Kept.bind Kept.get (fun s => ?_)
        split
        · exact Kept.pure _
        · intro s h; unfold onInterface; split <;> exact h
    | close => exact absurd rfl hc

/-- C77: until `close()` is called, a connected object has the status, port, protocol, ECUs and
supported commands that it had when the constructor returned, whatever was queried. -/
theorem C77_fixed (dev : Device) (fl : Str → Option PyFloat) (s0 : OW) (hr : Reachable dev fl s0) (calls : List Call)
    (hc : .close ∉ calls) (hs : status (session dev fl calls s0) ≠ .notConnected) :
    let s := session dev fl calls s0
    status s = status s0 ∧ portName s = portName s0 ∧ protocolId s = protocolId s0 ∧ protocolName s = protocolName s0 ∧
      s.interface.map Elm.ecus = s0.interface.map Elm.ecus ∧ (∀ c, supports s c = supports s0 c) ∧ (∀ c, testCmd s c = testCmd s0 c) := by
  have key : ∀ (calls : List Call) (s : OW), .close ∉ calls → OSound s → SameConn s0 s → SameConn s0 (session dev fl calls s) := by
    intro calls
    induction calls with
    | nil => intro s _ _ h; exact h
    | cons c cs ih =>
      intro s hc hs h
      exact ih _ (fun h => hc (by simp [h])) (osound_session dev fl [c] s hs)
        (sameConn_call dev fl s0 s hs h c (fun h => hc (by simp [h])))
  have hsnd := reachable_sound hr
  have h0 : SameConn s0 s0 := by
    cases hi : s0.interface with
    | none => left; simp [status, hi]
    | some e => right; exact ⟨rfl, e, e, hi, hi, rfl, rfl, rfl⟩
  rcases key calls s0 hc hsnd h0 with h | ⟨h1, e, e0, h2, h3, h4, h5, h6⟩
  · exact absurd h hs
  · simp only
    generalize session dev fl calls s0 = s at *
    have hsup : ∀ c, supports s c = supports s0 c := by intro c; simp [supports, h1]
    have hpid : e.protocolId = e0.protocolId := by simp [Elm.protocolId, h4]
    refine ⟨by simp [status, h2, h3, h6], by simp [portName, h2, h3, Elm.portName, h5], by simp [protocolId, h2, h3, hpid],
      by simp [protocolName, h2, h3, Elm.protocolName, h4], by simp [h2, h3, Elm.ecus, h4], hsup, ?_⟩
    intro c
    simp [testCmd, hsup, h2, h3, hpid]

/-- The hypotheses of C77 can be met: a car is connected, and is queried and put to sleep. -/
example : Reachable (demo table) fl0 (demoObd true) ∧
    status (session (demo table) fl0 [.query rpmCommand false, .lowPower, .normalPower, .query rpmCommand true] (demoObd true)) = .carConnected :=
  ⟨⟨_, _, [], demoObd_constructed true, rfl⟩, by decide +kernel⟩

/-! ## C78 -/

/-- C78 in full: at any time at most the port in use is open, and none if the constructor raised. -/
def C78_full : Prop := ∀ (dev : Device) (fl : Str → Option PyFloat),
  (∀ s, Reachable dev fl s → portsOpened s.hist = portsClosed s.hist + inUse s) ∧
  (∀ (a : Args) (x : Exc) (s : OW), ObdM.construct dev fl a.ports a.portstr a.fast a.cfg = (.error x, s) → portsOpened s.hist = portsClosed s.hist)

/-- C78, exactly: every attempt to open a port but the last leaves a port open. -/
theorem C78_exact (dev : Device) (fl : Str → Option PyFloat) (s : OW) (hr : Reachable dev fl s) :
    portsOpened s.hist = portsClosed s.hist + (openAttempts s.hist - 1) + inUse s := by
  obtain ⟨a, s0, calls, hc, rfl⟩ := hr
  obtain ⟨k, h1, h2, -⟩ := obal_construct hc
  have hs := constructed_sound hc
  have h3 := obal_session (dev := dev) (fl := fl) k calls s0 hs h1
  have h4 := obal_inUse (osound_session dev fl calls s0 hs) h3
  have h5 : openAttempts (session dev fl calls s0).hist = openAttempts s0.hist := by
    obtain ⟨evs, h6, h7⟩ := (ext_stable (dev := dev) s0.hist).session fl calls s0 (Ext.refl _)
    rw [h6, attempts_append, attempts_noOpen h7]; rfl
  rw [h4, h2, h5]

/-- The demo car: one port opened, none closed, one in use. -/
example : Reachable (demo table) fl0 (demoObd true) ∧ (portsOpened (demoObd true).hist, portsClosed (demoObd true).hist, openAttempts (demoObd true).hist, inUse (demoObd true)) =
    (1, 0, 1, 1) := ⟨⟨_, _, [], demoObd_constructed true, rfl⟩, by decide +kernel⟩

/-- C78, what holds: an object that was given its port, or found a single one, never has another port open,
and none once it is not connected (for instance after `close()`). -/
theorem C78_partial (dev : Device) (fl : Str → Option PyFloat) (a : Args) (s0 : OW) (calls : List Call) (hc : Constructed dev fl a s0)
    (ha : a.portstr ≠ none ∨ a.ports.length ≤ 1) :
    portsOpened (session dev fl calls s0).hist = portsClosed (session dev fl calls s0).hist + inUse (session dev fl calls s0) := by
  obtain ⟨k, h1, h2, h3⟩ := obal_construct hc
  have hs := constructed_sound hc
  have h4 := obal_inUse (osound_session dev fl calls s0 hs) (obal_session (dev := dev) (fl := fl) k calls s0 hs h1)
  have hk : k = 0 := by
    rcases ha with ha | ha
    · rw [h2, h3 ha]
    · have : openAttempts s0.hist ≤ 1 := by
        cases hp : a.portstr with
        | some p => exact (h3 (by simp [hp])).le
        | none => exact Nat.le_trans (attempts_le hc hp) ha
      omega
  rw [h4, hk]; rfl

/-- C78 is false of the code: with cars on two ports the first port stays open, even after `close()`. -/
theorem C78_refuted : ¬ C78_full := by
  intro h
  have hc := constructed_of (dev := demo table) (fl := fl0) (a := { ports := ["COM1".toList, "COM2".toList] }) (by decide +kernel)
  have h1 := (h (demo table) fl0).1 _ ⟨_, _, [.close], hc, rfl⟩
  exact absurd h1 (by decide +kernel)

/-- C78 is also false when the constructor raises: the port stays open, and nobody holds it. -/
theorem C78_raised_refuted : ¬ C78_full := by
  intro h
  have hx : (ObdM.construct noProbe fl0 [] (some "COM1".toList) true {}).1 = .error .serialException := eq_of_failsWith (by decide +kernel)
  have h1 := (h noProbe fl0).2 { portstr := some "COM1".toList } _ _ (Prod.ext hx rfl)
  exact absurd h1 (by decide +kernel)

/-- C78_partial is not about nothing: one port is opened, used and closed. -/
example : portsOpened (session (demo table) fl0 [.close] (demoObd true)).hist = 1 ∧ inUse (demoObd true) = 1 ∧
    portsClosed (session (demo table) fl0 [.close] (demoObd true)).hist = 1 := by decide +kernel

end Props
