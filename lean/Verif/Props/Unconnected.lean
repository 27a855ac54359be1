import Verif.Props.Sessions
import Verif.Props.Async
/-!
# C63: what is left of a connection that is lost, or was never made
-/
namespace Props
open Py Model Spec ObdM

/-- The protocol object in use. -/
def ProtoIs (q : Option (Option ProtoObj)) (s : OW) : Prop := s.interface.map Elm.protocol = q

theorem protoIs_send (dev : Device) (q : Option ProtoObj) (cmd : Bytes) (d : Bool) (m : Bytes) :
    Kept (fun w : EW => w.elm.protocol = q) (ElmM.send dev cmd d m) := by
  intro w h
  rcases ElmM.send_outcome dev cmd d m w with ⟨-, he⟩ | ⟨p, l, w', hp, he, hr⟩ <;> rw [he]
  · exact h
  · cases hr <;> exact h

theorem protoIs_on {α : Type} {m : ElmM α} {q : Option (Option ProtoObj)} (h : ∀ q, Kept (fun w : EW => w.elm.protocol = q) m) : Kept (ProtoIs q) (onInterface m) := by
  intro s hs
  unfold onInterface
  cases hi : s.interface with
  | none => simpa [hi] using hs
  | some e =>
    have := h e.protocol ⟨e, s.hist⟩ rfl
    unfold ProtoIs at hs ⊢
    rw [hi] at hs
    rw [← hs]
    exact congrArg some this

theorem ostable_protoIs (dev : Device) (q : Option (Option ProtoObj)) : OStable dev (ProtoIs q) where
  send := fun cmd _ => protoIs_on (fun q => ElmM.kept_sendAndParse (C := fun _ => True) (fun c d m _ => protoIs_send dev q c d m) cmd trivial trivial (fun _ h => h))
  attrs := fun _ _ _ _ h => h
  sup := fun _ _ h => h

theorem info_call (dev : Device) (fl : ElmM.FloatFn) (s : OW) (call : Call) (hc : call ≠ .close) :
    (call.after dev fl s).supported = s.supported ∧ (call.after dev fl s).interface.map Elm.protocol = s.interface.map Elm.protocol := by
  cases call with
  | close => exact absurd rfl hc
  | query c force => exact ⟨supported_query dev fl c force _ s rfl, kept_query (ostable_protoIs dev _) fl c force s rfl⟩
  | lowPower =>
    constructor
    · refine (?_ : Kept (fun t : OW => t.supported = s.supported) (lowPower dev)) s rfl
      unfold lowPower
      refine Kept.bind Kept.get (fun s => ?_)
      split
      · exact Kept.pure _
      · intro s h; unfold onInterface; split <;> exact h
    · refine (?_ : Kept (ProtoIs (s.interface.map Elm.protocol)) (lowPower dev)) s rfl
      unfold lowPower
      refine Kept.bind Kept.get (fun s => ?_)
      split
      · exact Kept.pure _
      · exact protoIs_on (fun q => ElmM.kept_lowPower (C := fun _ => True) (fun c d m _ => protoIs_send dev q c d m) trivial (fun _ h => h))
  | normalPower =>
    constructor
    · refine (?_ : Kept (fun t : OW => t.supported = s.supported) (normalPower dev)) s rfl
      unfold normalPower
      refine Kept.bind Kept.get (fun s => ?_)
      split
      · exact Kept.pure _
      · intro s h; unfold onInterface; split <;> exact h
    · refine (?_ : Kept (ProtoIs (s.interface.map Elm.protocol)) (normalPower dev)) s rfl
      unfold normalPower
      refine Kept.bind Kept.get (fun s => ?_)
      split
      · exact Kept.pure _
      · exact protoIs_on (fun q => ElmM.kept_normalPower (C := fun _ => True) (fun c d m _ => protoIs_send dev q c d m) trivial (fun _ h => h))

theorem info_session (dev : Device) (fl : ElmM.FloatFn) (calls : List Call) (hc : .close ∉ calls) (s : OW) :
    (session dev fl calls s).supported = s.supported ∧ (session dev fl calls s).interface.map Elm.protocol = s.interface.map Elm.protocol := by
  induction calls generalizing s with
  | nil => exact ⟨rfl, rfl⟩
  | cons c cs ih =>
    obtain ⟨h1, h2⟩ := ih (fun h => hc (by simp [h])) (c.after dev fl s)
    obtain ⟨h3, h4⟩ := info_call dev fl s c (fun h => hc (by simp [h]))
    exact ⟨h1.trans h3, h2.trans h4⟩

/-- C63 (what holds after the line was lost): until `close()` is called, the protocol, the supported commands and `test_cmd` stay what they
were when the constructor returned, whether or not the connection is still there; only the status and the port name tell. -/
theorem C63_lost_partial (dev : Device) (fl : Str → Option PyFloat) (s0 : OW) (calls : List Call) (hc : .close ∉ calls) :
    let s := session dev fl calls s0
    protocolId s = protocolId s0 ∧ protocolName s = protocolName s0 ∧ (∀ c, supports s c = supports s0 c) ∧ (∀ c, testCmd s c = testCmd s0 c) := by
  obtain ⟨h1, h2⟩ := info_session dev fl calls hc s0
  simp only
  generalize session dev fl calls s0 = s at *
  have hsup : ∀ c, supports s c = supports s0 c := by intro c; simp [supports, h1]
  have hpid : protocolId s = protocolId s0 ∧ protocolName s = protocolName s0 ∧ ∀ c, testCmd s c = testCmd s0 c := by
    cases hi : s.interface with
    | none =>
      cases hj : s0.interface with
      | none => exact ⟨by simp [protocolId, hi, hj], by simp [protocolName, hi, hj], fun c => by simp [testCmd, hsup, hi, hj]⟩
      | some e => rw [hi, hj] at h2; cases h2
    | some e =>
      cases hj : s0.interface with
      | none => rw [hi, hj] at h2; cases h2
      | some e0 =>
        rw [hi, hj] at h2
        have h4 : e.protocol = e0.protocol := by simpa using h2
        have hp : e.protocolId = e0.protocolId := by simp [Elm.protocolId, h4]
        exact ⟨by simp [protocolId, hi, hj, hp], by simp [protocolName, hi, hj, Elm.protocolName, h4], fun c => by simp [testCmd, hsup, hi, hj, hp]⟩
  exact ⟨hpid.1, hpid.2.1, hsup, hpid.2.2⟩

/-- C63 (what holds if there was no port to try): no protocol, and exactly the base commands count as supported; `test_cmd` is
true for those that are not of mode 06, and fails for those that are. -/
theorem C63_no_port_partial (dev : Device) (fl : Str → Option PyFloat) (a : Args) (s0 : OW) (h0 : Constructed dev fl a s0) (hp : a.portstr = none) (hl : a.ports = [])
    (calls : List Call) (hc : .close ∉ calls) :
    let s := session dev fl calls s0
    status s = .notConnected ∧ portName s = [] ∧ protocolId s = .ok [] ∧ protocolName s = .ok [] ∧ (∀ c, supports s c = true ↔ ∃ d ∈ baseCommands, d.eq c = true) ∧
      ∀ c m, c.mode = .ok m → testCmd s c = if supports s c = true then (if m = some 6 then .error .attributeError else .ok true) else .ok false := by
  have hs0 : s0 = { supported := baseCommands, fast := a.fast } := by
    unfold Constructed at h0
    rw [hp, hl] at h0
    cases h0; rfl
  have hint : (session dev fl calls s0) = s0 := by
    have : Reachable dev fl s0 := ⟨a, s0, [], h0, rfl⟩
    have hq : ∀ c : Call, c ≠ .close → c.after dev fl s0 = s0 := by
      intro c hc
      have hn : status s0 = .notConnected := by rw [hs0]; rfl
      cases c with
      | query c f => show (query dev fl c f s0).2 = s0; rw [query_nc hn]
      | lowPower => show (lowPower dev s0).2 = s0; rw [lowPower_nc hn]
      | normalPower => show (normalPower dev s0).2 = s0; rw [normalPower_nc hn]
      | close => exact absurd rfl hc
    induction calls with
    | nil => rfl
    | cons c cs ih =>
      show session dev fl cs (c.after dev fl s0) = s0
      rw [hq c (fun h => hc (by simp [h]))]
      exact ih (fun h => hc (by simp [h]))
  simp only [hint]
  subst hs0
  refine ⟨rfl, rfl, rfl, rfl, ?_, ?_⟩
  · intro c; simp [supports]
  · intro c m hm
    unfold testCmd
    by_cases hsup : supports ({ supported := baseCommands, fast := a.fast } : OW) c = true
    · rw [if_neg (by simp [hsup]), if_pos hsup, hm]
      show (if m = some 6 then _ else _) = _
      rfl
    · rw [if_pos (by simpa using hsup), if_neg hsup]; rfl

/-- The line to the demo car is lost in the second query: the protocol is still there. -/
example : Constructed unpluggedLater fl0 { ports := ["COM1".toList], fast := true } laterAsync.obd ∧
    status (session unpluggedLater fl0 [.query rpmCommand true, .query rpmCommand true] laterAsync.obd) = .notConnected ∧
    protocolId (session unpluggedLater fl0 [.query rpmCommand true, .query rpmCommand true] laterAsync.obd) = .ok "6".toList :=
  ⟨later_constructed, by decide +kernel, by decide +kernel⟩

end Props
