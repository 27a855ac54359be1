import Verif.Lemmas.EndToEnd
/-!
# Which protocol an adapter object has in which state
-/
namespace Model
open Py Spec

/-- No protocol was chosen, and the status does not say that there is a car. -/
def Elm.Plain (e : Elm) : Prop := e.protocol = some ⟨.unknown, []⟩ ∧ e.status ≠ .carConnected

/-- What protocol there is in which state. -/
def Elm.Named (e : Elm) : Prop :=
  (e.protocol = none ∧ e.status = .notConnected) ∨
  ∃ o, e.protocol = some o ∧ ((o.cls = .unknown ∧ e.status ≠ .carConnected) ∨
    (o.cls ≠ .unknown ∧ (e.status = .carConnected ∨ e.status = .notConnected)))

theorem Elm.Plain.named {e : Elm} (h : e.Plain) : e.Named := Or.inr ⟨_, h.1, Or.inl ⟨rfl, h.2⟩⟩

namespace ElmM

theorem elm_send (dev : Device) {Q : Elm → Prop} (hlost : ∀ e, Q e → Q (lost e)) (cmd : Bytes) (d : Bool) (m : Bytes) :
    Kept (fun w : EW => Q w.elm) (send dev cmd d m) := by
  intro w hw
  rcases send_outcome dev cmd d m w with ⟨-, h⟩ | ⟨p, l, w', hp, h, hr⟩ <;> rw [h]
  · exact hw
  · cases hr with
    | replied => exact hw
    | writeFailed => exact hlost _ hw
    | readFailed => exact hlost _ hw

theorem elm_write (dev : Device) {Q : Elm → Prop} (hlost : ∀ e, Q e → Q (lost e)) (b : Bytes) :
    Kept (fun w : EW => Q w.elm) (write dev b) := by
  intro w hw
  show Q (w.write dev b).elm
  cases hp : w.elm.port with
  | none => rw [write_none hp]; exact hw
  | some p =>
    rcases write_some dev b w p hp with e | e <;> rw [e]
    · exact hw
    · exact hlost _ hw

theorem elm_setBaudrate (dev : Device) {Q : Elm → Prop} (hport : ∀ e p, Q e → Q { e with port := p }) (b : Option Nat) :
    Kept (fun w : EW => Q w.elm) (setBaudrate dev b) := by
  have ht : ∀ t, Kept (fun w : EW => Q w.elm) (setTimeout t) := fun t => Kept.modifyElm (P := fun w => Q w.elm) (fun w h => hport _ _ h)
  have htr : ∀ t l, Kept (fun w : EW => Q w.elm) (tryRates dev t l) := by
    intro t l
    induction l with
    | nil => exact Kept.bind (P := fun w : EW => Q w.elm) (ht t) (fun _ => Kept.pure _)
    | cons r l ih =>
      unfold tryRates
      refine Kept.bind (P := fun w : EW => Q w.elm) (fun w h => hport _ _ h) (fun b => ?_)
      split
      · exact Kept.bind (P := fun w : EW => Q w.elm) (ht t) (fun _ => Kept.pure _)
      · exact ih
  unfold setBaudrate
  refine Kept.bind (P := fun w : EW => Q w.elm) Kept.getElm (fun e => ?_)
  cases b with
  | none =>
    simp only
    split
    · exact Kept.pure _
    · unfold autoBaudrate
      refine Kept.bind (P := fun w : EW => Q w.elm) Kept.getElm (fun e => ?_)
      split
      · exact Kept.throw _
      · exact Kept.bind (P := fun w : EW => Q w.elm) (ht _) (fun _ => htr _ _)
  | some b =>
    simp only
    split
    · exact Kept.throw _
    · intro w hw
      simp only
      split
      · exact hw
      · exact hport _ _ hw

theorem plain_lost (e : Elm) (h : e.Plain) : (lost e).Plain := ⟨h.1, by show Status.notConnected ≠ _; simp⟩

theorem plain_send (dev : Device) (cmd : Bytes) (d : Bool) (m : Bytes) : Kept (fun w : EW => w.elm.Plain) (send dev cmd d m) :=
  elm_send dev plain_lost cmd d m

/-- The outcome of choosing a protocol. -/
def Picked (b : Bool) (w : EW) : Prop := if b then ∃ o, w.elm.protocol = some o ∧ o.cls ≠ .unknown else w.elm.Plain

theorem init_class {p : Proto} {r : List Str} {o : ProtoObj} (h : p.init r = .ok o) : o.cls = p := by
  unfold Proto.init at h
  simp only [bind, Except.bind] at h
  cases hc : p.call p.defaultMap r with
  | error x => rw [hc] at h; cases h
  | ok ms =>
    rw [hc] at h
    simp only at h
    split at h
    · cases h; rfl
    · cases h

theorem loadProtocol_picked {p : Proto} {r : List Str} {w w' : EW} (hp : p ≠ .unknown) (h : loadProtocol p r w = (.ok (), w')) : Picked true w' := by
  unfold loadProtocol at h
  obtain ⟨o, w1, h1, h2⟩ := bind_inv h
  have ho : p.init r = .ok o := (congrArg Prod.fst h1)
  cases h2
  exact ⟨o, rfl, by rw [init_class ho]; exact hp⟩

theorem manual_picked {dev : Device} {id : Str} {p : Proto} {w w' : EW} {b : Bool} (hp : p ≠ .unknown)
    (h : manualProtocol dev id p w = (.ok b, w')) (hw : w.elm.Plain) : Picked b w' := by
  unfold manualProtocol at h
  obtain ⟨_, w1, h1, h⟩ := bind_inv h
  have p1 := Kept.ok_ (plain_send dev _ _ _) h1 hw
  obtain ⟨r, w2, h2, h⟩ := bind_inv h
  have p2 := Kept.ok_ (plain_send dev _ _ _) h2 p1
  split at h
  · cases h; exact p2
  · obtain ⟨_, w3, h3, h⟩ := bind_inv h
    cases h
    exact loadProtocol_picked hp h3

theorem known_of_get {id : Str} {p : Proto} (h : supportedProtocols.get? id = some p) : p ≠ .unknown := by
  have hv : p ∈ supportedProtocols.map Prod.snd := by
    have : ∀ (d : Dict Str Proto), d.get? id = some p → p ∈ d.map Prod.snd := by
      intro d
      induction d with
      | nil => intro h; cases h
      | cons e d ih =>
        intro h
        simp only [Dict.get?] at h
        split at h
        · cases h; simp
        · exact List.mem_cons_of_mem _ (ih h)
    exact this _ h
  revert p
  have : ∀ q ∈ supportedProtocols.map Prod.snd, q ≠ .unknown := by decide
  exact fun p _ hv => this p hv

theorem try_picked {dev : Device} : ∀ (ids : List Str) {w w' : EW} {b : Bool}, tryProtocols dev ids w = (.ok b, w') → w.elm.Plain → Picked b w'
  | [], w, w', b, h, hw => by cases h; exact hw
  | id :: ids, w, w', b, h, hw => by
    unfold tryProtocols at h
    cases hg : supportedProtocols.get? id with
    | none => rw [hg] at h; cases h
    | some p =>
      rw [hg] at h
      simp only at h
      obtain ⟨c, w1, h1, h2⟩ := bind_inv h
      have := manual_picked (known_of_get hg) h1 hw
      cases c with
      | true => cases h2; exact this
      | false => exact try_picked ids h2 this

theorem setProtocol_picked {dev : Device} {pr : Option Str} {w w' : EW} {b : Bool}
    (h : setProtocol dev pr w = (.ok b, w')) (hw : w.elm.Plain) : Picked b w' := by
  unfold setProtocol at h
  cases pr with
  | some id =>
    simp only at h
    cases hg : supportedProtocols.get? id with
    | none => rw [hg] at h; cases h; exact hw
    | some p => rw [hg] at h; exact manual_picked (known_of_get hg) h hw
  | none =>
    simp only at h
    unfold autoProtocol at h
    obtain ⟨_, w1, h1, h⟩ := bind_inv h
    have p1 := Kept.ok_ (plain_send dev _ _ _) h1 hw
    obtain ⟨r, w2, h2, h⟩ := bind_inv h
    have p2 := Kept.ok_ (plain_send dev _ _ _) h2 p1
    split at h
    · cases h; exact p2
    · obtain ⟨l, w3, h3, h⟩ := bind_inv h
      have p3 := Kept.ok_ (plain_send dev _ _ _) h3 p2
      match l with
      | [] => cases h; exact p3
      | _ :: _ :: _ => cases h; exact p3
      | [line] =>
        simp only at h
        cases hg : supportedProtocols.get? (stripAuto line) with
        | some p =>
          rw [hg] at h
          obtain ⟨_, w4, h4, h⟩ := bind_inv h
          cases h
          exact loadProtocol_picked (known_of_get hg) h4
        | none => rw [hg] at h; exact try_picked _ h p3

theorem initProtocol_named {dev : Device} {pr : Option Str} {w w' : EW} (h : initProtocol dev pr w = (.ok (), w')) (hw : w.elm.Plain) : w'.elm.Named := by
  unfold initProtocol at h
  obtain ⟨b, w1, h1, h⟩ := bind_inv h
  have hc := setProtocol_picked h1 hw
  cases b with
  | false => cases h; exact Elm.Plain.named hc
  | true =>
    obtain ⟨o, ho, hn⟩ := hc
    obtain ⟨_, w2, h2, h⟩ := bind_inv h
    cases h2
    unfold logConnected at h
    obtain ⟨e, w3, h3, h⟩ := bind_inv h
    cases h3
    cases hp : w1.elm.port with
    | none => simp only [hp] at h; cases h
    | some p =>
      simp only [hp] at h
      cases h
      exact Or.inr ⟨o, ho, Or.inr ⟨hn, Or.inl rfl⟩⟩

theorem closed_named {w : EW} (h : w.elm.status = .notConnected ∧ w.elm.port = none ∧ w.elm.protocol = none) : w.elm.Named := Or.inl ⟨h.2.2, h.1⟩

theorem initVoltage_named {dev : Device} {fl : FloatFn} {pr : Option Str} {cv : Bool} {w w' : EW}
    (h : initVoltage dev fl pr cv w = (.ok (), w')) (hl : w.elm.Plain) : w'.elm.Named := by
  unfold initVoltage at h
  cases cv with
  | false => exact initProtocol_named h hl
  | true =>
    simp only [if_true] at h
    obtain ⟨l, w1, h2, h3⟩ := bind_inv h
    have hl1 := Kept.ok_ (plain_send dev _ _ _) h2 hl
    match l with
    | [] => exact closed_named (close_ok h3)
    | _ :: _ :: _ => exact closed_named (close_ok h3)
    | [l] =>
      simp only at h3
      split at h3
      · exact closed_named (close_ok h3)
      · cases hf : fl ((lower l).filter (fun c => c != 'v')) with
        | none => rw [hf] at h3; exact closed_named (close_ok h3)
        | some x =>
          rw [hf] at h3
          simp only at h3
          split at h3
          · cases h3; exact hl1.named
          · obtain ⟨_, w2, h4, h5⟩ := bind_inv h3
            cases h4
            exact initProtocol_named h5 ⟨hl1.1, by simp⟩

theorem initAt_named {dev : Device} {fl : FloatFn} {pr : Option Str} {cv : Bool} {w w' : EW}
    (h : initAt dev fl pr cv w = (.ok (), w')) (hl : w.elm.Plain) : w'.elm.Named := by
  unfold initAt at h
  obtain ⟨r1, w1, s1, h⟩ := bind_inv h
  have p1 := Kept.ok_ (plain_send dev _ _ _) s1 hl
  obtain ⟨r2, w2, s2, h⟩ := bind_inv h
  have p2 := Kept.ok_ (plain_send dev _ _ _) s2 p1
  split at h
  · exact closed_named (close_ok h)
  · obtain ⟨r3, w3, s3, h⟩ := bind_inv h
    have p3 := Kept.ok_ (plain_send dev _ _ _) s3 p2
    split at h
    · exact closed_named (close_ok h)
    · obtain ⟨r4, w4, s4, h⟩ := bind_inv h
      have p4 := Kept.ok_ (plain_send dev _ _ _) s4 p3
      split at h
      · exact closed_named (close_ok h)
      · obtain ⟨_, w5, s5, h⟩ := bind_inv h
        cases s5
        exact initVoltage_named h ⟨p4.1, by simp⟩

theorem construct_named {dev : Device} {fl : FloatFn} {port : Str} {cfg : Config} {hist : History} {w : EW}
    (h : construct dev fl port cfg hist = (.ok (), w)) : w.elm.Named := by
  have key : ∀ w0 : EW, w0.elm.Plain → ((do
        if ¬ (← setBaudrate dev cfg.baudrate) then error dev
        else initAt dev fl cfg.protocol cfg.checkVoltage) : ElmM Unit) w0 = (.ok (), w) → w.elm.Named := by
    intro w0 h0 h
    obtain ⟨b, w1, h1, h2⟩ := bind_inv h
    have p1 : w1.elm.Plain := Kept.ok_ (elm_setBaudrate dev (Q := Elm.Plain) (fun e p h => h) _) h1 h0
    cases b with
    | false => exact closed_named (close_ok (show error dev w1 = (.ok (), w) from h2))
    | true => exact initAt_named (show initAt dev fl cfg.protocol cfg.checkVoltage w1 = (.ok (), w) from h2) p1
  unfold construct init at h
  simp only at h
  split at h
  · exact closed_named (close_ok h)
  · exact closed_named (close_ok h)
  · cases h
  · rw [PyM.bind_ok (show modifyElm _ _ = (.ok (), _) from rfl)] at h
    split at h
    · obtain ⟨_, w1, h1, h2⟩ := bind_inv h
      exact key _ (Kept.ok_ (elm_write dev plain_lost _) h1 ⟨rfl, by simp [fresh]⟩) h2
    · exact key _ ⟨rfl, by simp [fresh]⟩ h

theorem named_lost (e : Elm) (h : e.Named) : (lost e).Named := by
  rcases h with ⟨h, -⟩ | ⟨o, h, h2 | h2⟩
  · exact Or.inl ⟨h, rfl⟩
  · exact Or.inr ⟨o, h, Or.inl ⟨h2.1, by show Status.notConnected ≠ _; simp⟩⟩
  · exact Or.inr ⟨o, h, Or.inr ⟨h2.1, Or.inr rfl⟩⟩

theorem named_send (dev : Device) (cmd : Bytes) (d : Bool) (m : Bytes) : Kept (fun w : EW => w.elm.Named) (send dev cmd d m) :=
  elm_send dev named_lost cmd d m

end ElmM

namespace ObdM

/-- The interface, if any, has a protocol as its state says. -/
def Named (s : OW) : Prop := ∀ e, s.interface = some e → e.Named

theorem named_on {α : Type} {m : ElmM α} (h : Kept (fun w : EW => w.elm.Named) m) : Kept Named (onInterface m) := by
  intro s hs
  unfold onInterface
  cases hi : s.interface with
  | none => simpa [hi] using hs
  | some e =>
    intro e' he'
    simp only [Option.some.injEq] at he'
    subst he'
    exact h ⟨e, s.hist⟩ (hs e hi)

theorem ostable_named (dev : Device) : OStable dev Named where
  send := fun cmd _ => named_on (ElmM.kept_sendAndParse (C := fun _ => True) (fun c d m _ => ElmM.named_send dev c d m) cmd trivial trivial
    (fun _ h => h))
  attrs := fun _ _ _ _ h => h
  sup := fun _ _ h => h

theorem named_close (dev : Device) : Kept Named (close dev) := by
  unfold close
  refine Kept.bind (P := Named) (Kept.modify (fun s hs => hs)) (fun _ => ?_)
  refine Kept.bind (P := Named) Kept.get (fun s => ?_)
  split
  · exact Kept.pure _
  · refine Kept.bind (P := Named) (kept_setHeader (ostable_named dev) _) (fun _ => ?_)
    refine Kept.bind (P := Named) (named_on (fun w _ => Or.inl ⟨(ElmM.close_any dev w).2.2, (ElmM.close_any dev w).1⟩)) (fun _ => ?_)
    exact Kept.modify (fun s hs => by intro e he; cases he)

theorem named_call (dev : Device) (fl : ElmM.FloatFn) (c : Call) (s : OW) (h : Named s) : Named (c.after dev fl s) := by
  cases c with
  | query c force => exact kept_query (ostable_named dev) fl c force s h
  | lowPower =>
    refine (?_ : Kept Named (lowPower dev)) s h
    refine Kept.bind Kept.get (fun s => ?_)
    split
    · exact Kept.pure _
    · refine named_on ?_
      refine Kept.bind Kept.getElm (fun e => ?_)
      split
      · exact Kept.pure _
      · refine Kept.bind (ElmM.named_send dev _ _ _) (fun _ => ?_)
        split
        · exact Kept.bind (Kept.modifyElm (fun w h => h)) (fun _ => Kept.pure _)
        · exact Kept.pure _
  | normalPower =>
    refine (?_ : Kept Named (normalPower dev)) s h
    refine Kept.bind Kept.get (fun s => ?_)
    split
    · exact Kept.pure _
    · exact named_on (ElmM.kept_normalPower (C := fun _ => True) (fun c d m _ => ElmM.named_send dev c d m) trivial (fun w h => h))
  | close => exact named_close dev s h

theorem openInterface_named {dev : Device} {fl : ElmM.FloatFn} {port : Str} {cfg : ElmM.Config} {s s' : OW}
    (h : openInterface dev fl port cfg s = (.ok (), s')) : Named s' := by
  obtain ⟨w, hw, rfl⟩ := openInterface_ok h
  intro e he
  simp only [Option.some.injEq] at he
  subst he
  exact ElmM.construct_named hw

theorem tryPorts_named {dev : Device} {fl : ElmM.FloatFn} {cfg : ElmM.Config} (ports : List Str) {s s' : OW}
    (h : tryPorts dev fl cfg ports s = (.ok (), s')) (hs : Named s) : Named s' := by
  induction ports generalizing s with
  | nil => cases h; exact hs
  | cons p ports ih =>
    unfold tryPorts at h
    obtain ⟨_, s1, h1, h⟩ := bind_inv h
    obtain ⟨s2, s3, h2, h⟩ := bind_inv h
    cases h2
    have hs1 := openInterface_named h1
    split at h
    · cases h; exact hs1
    · exact ih h hs1

theorem closeIfFailed_named (dev : Device) : Kept Named (closeIfFailed dev) := by
  unfold closeIfFailed
  refine Kept.bind (P := Named) Kept.get (fun s => ?_)
  split
  · exact named_close dev
  · exact Kept.pure _

theorem connect_named {dev : Device} {fl : ElmM.FloatFn} {ports : List Str} {portstr : Option Str} {cfg : ElmM.Config} {s s' : OW}
    (h : connect dev fl ports portstr cfg s = (.ok (), s')) (hs : Named s) : Named s' := by
  unfold connect at h
  cases portstr with
  | none =>
    simp only at h
    split at h
    · cases h; exact hs
    · obtain ⟨_, s1, h1, h⟩ := bind_inv h
      have := closeIfFailed_named dev s1 (tryPorts_named ports h1 hs)
      rw [h] at this; exact this
  | some p =>
    obtain ⟨_, s1, h1, h⟩ := bind_inv h
    have := closeIfFailed_named dev s1 (openInterface_named h1)
    rw [h] at this; exact this

theorem reachable_named {dev : Device} {fl : ElmM.FloatFn} {s : OW} (h : Reachable dev fl s) : Named s := by
  obtain ⟨a, s0, calls, hc, rfl⟩ := h
  have h0 : Named s0 := by
    unfold Constructed construct at hc
    obtain ⟨_, s1, h1, h⟩ := bind_inv hc
    have := kept_loadCommands (ostable_named dev) fl s1 (connect_named h1 (by intro e he; cases he))
    rw [h] at this; exact this
  have : ∀ (cs : List Call) (s : OW), Named s → Named (session dev fl cs s) := by
    intro cs
    induction cs with
    | nil => intro s h; exact h
    | cons c cs ih => intro s h; exact ih _ (named_call dev fl c s h)
  exact this calls s0 h0

end ObdM
end Model
