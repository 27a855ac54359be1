import Verif.Lemmas.Calls
/-!
# The constructor of `OBD`
-/
namespace Model
open Py Spec

/-! ## a predicate kept by every step of the set-up -/
namespace ElmM
variable {dev : Device} {P : EW → Prop}

/-- Steps of the set-up that keep `P`. -/
structure Steps (dev : Device) (pr : Option Str) (P : EW → Prop) : Prop where
  send : ∀ c ∈ ["AT RV", "ATZ", "ATE0", "ATH1", "ATL0"], ∀ d m, Kept P (send dev (ascii c) d m)
  set : Kept P (setProtocol dev pr)
  close : Kept P (close dev)
  status : ∀ w x, P w → P { w with elm := { w.elm with status := x } }
  baud : ∀ b, Kept P (setBaudrate dev b)
  wake : Kept P (write dev (ascii " "))

theorem kept_initProtocol {pr : Option Str} (h : Steps dev pr P) : Kept P (initProtocol dev pr) := by
  unfold initProtocol
  refine Kept.bind h.set (fun b => ?_)
  split
  · refine Kept.bind (Kept.modifyElm (fun w hw => h.status w _ hw)) (fun _ => ?_)
    unfold logConnected
    refine Kept.bind Kept.getElm (fun e => ?_)
    split
    · exact Kept.throw _
    · exact Kept.pure _
  · exact Kept.pure _

theorem kept_initVoltage {pr : Option Str} (h : Steps dev pr P) (fl : FloatFn) (cv : Bool) : Kept P (initVoltage dev fl pr cv) := by
  unfold initVoltage
  split
  · refine Kept.bind (h.send _ (by simp) _ _) (fun r => ?_)
    split
    · split
      · exact h.close
      · split
        · exact h.close
        · split
          · exact Kept.pure _
          · exact Kept.bind (Kept.modifyElm (fun w hw => h.status w _ hw)) (fun _ => kept_initProtocol h)
    · exact h.close
  · exact kept_initProtocol h

theorem kept_initAt {pr : Option Str} (h : Steps dev pr P) (fl : FloatFn) (cv : Bool) : Kept P (initAt dev fl pr cv) := by
  unfold initAt
  refine Kept.bind (h.send _ (by simp) _ _) (fun _ => ?_)
  refine Kept.bind (h.send _ (by simp) _ _) (fun r => ?_)
  split
  · exact h.close
  · refine Kept.bind (h.send _ (by simp) _ _) (fun r => ?_)
    split
    · exact h.close
    · refine Kept.bind (h.send _ (by simp) _ _) (fun r => ?_)
      split
      · exact h.close
      · exact Kept.bind (Kept.modifyElm (fun w hw => h.status w _ hw)) (fun _ => kept_initVoltage h fl cv)

theorem kept_construct {cfg : Config} (h : Steps dev cfg.protocol P) (fl : FloatFn) (port : Str) (hist : History)
    (h0 : ∀ e err, P { elm := e, hist := hist ++ [.open_ port err] }) : P (construct dev fl port cfg hist).2 := by
  have main : Kept P (do
      if ¬ (← setBaudrate dev cfg.baudrate) then error dev
      else initAt dev fl cfg.protocol cfg.checkVoltage) := by
    refine Kept.bind (h.baud _) (fun b => ?_)
    split
    · exact h.close
    · exact kept_initAt h fl _
  unfold construct init
  simp only
  split
  · exact h.close _ (h0 _ _)
  · exact h.close _ (h0 _ _)
  · exact h0 _ _
  · rw [PyM.bind_ok (show modifyElm _ _ = (.ok (), _) from rfl)]
    split
    · exact Kept.bind h.wake (fun _ => main) _ (h0 _ _)
    · exact main _ (h0 _ _)

end ElmM

namespace ObdM

theorem tryPorts_last {dev : Device} {fl : ElmM.FloatFn} {cfg : ElmM.Config} (ports : List Str) {s s' : OW}
    (h : tryPorts dev fl cfg ports s = (.ok (), s')) :
    s' = s ∨ ∃ port ∈ ports, ∃ t, t.fast = s.fast ∧ t.lastHeader = s.lastHeader ∧ t.supported = s.supported ∧ t.lastCommand = s.lastCommand ∧
      t.frameCounts = s.frameCounts ∧ openInterface dev fl port cfg t = (.ok (), s') := by
  induction ports generalizing s with
  | nil => cases h; exact Or.inl rfl
  | cons p ports ih =>
    unfold tryPorts at h
    obtain ⟨_, s1, h1, h⟩ := bind_inv h
    obtain ⟨s2, s3, h2, h⟩ := bind_inv h
    cases h2
    obtain ⟨w, hw, he⟩ := openInterface_ok h1
    right
    split at h
    · cases h; exact ⟨p, by simp, s, rfl, rfl, rfl, rfl, rfl, h1⟩
    · rcases ih h with rfl | ⟨port, hp, t, h3, h4, h5, h6, h7, h8⟩
      · exact ⟨p, by simp, s, rfl, rfl, rfl, rfl, rfl, h1⟩
      · refine ⟨port, by simp [hp], t, ?_, ?_, ?_, ?_, ?_, h8⟩
        all_goals simp_all

theorem closeIfFailed_connected {dev : Device} {s s' : OW} (h : closeIfFailed dev s = (.ok (), s'))
    (hs : status s' ≠ .notConnected) : s' = s := by
  unfold closeIfFailed at h
  obtain ⟨s2, s3, h2, h⟩ := bind_inv h
  cases h2
  split at h
  · exfalso
    apply hs
    unfold close at h
    obtain ⟨_, s1, h1, h⟩ := bind_inv h
    obtain ⟨s2, s3, h2, h⟩ := bind_inv h
    have h2' : s2 = s1 ∧ s3 = s1 := by cases h2; exact ⟨rfl, rfl⟩
    rw [h2'.1, h2'.2] at h
    cases hi : s1.interface with
    | none => rw [hi] at h; cases h; simp [status, hi]
    | some e =>
      rw [hi] at h
      obtain ⟨_, s4, h4, h⟩ := bind_inv h
      obtain ⟨_, s5, h5, h⟩ := bind_inv h
      cases h
      rfl
  · cases h; rfl

/-- What was opened when an object ends up connected. -/
theorem connect_opened {dev : Device} {fl : ElmM.FloatFn} {ports : List Str} {portstr : Option Str} {cfg : ElmM.Config} {s s' : OW}
    (h : connect dev fl ports portstr cfg s = (.ok (), s')) (h0 : s.interface = none) (hs : status s' ≠ .notConnected) :
    ∃ port t, (portstr = some port ∧ t = s ∨ portstr = none ∧ port ∈ ports) ∧
      t.fast = s.fast ∧ t.lastHeader = s.lastHeader ∧ t.supported = s.supported ∧ t.lastCommand = s.lastCommand ∧
      t.frameCounts = s.frameCounts ∧ openInterface dev fl port cfg t = (.ok (), s') := by
  unfold connect at h
  cases portstr with
  | none =>
    simp only at h
    split at h
    · cases h; simp [status, h0] at hs
    · obtain ⟨_, s1, h1, h⟩ := bind_inv h
      have he := closeIfFailed_connected h hs
      subst he
      rcases tryPorts_last ports h1 with rfl | ⟨port, hp, t, h3, h4, h5, h6, h7, h8⟩
      · simp [status, h0] at hs
      · exact ⟨port, t, Or.inr ⟨rfl, hp⟩, h3, h4, h5, h6, h7, h8⟩
  | some p =>
    obtain ⟨_, s1, h1, h⟩ := bind_inv h
    have he := closeIfFailed_connected h hs
    subst he
    exact ⟨p, s, Or.inl ⟨rfl, rfl⟩, rfl, rfl, rfl, rfl, rfl, h1⟩

/-- The interface, while nothing but commands is sent. -/
def SameLine (h : History) (e0 : Elm) (s : OW) : Prop :=
  Ext h s.hist ∧ ∃ e, s.interface = some e ∧ e.protocol = e0.protocol ∧ e.timeout = e0.timeout ∧
    (e.port = e0.port ∧ e.status = e0.status ∨ e.port = none ∧ e.status = .notConnected)

theorem sameLine_on {α : Type} {m : ElmM α} {h : History} {e0 : Elm}
    (hm : Kept (fun w => Ext h w.hist ∧ w.elm.protocol = e0.protocol ∧ w.elm.timeout = e0.timeout ∧
      (w.elm.port = e0.port ∧ w.elm.status = e0.status ∨ w.elm.port = none ∧ w.elm.status = .notConnected)) m) :
    Kept (SameLine h e0) (onInterface m) := by
  rintro s ⟨hx, e, he, h1⟩
  unfold onInterface
  rw [he]
  have := hm ⟨e, s.hist⟩ ⟨hx, h1⟩
  exact ⟨this.1, _, rfl, this.2⟩

theorem sameLine_send (dev : Device) (h : History) (e0 : Elm) (cmd : Bytes) (d : Bool) (m : Bytes) :
    Kept (fun w => Ext h w.hist ∧ w.elm.protocol = e0.protocol ∧ w.elm.timeout = e0.timeout ∧
      (w.elm.port = e0.port ∧ w.elm.status = e0.status ∨ w.elm.port = none ∧ w.elm.status = .notConnected)) (ElmM.send dev cmd d m) := by
  rintro w ⟨h1, h2, h3, h4⟩
  refine ⟨ext_send dev h cmd d m w h1, ?_⟩
  rcases ElmM.send_outcome dev cmd d m w with ⟨-, he⟩ | ⟨p, l, w', hp, he, hr⟩ <;> simp only [he]
  · exact ⟨h2, h3, h4⟩
  · cases hr with
    | replied bs b hb => exact ⟨h2, h3, h4⟩
    | writeFailed => exact ⟨h2, h3, Or.inr ⟨rfl, rfl⟩⟩
    | readFailed bs hb => exact ⟨h2, h3, Or.inr ⟨rfl, rfl⟩⟩

theorem ostable_sameLine (dev : Device) (h : History) (e0 : Elm) : OStable dev (SameLine h e0) where
  send := fun cmd _ => sameLine_on (ElmM.kept_sendAndParse (C := fun _ => True) (fun c d m _ => sameLine_send dev h e0 c d m) cmd trivial trivial
    (fun _ h => h))
  attrs := fun _ _ _ _ h => h
  sup := fun _ _ h => h

/-- The object returned by the constructor, if it is connected to the car. -/
theorem constructed_car {dev : Device} {fl : ElmM.FloatFn} {a : Args} {s : OW} (h : Constructed dev fl a s)
    (hs : status s = .carConnected) :
    ∃ pre evs later port rate xs id r obj e, s.hist = pre ++ evs ++ later ∧ NoOpen later ∧
      (a.portstr = some port ∧ pre = [] ∨ a.portstr = none ∧ port ∈ a.ports) ∧
      Connects fl port a.cfg evs rate xs id r ∧ s.interface = some e ∧
      e.port = some { name := port, baud := rate, timeout := 10 } ∧
      e.protocol = some obj ∧ obj.cls.elmId = id ∧ obj.cls.init r = .ok obj := by
  unfold Constructed construct at h
  obtain ⟨_, s1, h1, h2⟩ := bind_inv h
  have hs1 : status s1 = .carConnected := by
    unfold loadCommands at h2
    obtain ⟨s2, s3, h3, h2⟩ := bind_inv h2
    cases h3
    split at h2
    · cases h2; exact hs
    · next hn => simpa using hn
  obtain ⟨port, t, hport, -, -, -, -, -, ho⟩ := connect_opened h1 rfl (by rw [hs1]; simp)
  obtain ⟨w, hw, rfl⟩ := openInterface_ok ho
  have hst : w.elm.status = .carConnected := by simpa [status] using hs1
  obtain ⟨evs, rate, xs, id, r, obj, hh, hcon, hpo, hlp, hpr, hid, hinit⟩ := ElmM.construct_car hw hst
  have hk := kept_loadCommands (ostable_sameLine dev w.hist w.elm) fl _
    (show SameLine w.hist w.elm { t with interface := some w.elm, hist := w.hist } from
      ⟨Ext.refl _, _, rfl, rfl, rfl, Or.inl ⟨rfl, rfl⟩⟩)
  rw [h2] at hk
  obtain ⟨⟨later, hl, hno⟩, e, he, hp1, -, hp2⟩ := hk
  refine ⟨t.hist, evs, later, port, rate, xs, id, r, obj, e, by rw [hl, hh], hno, ?_, hcon, he, ?_, ?_, hid, hinit⟩
  · rcases hport with ⟨h1, h2⟩ | h1
    · left; exact ⟨h1, by rw [h2]⟩
    · exact Or.inr h1
  · rcases hp2 with ⟨h1, -⟩ | ⟨-, h1⟩
    · rw [h1, hpo]
    · have he' : s.interface = some e := he
      have : e.status = .carConnected := by simpa [status, he'] using hs
      rw [this] at h1; cases h1
  · rw [hp1, hpr]

/-- A property of histories kept by connecting to any port. -/
theorem connect_hist {dev : Device} {fl : ElmM.FloatFn} {ports : List Str} {portstr : Option Str} {cfg : ElmM.Config} {s s' : OW}
    {R : History → Prop} (hR : ∀ port hist, R hist → R (ElmM.construct dev fl port cfg hist).2.hist)
    (h : connect dev fl ports portstr cfg s = (.ok (), s')) (hs : OSound s) (h0 : R s.hist) : R s'.hist := by
  have ho : ∀ {port s s'}, openInterface dev fl port cfg s = (.ok (), s') → R s.hist → R s'.hist := by
    intro port s s' h h0
    obtain ⟨w, hw, rfl⟩ := openInterface_ok h
    have := hR port s.hist h0
    rw [hw] at this; exact this
  have hc : ∀ {s s'}, OSound s → closeIfFailed dev s = (.ok (), s') → R s.hist → R s'.hist := by
    intro s s' hs h h0
    unfold closeIfFailed at h
    obtain ⟨s2, s3, h2, h⟩ := bind_inv h
    cases h2
    split at h
    · next hn => rw [close_nc hs hn] at h; cases h; exact h0
    · cases h; exact h0
  have ht : ∀ (ports : List Str) (s s1 : OW), tryPorts dev fl cfg ports s = (.ok (), s1) → R s.hist → R s1.hist := by
    intro ports
    induction ports with
    | nil => intro s s1 h h0; cases h; exact h0
    | cons p ports ih =>
      intro s s1 h1 h0
      unfold tryPorts at h1
      obtain ⟨_, t1, g1, h1⟩ := bind_inv h1
      obtain ⟨t2, t3, g2, h1⟩ := bind_inv h1
      cases g2
      have := ho g1 h0
      split at h1
      · cases h1; exact this
      · exact ih _ _ h1 this
  unfold connect at h
  cases portstr with
  | none =>
    simp only at h
    split at h
    · cases h; exact h0
    · obtain ⟨_, s1, h1, h⟩ := bind_inv h
      exact hc (tryPorts_sound ports h1 hs) h (ht _ _ _ h1 h0)
  | some p =>
    obtain ⟨_, s1, h1, h⟩ := bind_inv h
    exact hc (openInterface_sound h1 hs) h (ho h1 h0)

theorem connected_hist {dev : Device} {fl : ElmM.FloatFn} {a : Args} {s : OW} (h : Constructed dev fl a s)
    {R : History → Prop} (hR : ∀ port hist, R hist → R (ElmM.construct dev fl port a.cfg hist).2.hist) (h0 : R [])
    (hs : status s ≠ .carConnected) (hne : ∀ s1, connect dev fl a.ports a.portstr a.cfg { supported := baseCommands, fast := a.fast } = (.ok (), s1) → status s1 ≠ .carConnected) :
    R s.hist := by
  unfold Constructed construct at h
  obtain ⟨_, s1, h1, h2⟩ := bind_inv h
  have h3 := connect_hist hR h1 ⟨shape_nil, by simp⟩ h0
  unfold loadCommands at h2
  obtain ⟨s2, s3, h4, h2⟩ := bind_inv h2
  cases h4
  rw [if_pos (hne s1 h1)] at h2
  cases h2
  exact h3

end ObdM

/-! ## properties of the bytes written -/

/-- Every line written satisfies `W`. -/
def Writes (W : Bytes → Prop) (h : History) : Prop := ∀ b ok, Event.write b ok ∈ h → W b

theorem writes_append {W : Bytes → Prop} {h h' : History} (h1 : Writes W h) (h2 : Writes W h') : Writes W (h ++ h') := by
  intro b ok hm
  rcases List.mem_append.1 hm with hm | hm
  · exact h1 b ok hm
  · exact h2 b ok hm

theorem writes_reads {W : Bytes → Prop} (bs : List Bytes) : Writes W (reads bs) := by
  intro b ok hm
  obtain ⟨x, -, h⟩ := List.mem_map.1 hm
  cases h

theorem writes_send (dev : Device) {W : Bytes → Prop} (cmd : Bytes) (hW : W (line cmd)) (d : Bool) (m : Bytes) :
    Kept (fun w => Writes W w.hist) (ElmM.send dev cmd d m) := by
  intro w hw
  have h1 : ∀ ok (t : List Event), Writes W t → Writes W (Event.write (line cmd) ok :: t) := by
    intro ok t ht b ok' hm
    rcases List.mem_cons.1 hm with hm | hm
    · cases hm; exact hW
    · exact ht b ok' hm
  rcases ElmM.send_outcome dev cmd d m w with ⟨-, he⟩ | ⟨p, l, w', hp, he, hr⟩ <;> simp only [he]
  · exact hw
  · cases hr with
    | replied bs b hb => exact writes_append hw (h1 _ _ (writes_append (writes_reads bs) (by intro b ok h; simp at h)))
    | writeFailed => exact writes_append hw (h1 _ _ (by intro b ok h; simp at h))
    | readFailed bs hb => exact writes_append hw (h1 _ _ (writes_append (writes_reads bs) (by intro b ok h; simp at h)))

theorem writes_write (dev : Device) {W : Bytes → Prop} (cmd : Bytes) (hW : W (line cmd)) :
    Kept (fun w => Writes W w.hist) (ElmM.write dev cmd) := by
  intro w hw
  show Writes W (w.write dev cmd).hist
  cases hp : w.elm.port with
  | none => rw [write_none hp]; exact hw
  | some p =>
    rcases write_some dev cmd w p hp with e | e <;> rw [e]
    · exact writes_append hw (by intro b ok h; simp at h; rw [h.1]; exact hW)
    · exact writes_append hw (by intro b ok h; simp at h; rw [h.1]; exact hW)

theorem writes_close (dev : Device) {W : Bytes → Prop} (hW : W (line (ascii "ATZ"))) :
    Kept (fun w => Writes W w.hist) (ElmM.close dev) := by
  unfold ElmM.close
  refine Kept.bind (P := fun w : EW => Writes W w.hist) (Kept.modifyElm (P := fun w : EW => Writes W w.hist) (fun w h => h)) (fun _ => ?_)
  refine Kept.bind (P := fun w : EW => Writes W w.hist) Kept.getElm (fun e => ?_)
  split
  · exact Kept.pure _
  · refine Kept.bind (P := fun w : EW => Writes W w.hist) (writes_write dev _ hW) (fun _ => ?_)
    refine Kept.bind (P := fun w : EW => Writes W w.hist) Kept.getElm (fun e => ?_)
    split
    · exact Kept.throw _
    · exact Kept.modify (fun w hw => writes_append hw (by intro b ok h; simp at h))

theorem silent_writes {W : Bytes → Prop} {l : List Nat} {evs : History} (h : Silent l evs) : Writes W evs := by
  induction h with
  | nil => intro b ok h; simp at h
  | cons hb _ ih =>
    intro b ok hm
    rcases List.mem_cons.1 hm with hm | hm
    · cases hm
    · exact ih b ok hm

theorem writes_tryRates (dev : Device) {W : Bytes → Prop} (t : Rat) (l : List Nat) :
    Kept (fun w => Writes W w.hist) (ElmM.tryRates dev t l) := by
  induction l with
  | nil => exact Kept.bind (P := fun w : EW => Writes W w.hist) (Kept.modifyElm (P := fun w : EW => Writes W w.hist) (fun w h => h)) (fun _ => Kept.pure _)
  | cons r l ih =>
    unfold ElmM.tryRates
    refine Kept.bind (P := fun w : EW => Writes W w.hist) (fun w hw => writes_append hw (by intro b ok h; simp at h)) (fun b => ?_)
    split
    · exact Kept.bind (P := fun w : EW => Writes W w.hist) (Kept.modifyElm (P := fun w : EW => Writes W w.hist) (fun w h => h)) (fun _ => Kept.pure _)
    · exact ih

theorem writes_baud (dev : Device) {W : Bytes → Prop} (b : Option Nat) :
    Kept (fun w => Writes W w.hist) (ElmM.setBaudrate dev b) := by
  unfold ElmM.setBaudrate
  refine Kept.bind (P := fun w : EW => Writes W w.hist) Kept.getElm (fun e => ?_)
  cases b with
  | none =>
    simp only
    split
    · exact Kept.pure _
    · unfold ElmM.autoBaudrate
      refine Kept.bind (P := fun w : EW => Writes W w.hist) Kept.getElm (fun e => ?_)
      split
      · exact Kept.throw _
      · exact Kept.bind (P := fun w : EW => Writes W w.hist) (Kept.modifyElm (P := fun w : EW => Writes W w.hist) (fun w h => h)) (fun _ => writes_tryRates dev _ _)
  | some b =>
    simp only
    split
    · exact Kept.throw _
    · intro w hw
      simp only
      split
      all_goals exact writes_append hw (by intro b ok h; simp at h)

theorem steps_writes (dev : Device) {W : Bytes → Prop} (pr : Option Str)
    (hW : ∀ c ∈ ["AT RV", "ATZ", "ATE0", "ATH1", "ATL0", " "], W (line (ascii c)))
    (hset : Kept (fun w => Writes W w.hist) (ElmM.setProtocol dev pr)) : ElmM.Steps dev pr (fun w => Writes W w.hist) where
  send := fun c hc d m => writes_send dev _ (hW c (by simp at hc ⊢; tauto)) d m
  set := hset
  close := writes_close dev (hW _ (by simp))
  status := fun _ _ h => h
  baud := writes_baud dev
  wake := writes_write dev _ (hW _ (by simp))

end Model
