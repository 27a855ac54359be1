import Verif.Lemmas.Shape
/-!
# Invariants of an `OBD` object over all histories of calls
-/
namespace Model
open Py Spec

namespace ElmM

/-- After `close`, whatever its outcome. -/
theorem close_any (dev : Device) (w : EW) : (close dev w).2.elm.status = .notConnected ∧
    (close dev w).2.elm.port = none ∧ (close dev w).2.elm.protocol = none := by
  unfold close
  rw [PyM.bind_ok (show modifyElm _ w = (.ok (), _) from rfl), PyM.bind_ok (show getElm _ = (.ok _, _) from rfl)]
  simp only
  cases hp : w.elm.port with
  | none => exact ⟨rfl, rfl, rfl⟩
  | some p =>
    simp only
    rw [PyM.bind_ok (show write dev (ascii "ATZ") _ = (.ok (), _) from rfl), PyM.bind_ok (show getElm _ = (.ok _, _) from rfl)]
    rcases write_some dev (ascii "ATZ") { w with elm := { w.elm with port := some p, status := .notConnected, protocol := none } } p rfl with e | e
    · rw [e]; exact ⟨rfl, rfl, rfl⟩
    · rw [e]; exact ⟨rfl, rfl, rfl⟩

variable {dev : Device} {C : Bytes → Prop} {P : EW → Prop}

theorem kept_normalPower (hS : ∀ cmd d m, C cmd → Kept P (send dev cmd d m)) (hC : C (ascii " "))
    (hl : ∀ w, P w → P { w with elm := { w.elm with lowPower := false } }) : Kept P (normalPower dev) := by
  unfold normalPower
  refine Kept.bind Kept.getElm ?_
  intro e
  split
  · exact Kept.pure _
  · refine Kept.bind (hS _ _ _ hC) (fun _ => ?_)
    exact Kept.bind (Kept.modifyElm hl) (fun _ => Kept.pure _)

theorem kept_lowPower (hS : ∀ cmd d m, C cmd → Kept P (send dev cmd d m)) (hC : C (ascii "ATLP"))
    (hl : ∀ w, P w → P { w with elm := { w.elm with lowPower := true } }) : Kept P (lowPower dev) := by
  unfold lowPower
  refine Kept.bind Kept.getElm ?_
  intro e
  split
  · exact Kept.pure _
  · refine Kept.bind (hS _ _ _ hC) (fun _ => ?_)
    split
    · exact Kept.bind (Kept.modifyElm hl) (fun _ => Kept.pure _)
    · exact Kept.pure _

theorem kept_sendAndParse (hS : ∀ cmd d m, C cmd → Kept P (send dev cmd d m)) (cmd : Bytes) (hC : C cmd) (hC' : C (ascii " "))
    (hl : ∀ w, P w → P { w with elm := { w.elm with lowPower := false } }) : Kept P (sendAndParse dev cmd) := by
  unfold sendAndParse
  refine Kept.bind Kept.getElm ?_
  intro e
  split
  · exact Kept.pure _
  · have main : Kept P (do
        let lines ← send dev cmd
        let e ← getElm
        match e.protocol with
        | none => PyM.throw .typeError
        | some p =>
          let ms ← PyM.ofExcept (p.call lines)
          return some ms) := by
      refine Kept.bind (hS _ _ _ hC) (fun _ => ?_)
      refine Kept.bind Kept.getElm ?_
      intro e
      split
      · exact Kept.throw _
      · exact Kept.bind (Kept.ofExcept _) (fun _ => Kept.pure _)
    split
    · exact Kept.bind (kept_normalPower hS hC' hl) (fun _ => main)
    · exact main

end ElmM

namespace ObdM

/-- `P` is kept by sending commands in `C`, and only depends on the interface and the history. -/
structure OStableOn (dev : Device) (C : Bytes → Prop) (P : OW → Prop) : Prop where
  send : ∀ cmd, C cmd → Kept P (onInterface (ElmM.sendAndParse dev cmd))
  attrs : ∀ s lh lc fc, P s → P { s with lastHeader := lh, lastCommand := lc, frameCounts := fc }
  sup : ∀ s l, P s → P { s with supported := l }

/-- `P` is kept by sending any command. -/
abbrev OStable (dev : Device) (P : OW → Prop) : Prop := OStableOn dev (fun _ => True) P

/-- Everything that querying `c` may send is in `C`. -/
def Sends (C : Bytes → Prop) (c : OBDCommand) : Prop :=
  C (ascii "AT SH " ++ c.header ++ ascii " ") ∧ ∀ s, C (buildCommand s c)

theorem sends_true (c : OBDCommand) : Sends (fun _ => True) c := ⟨trivial, fun _ => trivial⟩

variable {dev : Device} {C : Bytes → Prop} {P : OW → Prop}

theorem kept_setHeaderOn (hS : OStableOn dev C P) (h : Bytes) (hC : C (ascii "AT SH " ++ h ++ ascii " ")) : Kept P (setHeader dev h) := by
  unfold setHeader
  refine Kept.bind Kept.get ?_
  intro s
  split
  · exact Kept.pure _
  · refine Kept.bind (hS.send _ hC) ?_
    intro r
    split
    · exact Kept.pure _
    · split
      · exact Kept.pure _
      · split
        · exact Kept.pure _
        · exact Kept.modify (fun s hs => hS.attrs s h s.lastCommand s.frameCounts hs)

theorem kept_noteCommand (hS : OStableOn dev C P) (str : Bytes) : Kept P (noteCommand str) := by
  unfold noteCommand
  split
  · exact Kept.pure _
  · exact Kept.modify (fun s hs => hS.attrs s s.lastHeader _ s.frameCounts hs)

theorem kept_noteFrames (hS : OStableOn dev C P) (c : OBDCommand) (m : Option (List Message)) : Kept P (noteFrames c m) := by
  intro s hs
  unfold noteFrames
  split
  · exact hs
  · cases m with
    | none => exact hs
    | some ms => exact hS.attrs s s.lastHeader s.lastCommand _ hs

theorem kept_answer (fl : ElmM.FloatFn) (c : OBDCommand) (m : Option (List Message)) : Kept P (answer fl c m) := by
  cases m with
  | none => exact Kept.pure _
  | some ms =>
    unfold answer
    simp only
    split
    · exact Kept.pure _
    · exact Kept.ofExcept _

theorem kept_exchangeOn (hS : OStableOn dev C P) (fl : ElmM.FloatFn) (c : OBDCommand) (hC : Sends C c) : Kept P (exchange dev fl c) := by
  unfold exchange
  refine Kept.bind (kept_setHeaderOn hS _ hC.1) (fun _ => ?_)
  refine Kept.bind Kept.get (fun s => ?_)
  refine Kept.bind (hS.send _ (hC.2 s)) (fun m => ?_)
  refine Kept.bind (kept_noteCommand hS _) (fun _ => ?_)
  exact Kept.bind (kept_noteFrames hS _ _) (fun _ => kept_answer fl c m)

theorem kept_queryOn (hS : OStableOn dev C P) (fl : ElmM.FloatFn) (c : OBDCommand) (hC : Sends C c) (force : Bool) : Kept P (query dev fl c force) := by
  unfold query
  refine Kept.bind Kept.get ?_
  intro s
  split
  · exact Kept.pure _
  · split
    · exact kept_exchangeOn hS fl c hC
    · refine Kept.bind (Kept.ofExcept _) (fun go => ?_)
      split
      · exact kept_exchangeOn hS fl c hC
      · exact Kept.pure _

theorem kept_loadLoopOn (hS : OStableOn dev C P) (fl : ElmM.FloatFn) (l : List OBDCommand) (hC : ∀ c ∈ l, Sends C c) : Kept P (loadLoop dev fl l) := by
  induction l with
  | nil => exact Kept.pure _
  | cons g l ih =>
    unfold loadLoop
    refine Kept.bind Kept.get (fun s => ?_)
    refine Kept.bind (Kept.ofExcept _) (fun b => ?_)
    split
    · exact ih (fun c hc => hC c (by simp [hc]))
    · refine Kept.bind (kept_queryOn hS fl g (hC g (by simp)) false) (fun r => ?_)
      split
      · exact ih (fun c hc => hC c (by simp [hc]))
      · refine Kept.bind (Kept.ofExcept _) (fun m => ?_)
        refine Kept.bind (Kept.ofExcept _) (fun p => ?_)
        exact Kept.bind (Kept.modify (fun s hs => hS.sup s _ hs)) (fun _ => ih (fun c hc => hC c (by simp [hc])))

theorem kept_loadCommandsOn (hS : OStableOn dev C P) (fl : ElmM.FloatFn) (hC : ∀ c ∈ pidGetters, Sends C c) : Kept P (loadCommands dev fl) := by
  unfold loadCommands
  refine Kept.bind Kept.get (fun s => ?_)
  split
  · exact Kept.pure _
  · exact kept_loadLoopOn hS fl _ hC

theorem kept_setHeader (hS : OStable dev P) (h : Bytes) : Kept P (setHeader dev h) := kept_setHeaderOn hS h trivial
theorem kept_query (hS : OStable dev P) (fl : ElmM.FloatFn) (c : OBDCommand) (force : Bool) : Kept P (query dev fl c force) :=
  kept_queryOn hS fl c (sends_true c) force
theorem kept_loadCommands (hS : OStable dev P) (fl : ElmM.FloatFn) : Kept P (loadCommands dev fl) :=
  kept_loadCommandsOn hS fl (fun c _ => sends_true c)

end ObdM

/-! ## the invariant of an object the user holds -/

/-- Everything known of an `ELM327` object that was constructed. -/
def Sound (w : EW) : Prop := Tidy w ∧ ElmM.Linked w ∧ (w.elm.protocol = none → w.elm.status = .notConnected)

theorem sound_send (dev : Device) (cmd : Bytes) (d : Bool) (m : Bytes) : Kept Sound (ElmM.send dev cmd d m) := by
  intro w hw
  refine ⟨ElmM.tidy_send dev cmd d m w hw.1, (ElmM.stable_linked dev).send cmd d m trivial w hw.2.1, ?_⟩
  rcases ElmM.send_outcome dev cmd d m w with ⟨-, h⟩ | ⟨p, l, w', hp, h, hr⟩ <;> rw [h]
  · exact hw.2.2
  · cases hr with
    | replied => exact hw.2.2
    | writeFailed => exact fun _ => rfl
    | readFailed => exact fun _ => rfl

theorem Sound.lp {w : EW} (h : Sound w) (b : Bool) : Sound { w with elm := { w.elm with lowPower := b } } :=
  ⟨h.1.elm (fun hp => hp), h.2.1, h.2.2⟩

namespace ElmM

theorem sound_normalPower (dev : Device) : Kept Sound (normalPower dev) := by
  unfold normalPower
  refine Kept.bind Kept.getElm ?_
  intro e
  split
  · exact Kept.pure _
  · refine Kept.bind (sound_send dev _ _ _) (fun _ => ?_)
    exact Kept.bind (Kept.modifyElm (fun w h => Sound.lp h false)) (fun _ => Kept.pure _)

theorem sound_lowPower (dev : Device) : Kept Sound (lowPower dev) := by
  unfold lowPower
  refine Kept.bind Kept.getElm ?_
  intro e
  split
  · exact Kept.pure _
  · refine Kept.bind (sound_send dev _ _ _) (fun _ => ?_)
    split
    · exact Kept.bind (Kept.modifyElm (fun w h => Sound.lp h true)) (fun _ => Kept.pure _)
    · exact Kept.pure _

theorem sound_sendAndParse (dev : Device) (cmd : Bytes) : Kept Sound (sendAndParse dev cmd) := by
  unfold sendAndParse
  refine Kept.bind Kept.getElm ?_
  intro e
  split
  · exact Kept.pure _
  · have main : Kept Sound (do
        let lines ← send dev cmd
        let e ← getElm
        match e.protocol with
        | none => PyM.throw .typeError
        | some p =>
          let ms ← PyM.ofExcept (p.call lines)
          return some ms) := by
      refine Kept.bind (sound_send dev _ _ _) (fun _ => ?_)
      refine Kept.bind Kept.getElm ?_
      intro e
      split
      · exact Kept.throw _
      · exact Kept.bind (Kept.ofExcept _) (fun _ => Kept.pure _)
    split
    · exact Kept.bind (sound_normalPower dev) (fun _ => main)
    · exact main

theorem sound_close (dev : Device) : Kept Sound (close dev) := by
  intro w hw
  have h := close_any dev w
  exact ⟨tidy_close dev w hw.1, ⟨fun _ => h.2.1, fun _ => h.1⟩, fun _ => h.1⟩

theorem construct_sound {dev : Device} {fl : FloatFn} {port : Str} {cfg : Config} {hist : History} {w : EW}
    (h : construct dev fl port cfg hist = (.ok (), w)) (hs : Shape hist) : Sound w := by
  have h1 := tidy_construct dev fl port cfg hist hs
  rw [h] at h1
  refine ⟨h1, construct_linked h, construct_proto h⟩

end ElmM

/-- Everything known of an `OBD` object. -/
def OSound (s : OW) : Prop := Shape s.hist ∧ ∀ e, s.interface = some e → Sound ⟨e, s.hist⟩

namespace ObdM

theorem osound_on {α : Type} {m : ElmM α} (h : Kept Sound m) : Kept OSound (onInterface m) := by
  intro s hs
  unfold onInterface
  cases hi : s.interface with
  | none => simpa [hi] using hs
  | some e =>
    have := h ⟨e, s.hist⟩ (hs.2 e hi)
    exact ⟨this.1.1, by
      intro e' he'
      simp only [Option.some.injEq] at he'
      subst he'
      exact this⟩

theorem ostable_sound (dev : Device) : OStable dev OSound where
  send := fun cmd _ => osound_on (ElmM.sound_sendAndParse dev cmd)
  attrs := fun _ _ _ _ h => h
  sup := fun _ _ h => h

theorem osound_close (dev : Device) : Kept OSound (close dev) := by
  unfold close
  refine Kept.bind (P := OSound) (Kept.modify (fun s hs => hs)) (fun _ => ?_)
  refine Kept.bind (P := OSound) Kept.get (fun s => ?_)
  split
  · exact Kept.pure _
  · refine Kept.bind (P := OSound) (kept_setHeader (ostable_sound dev) _) (fun _ => ?_)
    refine Kept.bind (P := OSound) (osound_on (ElmM.sound_close dev)) (fun _ => ?_)
    exact Kept.modify (fun s hs => ⟨hs.1, by simp⟩)

theorem osound_lowPower (dev : Device) : Kept OSound (lowPower dev) := by
  unfold lowPower
  refine Kept.bind (P := OSound) Kept.get (fun s => ?_)
  split
  · exact Kept.pure _
  · exact osound_on (ElmM.sound_lowPower dev)

theorem osound_normalPower (dev : Device) : Kept OSound (normalPower dev) := by
  unfold normalPower
  refine Kept.bind (P := OSound) Kept.get (fun s => ?_)
  split
  · exact Kept.pure _
  · exact osound_on (ElmM.sound_normalPower dev)

theorem osound_call (dev : Device) (fl : ElmM.FloatFn) (c : Call) (s : OW) (h : OSound s) : OSound (c.after dev fl s) := by
  cases c with
  | query c force => exact kept_query (ostable_sound dev) fl c force s h
  | lowPower => exact osound_lowPower dev s h
  | normalPower => exact osound_normalPower dev s h
  | close => exact osound_close dev s h

theorem osound_session (dev : Device) (fl : ElmM.FloatFn) (cs : List Call) (s : OW) (h : OSound s) :
    OSound (session dev fl cs s) := by
  induction cs generalizing s with
  | nil => exact h
  | cons c cs ih => exact ih _ (osound_call dev fl c s h)

theorem openInterface_ok {dev : Device} {fl : ElmM.FloatFn} {port : Str} {cfg : ElmM.Config} {s s' : OW}
    (h : openInterface dev fl port cfg s = (.ok (), s')) :
    ∃ w, ElmM.construct dev fl port cfg s.hist = (.ok (), w) ∧ s' = { s with interface := some w.elm, hist := w.hist } := by
  unfold openInterface at h
  cases hc : ElmM.construct dev fl port cfg s.hist with
  | mk r w =>
    rw [hc] at h
    cases r with
    | error e => cases h
    | ok u => cases h; exact ⟨w, rfl, rfl⟩

theorem openInterface_sound {dev : Device} {fl : ElmM.FloatFn} {port : Str} {cfg : ElmM.Config} {s s' : OW}
    (h : openInterface dev fl port cfg s = (.ok (), s')) (hs : OSound s) : OSound s' := by
  obtain ⟨w, hw, rfl⟩ := openInterface_ok h
  have := ElmM.construct_sound hw hs.1
  exact ⟨this.1.1, by
    intro e he
    simp only [Option.some.injEq] at he
    subst he
    exact this⟩

theorem tryPorts_sound {dev : Device} {fl : ElmM.FloatFn} {cfg : ElmM.Config} (ports : List Str) {s s' : OW}
    (h : tryPorts dev fl cfg ports s = (.ok (), s')) (hs : OSound s) : OSound s' := by
  induction ports generalizing s with
  | nil => cases h; exact hs
  | cons p ports ih =>
    unfold tryPorts at h
    obtain ⟨_, s1, h1, h⟩ := bind_inv h
    obtain ⟨s2, s3, h2, h⟩ := bind_inv h
    cases h2
    have hs1 := openInterface_sound h1 hs
    split at h
    · cases h; exact hs1
    · exact ih h hs1

theorem kept_closeIfFailed (dev : Device) : Kept OSound (closeIfFailed dev) := by
  unfold closeIfFailed
  refine Kept.bind (P := OSound) Kept.get (fun s => ?_)
  split
  · exact osound_close dev
  · exact Kept.pure _

theorem connect_sound {dev : Device} {fl : ElmM.FloatFn} {ports : List Str} {portstr : Option Str} {cfg : ElmM.Config} {s s' : OW}
    (h : connect dev fl ports portstr cfg s = (.ok (), s')) (hs : OSound s) : OSound s' := by
  unfold connect at h
  cases portstr with
  | none =>
    simp only at h
    split at h
    · cases h; exact hs
    · obtain ⟨_, s1, h1, h⟩ := bind_inv h
      have := kept_closeIfFailed dev s1 (tryPorts_sound ports h1 hs)
      rw [h] at this; exact this
  | some p =>
    obtain ⟨_, s1, h1, h⟩ := bind_inv h
    have := kept_closeIfFailed dev s1 (openInterface_sound h1 hs)
    rw [h] at this; exact this

theorem constructed_sound {dev : Device} {fl : ElmM.FloatFn} {a : Args} {s : OW} (h : Constructed dev fl a s) : OSound s := by
  unfold Constructed construct at h
  obtain ⟨_, s1, h1, h⟩ := bind_inv h
  have := kept_loadCommands (ostable_sound dev) fl s1 (connect_sound h1 ⟨shape_nil, by simp⟩)
  rw [h] at this; exact this

theorem reachable_sound {dev : Device} {fl : ElmM.FloatFn} {s : OW} (h : Reachable dev fl s) : OSound s := by
  obtain ⟨a, s0, calls, hc, rfl⟩ := h
  exact osound_session dev fl calls s0 (constructed_sound hc)

end ObdM
end Model
