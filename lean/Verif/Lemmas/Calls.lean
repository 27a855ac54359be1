import Verif.Lemmas.Session
/-!
# Histories only grow, and later calls open no port
-/
namespace Model
open Py Spec

theorem notOpen_exchange (cmd : Bytes) (ok : Bool) (bs : List Bytes) (t : List Event) (ht : NoOpen t) :
    NoOpen (Event.write (line cmd) ok :: (reads bs ++ t)) := by
  intro e he p r
  rcases List.mem_cons.1 he with rfl | he
  · simp
  · rcases List.mem_append.1 he with he | he
    · obtain ⟨b, -, rfl⟩ := List.mem_map.1 he; simp
    · exact ht e he p r

/-- The history was extended without opening a port. -/
def Ext (h : History) (h' : History) : Prop := ∃ evs, h' = h ++ evs ∧ NoOpen evs

theorem Ext.refl (h : History) : Ext h h := ⟨[], by simp, by simp [NoOpen]⟩
theorem Ext.more {h h' evs : History} (he : Ext h h') (hn : NoOpen evs) : Ext h (h' ++ evs) := by
  obtain ⟨e, rfl, h1⟩ := he
  refine ⟨e ++ evs, by simp, ?_⟩
  intro x hx
  rcases List.mem_append.1 hx with hx | hx
  · exact h1 x hx
  · exact hn x hx
theorem Ext.trans {a b c : History} (h1 : Ext a b) (h2 : Ext b c) : Ext a c := by
  obtain ⟨e, rfl, hn⟩ := h2
  exact h1.more hn

theorem ext_send (dev : Device) (h : History) (cmd : Bytes) (d : Bool) (m : Bytes) :
    Kept (fun w => Ext h w.hist) (ElmM.send dev cmd d m) := by
  intro w hw
  rcases ElmM.send_outcome dev cmd d m w with ⟨-, he⟩ | ⟨p, l, w', hp, he, hr⟩ <;> simp only [he]
  · exact hw
  · cases hr with
    | replied bs b hb => exact hw.more (notOpen_exchange cmd true bs _ (by simp [NoOpen]))
    | writeFailed => exact hw.more (by simp [NoOpen])
    | readFailed bs hb => exact hw.more (notOpen_exchange cmd true bs _ (by simp [NoOpen]))

theorem stable_ext (dev : Device) (h : History) : Stable dev (fun _ => True) (fun w => Ext h w.hist) where
  send := fun cmd d m _ => ext_send dev h cmd d m
  proto := fun _ _ h => h

theorem ext_close (dev : Device) (h : History) : Kept (fun w => Ext h w.hist) (ElmM.close dev) := by
  intro w hw
  simp only [ElmM.close]
  rw [PyM.bind_ok (show ElmM.modifyElm _ w = (.ok (), _) from rfl), PyM.bind_ok (show ElmM.getElm _ = (.ok _, _) from rfl)]
  simp only
  cases hp : w.elm.port with
  | none => exact hw
  | some p =>
    simp only
    rw [PyM.bind_ok (show ElmM.write dev (ascii "ATZ") _ = (.ok (), _) from rfl), PyM.bind_ok (show ElmM.getElm _ = (.ok _, _) from rfl)]
    rcases write_some dev (ascii "ATZ") { w with elm := { w.elm with port := some p, status := .notConnected, protocol := none } } p rfl with e | e
    · rw [e]
      have := hw.more (evs := [.write (line (ascii "ATZ")) true, .close]) (by simp [NoOpen])
      simpa using this
    · rw [e]; exact hw.more (by simp [NoOpen])

namespace ObdM

theorem kept_on {α : Type} {m : ElmM α} {h : History} (hm : Kept (fun w => Ext h w.hist) m) :
    Kept (fun s : OW => Ext h s.hist) (onInterface m) := by
  intro s hs
  unfold onInterface
  cases hi : s.interface with
  | none => simpa [hi] using hs
  | some e => exact hm ⟨e, s.hist⟩ hs

theorem ostable_ext (dev : Device) (h : History) : OStable dev (fun s => Ext h s.hist) where
  send := fun cmd _ => kept_on (ElmM.kept_sendAndParse (stable_ext dev h).send cmd trivial trivial (fun _ h => h))
  attrs := fun _ _ _ _ h => h
  sup := fun _ _ h => h

theorem ext_call (dev : Device) (fl : ElmM.FloatFn) (c : Call) (s : OW) : Ext s.hist (c.after dev fl s).hist := by
  cases c with
  | query c force => exact kept_query (ostable_ext dev s.hist) fl c force s (Ext.refl _)
  | lowPower =>
    refine Kept.bind (P := fun t : OW => Ext s.hist t.hist) Kept.get (fun s' => ?_) s (Ext.refl _)
    split
    · exact Kept.pure _
    · exact kept_on (ElmM.kept_lowPower (stable_ext dev _).send trivial (fun _ h => h))
  | normalPower =>
    refine Kept.bind (P := fun t : OW => Ext s.hist t.hist) Kept.get (fun s' => ?_) s (Ext.refl _)
    split
    · exact Kept.pure _
    · exact kept_on (ElmM.kept_normalPower (stable_ext dev _).send trivial (fun _ h => h))
  | close =>
    refine (?_ : Kept (fun t : OW => Ext s.hist t.hist) (close dev)) s (Ext.refl _)
    unfold close
    refine Kept.bind (P := fun t : OW => Ext s.hist t.hist) (Kept.modify (fun s hs => hs)) (fun _ => ?_)
    refine Kept.bind (P := fun t : OW => Ext s.hist t.hist) Kept.get (fun s' => ?_)
    split
    · exact Kept.pure _
    · refine Kept.bind (P := fun t : OW => Ext s.hist t.hist) (kept_setHeader (ostable_ext dev _) _) (fun _ => ?_)
      refine Kept.bind (P := fun t : OW => Ext s.hist t.hist) (kept_on (ext_close dev _)) (fun _ => ?_)
      exact Kept.modify (fun s hs => hs)

theorem ext_session (dev : Device) (fl : ElmM.FloatFn) (cs : List Call) (s : OW) : Ext s.hist (session dev fl cs s).hist := by
  induction cs generalizing s with
  | nil => exact Ext.refl _
  | cons c cs ih => exact (ext_call dev fl c s).trans (ih _)

/-! ## calls on an object that is not connected -/

theorem status_none {s : OW} (h : status s = .notConnected) (e : Elm) (he : s.interface = some e) : e.status = .notConnected := by
  simpa [status, he] using h

theorem sendAndParse_nc {dev : Device} {cmd : Bytes} {w : EW} (h : w.elm.status = .notConnected) :
    ElmM.sendAndParse dev cmd w = (.ok none, w) := by
  unfold ElmM.sendAndParse
  rw [PyM.bind_ok (show ElmM.getElm w = (.ok w.elm, w) from rfl), if_pos h]; rfl

theorem onInterface_nc {dev : Device} {cmd : Bytes} {s : OW} {e : Elm} (he : s.interface = some e) (h : e.status = .notConnected) :
    onInterface (ElmM.sendAndParse dev cmd) s = (.ok none, s) := by
  unfold onInterface
  rw [he]
  simp only
  rw [sendAndParse_nc h]
  obtain ⟨i, sup, f, lc, lh, fc, hi⟩ := s
  simp only at he
  subst he
  rfl

theorem setHeader_nc {dev : Device} {hd : Bytes} {s : OW} {e : Elm} (he : s.interface = some e) (h : e.status = .notConnected) :
    setHeader dev hd s = (.ok (), s) := by
  unfold setHeader
  rw [PyM.bind_ok (show PyM.get s = (.ok s, s) from rfl)]
  split
  · rfl
  · rw [PyM.bind_ok (onInterface_nc he h)]; rfl

theorem query_nc {dev : Device} {fl : ElmM.FloatFn} {c : OBDCommand} {force : Bool} {s : OW} (h : status s = .notConnected) :
    query dev fl c force s = (.ok {}, s) := by
  unfold query
  rw [PyM.bind_ok (show PyM.get s = (.ok s, s) from rfl), if_pos h]; rfl

theorem lowPower_nc {dev : Device} {s : OW} (h : status s = .notConnected) : lowPower dev s = (.ok none, s) := by
  unfold lowPower
  rw [PyM.bind_ok (show PyM.get s = (.ok s, s) from rfl)]
  cases he : s.interface with
  | none => rfl
  | some e =>
    simp only [onInterface, he]
    unfold ElmM.lowPower
    rw [PyM.bind_ok (show ElmM.getElm _ = (.ok _, _) from rfl)]
    simp only
    rw [if_pos (status_none h e he)]
    obtain ⟨i, sup, f, lc, lh, fc, hi⟩ := s
    simp only at he
    subst he
    rfl

theorem normalPower_nc {dev : Device} {s : OW} (h : status s = .notConnected) : normalPower dev s = (.ok none, s) := by
  unfold normalPower
  rw [PyM.bind_ok (show PyM.get s = (.ok s, s) from rfl)]
  cases he : s.interface with
  | none => rfl
  | some e =>
    simp only [onInterface, he]
    unfold ElmM.normalPower
    rw [PyM.bind_ok (show ElmM.getElm _ = (.ok _, _) from rfl)]
    simp only
    rw [if_pos (status_none h e he)]
    obtain ⟨i, sup, f, lc, lh, fc, hi⟩ := s
    simp only at he
    subst he
    rfl

theorem elmClose_none {dev : Device} {w : EW} (h : w.elm.port = none) :
    ElmM.close dev w = (.ok (), { w with elm := { w.elm with status := .notConnected, protocol := none } }) := by
  unfold ElmM.close
  rw [PyM.bind_ok (show ElmM.modifyElm _ w = (.ok (), _) from rfl), PyM.bind_ok (show ElmM.getElm _ = (.ok _, _) from rfl)]
  simp only
  rw [h]
  simp

/-- `close` on a sound object that is not connected. -/
theorem close_nc {dev : Device} {s : OW} (hs : OSound s) (h : status s = .notConnected) :
    close dev s = (.ok (), { s with supported := [], interface := none }) := by
  unfold close
  rw [PyM.bind_ok (show PyM.modify _ s = (.ok (), _) from rfl), PyM.bind_ok (show PyM.get _ = (.ok _, _) from rfl)]
  cases he : s.interface with
  | none => rfl
  | some e =>
    simp only
    have hst := status_none h e he
    have hp : e.port = none := ((hs.2 e he).2.1).1 hst
    rw [PyM.bind_ok (setHeader_nc (e := e) rfl hst)]
    have : onInterface (ElmM.close dev) { s with interface := some e, supported := [] } =
        (.ok (), { s with interface := some { e with status := .notConnected, protocol := none }, supported := [] }) := by
      simp only [onInterface]
      rw [elmClose_none hp]
    rw [PyM.bind_ok this]
    rfl

theorem call_nc (dev : Device) (fl : ElmM.FloatFn) (c : Call) {s : OW} (hs : OSound s) (h : status s = .notConnected) :
    (c.after dev fl s).hist = s.hist ∧ status (c.after dev fl s) = .notConnected := by
  cases c with
  | query c force => simp only [Call.after, query_nc h]; exact ⟨trivial, h⟩
  | lowPower => simp only [Call.after, lowPower_nc h]; exact ⟨trivial, h⟩
  | normalPower => simp only [Call.after, normalPower_nc h]; exact ⟨trivial, h⟩
  | close => simp only [Call.after, close_nc hs h]; exact ⟨trivial, rfl⟩

theorem session_nc (dev : Device) (fl : ElmM.FloatFn) (cs : List Call) {s : OW} (hs : OSound s) (h : status s = .notConnected) :
    (session dev fl cs s).hist = s.hist ∧ status (session dev fl cs s) = .notConnected := by
  induction cs generalizing s with
  | nil => exact ⟨rfl, h⟩
  | cons c cs ih =>
    have h1 := call_nc dev fl c hs h
    have h2 := ih (osound_call dev fl c s hs) h1.2
    exact ⟨h2.1.trans h1.1, h2.2⟩

end ObdM
end Model
