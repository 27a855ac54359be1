import Verif.Props.Robust
import Verif.Props.EcuMap
import Verif.Props.Legacy
import Verif.Props.Sensors
import Verif.Spec.EndToEnd
/-!
# From the reply to the response
-/
namespace Props
open Py Model Spec ObdM

theorem reads_no_write (bs : List Bytes) : ∀ e ∈ bs.map (fun b => Event.read (some b)), (match e with | .write _ _ => true | _ => false) = false := by
  intro e he
  obtain ⟨b, -, rfl⟩ := List.mem_map.1 he
  rfl

theorem ends_unique {evs : History} {cmd cmd' : Bytes} {l l' : List Str} (h : Ends evs cmd l) (h' : Ends evs cmd' l') :
    cmd = cmd' ∧ l = l' := by
  obtain ⟨pre, bs, b, rfl, hl, -⟩ := h
  obtain ⟨pre', bs', b', he, hl', -⟩ := h'
  have key : ∀ (pre : History) cmd (bs : List Bytes) (b : Bytes),
      (pre ++ Event.write (line cmd) true :: (bs.map (fun b => Event.read (some b)) ++ [.read (some b)])).reverse.find?
        (fun e => match e with | .write _ _ => true | _ => false) = some (.write (line cmd) true) ∧
      (pre ++ Event.write (line cmd) true :: (bs.map (fun b => Event.read (some b)) ++ [.read (some b)])).getLast? = some (.read (some b)) := by
    intro pre cmd bs b
    constructor
    · rw [List.reverse_append, List.reverse_cons, List.reverse_append, List.append_assoc, List.append_assoc]
      simp only [List.reverse_cons, List.reverse_nil, List.nil_append, List.cons_append, List.find?_cons, List.find?_append]
      have : (bs.map (fun b => Event.read (some b))).reverse.find? (fun e => match e with | .write _ _ => true | _ => false) = none := by
        rw [List.find?_eq_none]
        intro e he
        rw [reads_no_write bs e (List.mem_reverse.1 he)]
        simp
      rw [this]; rfl
    · rw [show pre ++ Event.write (line cmd) true :: (bs.map (fun b => Event.read (some b)) ++ [.read (some b)]) =
        (pre ++ Event.write (line cmd) true :: bs.map (fun b => Event.read (some b))) ++ [.read (some b)] by simp, List.getLast?_append]
      rfl
  have h1 := key pre cmd bs b
  rw [he] at h1
  have h2 := key pre' cmd' bs' b'
  have e1 := h1.1.symm.trans h2.1
  have e2 := h1.2.symm.trans h2.2
  simp only [Option.some.injEq, Event.write.injEq, and_true] at e1
  simp only [Option.some.injEq, Event.read.injEq] at e2
  subst e2
  exact ⟨line_inj e1, by rw [linesOf_unique hl, linesOf_unique hl']⟩

theorem broken_ends {h evs : History} {cmds : List Bytes} (hb : Broken evs cmds) (cmd : Bytes) (l : List Str) : ¬ Ends (h ++ evs) cmd l := by
  obtain ⟨xs, c, suf, e1, e2, -, rfl, -, ha⟩ := hb
  rintro ⟨pre, bs, b, he, -⟩
  have h1 := congrArg List.getLast? he
  cases ha <;> simp [List.getLast?_append, List.getLast?_cons] at h1

/-- The outcome of a query that ended with a reply to its command. -/
theorem query_final {dev : Device} {fl : ElmM.FloatFn} {c : OBDCommand} {force : Bool} {s : OW} {e : Elm} {o : ProtoObj} (hl : Live s e o)
    {out : Except Exc Response} {s' : OW} (h : query dev fl c force s = (out, s')) {evs : History} (hh : s'.hist = s.hist ++ evs)
    {cmd : Bytes} {l : List Str} (he : Ends evs cmd l) (hc : cmd ≠ headerLine c.header) :
    out = (match o.call l with
      | .error x => .error x
      | .ok ms => if ms = [] then .ok {} else c.call fl ms) := by
  have body : ∀ (s1 : OW) (e1 : Elm) (ev : History), Live s1 e1 o → s1.hist = s.hist ++ ev → body dev fl c s1 = (out, s') →
      out = (match o.call l with
        | .error x => .error x
        | .ok ms => if ms = [] then .ok {} else c.call fl ms) := by
    intro s1 e1 ev hl1 hh1 hb
    rcases body_cases (dev := dev) (fl := fl) (c := c) hl1 with ⟨pre, l1, ev1, x, h1, h2, h3, h4⟩ | ⟨pre, l1, ev1, ms, h1, h2, h3, h4⟩ | ⟨ev1, h1, h4⟩
    · rw [h4] at hb
      cases hb
      have hev : evs = ev ++ ev1 := by
        have hz : s1.hist ++ ev1 = s.hist ++ evs := hh
        rw [hh1, List.append_assoc] at hz
        exact (List.append_cancel_left hz).symm
      obtain ⟨-, rfl⟩ := ends_unique he (hev ▸ dialogue_ends (h := ev) h2)
      rw [h3]
    · rw [h4] at hb
      have hev : evs = ev ++ ev1 := by
        have hz : s1.hist ++ ev1 = s.hist ++ evs := (congrArg (fun x : Except Exc Response × OW => x.2.hist) hb).trans hh
        rw [hh1, List.append_assoc] at hz
        exact (List.append_cancel_left hz).symm
      obtain ⟨-, rfl⟩ := ends_unique he (hev ▸ dialogue_ends (h := ev) h2)
      rw [h3]
      exact (congrArg Prod.fst hb).symm
    · rw [h4] at hb
      have hev : evs = ev ++ ev1 := by
        have hz : s1.hist ++ ev1 = s.hist ++ evs := (congrArg (fun x : Except Exc Response × OW => x.2.hist) hb).trans hh
        rw [hh1, List.append_assoc] at hz
        exact (List.append_cancel_left hz).symm
      exact absurd (hev ▸ he) (broken_ends h1 _ _)
  have hne : s'.hist ≠ s.hist := by
    rw [hh]
    obtain ⟨pre, bs, b, rfl, -⟩ := he
    simp
  rcases query_cases dev fl c force s with ⟨h1, -⟩ | ⟨x, h1, -⟩ | ⟨h1, -, -⟩
  · rw [h1] at h; cases h; exact absurd rfl hne
  · rw [h1] at h; cases h; exact absurd rfl hne
  · rw [h1, exchange_eq] at h
    by_cases hd : c.header = s.lastHeader
    · rw [PyM.bind_ok (setHeader_same hd)] at h
      exact body s e [] hl (by simp) h
    · rcases setHeader_cases (dev := dev) hl hd with ⟨pre, l1, ev1, x, h2, h3, h4, h5⟩ | ⟨pre, l1, ev1, ms, h2, h3, h4, h5⟩ | ⟨ev1, h2, h5⟩
      · rw [PyM.bind_apply, h5] at h
        cases h
        have hev : evs = [] ++ ev1 := (List.append_cancel_left (show s.hist ++ ev1 = s.hist ++ evs from hh)).symm
        obtain ⟨h6, -⟩ := ends_unique he (hev ▸ dialogue_ends (h := []) h3)
        exact absurd h6 hc
      · rw [PyM.bind_ok h5] at h
        exact body _ { e with lowPower := false } ev1 ⟨rfl, hl.status, hl.port, hl.proto⟩ rfl h
      · rw [PyM.bind_ok h5, body_nc (e := lost { e with lowPower := false }) rfl rfl] at h
        have hev : evs = [] ++ ev1 := by
          have hz : s.hist ++ ev1 = s.hist ++ evs := (congrArg (fun x : Except Exc Response × OW => x.2.hist) h).trans hh
          exact (List.append_cancel_left hz).symm
        exact absurd (hev ▸ he) (broken_ends h2 _ _)

/-! ### the protocol stays -/

/-- The protocol object, as long as the interface is connected. -/
def SameProto (o : ProtoObj) (s : OW) : Prop := ∀ e, s.interface = some e → e.protocol = some o ∨ e.status = .notConnected

theorem sameProto_send (dev : Device) (o : ProtoObj) (cmd : Bytes) (d : Bool) (m : Bytes) :
    Kept (fun w : EW => w.elm.protocol = some o ∨ w.elm.status = .notConnected) (ElmM.send dev cmd d m) := by
  intro w h
  rcases ElmM.send_outcome dev cmd d m w with ⟨-, he⟩ | ⟨p, l, w', hp, he, hr⟩ <;> rw [he]
  · exact h
  · cases hr with
    | replied bs b hb => exact h
    | writeFailed => exact Or.inr rfl
    | readFailed bs hb => exact Or.inr rfl

theorem sameProto_on {α : Type} {m : ElmM α} {o : ProtoObj}
    (h : Kept (fun w : EW => w.elm.protocol = some o ∨ w.elm.status = .notConnected) m) : Kept (SameProto o) (onInterface m) := by
  intro s hs
  unfold onInterface
  cases hi : s.interface with
  | none => simpa [hi] using hs
  | some e =>
    intro e' he'
    simp only [Option.some.injEq] at he'
    subst he'
    exact h ⟨e, s.hist⟩ (hs e hi)

theorem ostable_sameProto (dev : Device) (o : ProtoObj) : OStable dev (SameProto o) where
  send := fun cmd _ => sameProto_on (ElmM.kept_sendAndParse (C := fun _ => True) (fun c d m _ => sameProto_send dev o c d m) cmd trivial trivial
    (fun _ h => h))
  attrs := fun _ _ _ _ h => h
  sup := fun _ _ h => h

theorem sameProto_call (dev : Device) (fl : ElmM.FloatFn) (o : ProtoObj) (c : Call) (s : OW) (h : SameProto o s) : SameProto o (c.after dev fl s) := by
  cases c with
  | query c force => exact kept_query (ostable_sameProto dev o) fl c force s h
  | lowPower =>
    refine (?_ : Kept (SameProto o) (lowPower dev)) s h
    refine Kept.bind Kept.get (fun s => ?_)
    split
    · exact Kept.pure _
    · refine sameProto_on ?_
      refine Kept.bind Kept.getElm (fun e => ?_)
      split
      · exact Kept.pure _
      · refine Kept.bind (sameProto_send dev o _ _ _) (fun _ => ?_)
        split
        · exact Kept.bind (Kept.modifyElm (fun w h => h)) (fun _ => Kept.pure _)
        · exact Kept.pure _
  | normalPower =>
    refine (?_ : Kept (SameProto o) (normalPower dev)) s h
    refine Kept.bind Kept.get (fun s => ?_)
    split
    · exact Kept.pure _
    · exact sameProto_on (ElmM.kept_normalPower (C := fun _ => True) (fun c d m _ => sameProto_send dev o c d m) trivial (fun w h => h))
  | close =>
    refine (?_ : Kept (SameProto o) (close dev)) s h
    unfold close
    refine Kept.bind (P := SameProto o) (Kept.modify (fun s hs => hs)) (fun _ => ?_)
    refine Kept.bind (P := SameProto o) Kept.get (fun s => ?_)
    split
    · exact Kept.pure _
    · refine Kept.bind (P := SameProto o) (kept_setHeader (ostable_sameProto dev o) _) (fun _ => ?_)
      refine Kept.bind (P := SameProto o) (sameProto_on (fun w _ => Or.inr (ElmM.close_any dev w).1)) (fun _ => ?_)
      exact Kept.modify (fun s hs => by intro e he; cases he)

theorem sameProto_session (dev : Device) (fl : ElmM.FloatFn) (o : ProtoObj) (cs : List Call) (s : OW) (h : SameProto o s) :
    SameProto o (session dev fl cs s) := by
  induction cs generalizing s with
  | nil => exact h
  | cons c cs ih => exact ih _ (sameProto_call dev fl o c s h)

/-! ### what the engine says -/

theorem says_message {p : Proto} {t : Nat} {payload : Bytes} {lines : List Str} (h : Says p t payload lines)
    (h43 : payload.head? ≠ some 0x43) (map : Dict (Option Nat) Nat) (ms : List Message) (hms : p.call map lines = .ok ms) :
    ∃ m, ms.filter (fun m => m.txId == some t) = [m] ∧ m.data = payload := by
  cases h with
  | single e on he pad h1 h7 s hs own =>
    subst he
    exact C06_among_others p e on map payload pad h1 h7 h43 s hs lines own ms hms
  | segmented e on he pad hseg recvd hr horder own =>
    subst he
    exact C07_among_others p e on map payload pad hseg h43 recvd hr horder lines own ms hms
  | oneLine hp own => exact C16_single_line p hp map lines t payload own h43 ms hms
  | numbered hp mode pid part n h2 hn own hd =>
    subst hd
    exact C17_any_order p hp map lines t mode pid (by simpa using h43) part n h2 hn own ms hms

theorem silent_message {p : Proto} (hp : p ≠ .unknown) {t : Nat} {lines : List Str} (h : framesBy p t lines = [])
    (map : Dict (Option Nat) Nat) (ms : List Message) (hms : p.call map lines = .ok ms) : ms.filter (fun m => m.txId == some t) = [] := by
  have h1 := C11_own_lines p hp map lines ms hms t
  have h2 : lines.filter (sentBy p t) = [] := by
    rw [List.filter_eq_nil_iff]
    intro s hs hb
    unfold sentBy at hb
    cases hf : lineFrame? p s with
    | none => rw [hf] at hb; simp at hb
    | some x =>
      rw [hf] at hb
      simp only [Option.map_some, beq_iff_eq, Option.some.injEq] at hb
      have : x.2 ∈ framesBy p t lines := by
        unfold framesBy
        exact List.mem_map.2 ⟨x, List.mem_filter.2 ⟨List.mem_filterMap.2 ⟨s, hs, hf⟩, by simp [hb]⟩, rfl⟩
      rw [h] at this; cases this
  rw [h2] at h1
  have h3 : p.call map [] = .ok [] := by
    have := call_empty ⟨p, map⟩
    exact this
  rw [h3] at h1
  injection h1 with h1
  exact h1.symm

end Props
