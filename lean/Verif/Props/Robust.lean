import Verif.Spec.Robust
import Verif.Props.Query
import Verif.Props.Ports
import Verif.Props.CanExact
import Verif.Props.Total
import Verif.Lemmas.Supported
import Verif.Lemmas.Acked
/-!
# Failures of close() and query() (C52, C53), unconnected objects (C63)
-/
namespace Props
open Py Model Spec ObdM

theorem dialogue_ends {h evs : History} {pre : List (Bytes × List Str)} {cmd : Bytes} {l : List Str}
    (hd : Dialogue evs (pre ++ [(cmd, l)])) : Ends (h ++ evs) cmd l := by
  induction pre generalizing h evs with
  | nil =>
    cases hd with
    | cons hl hbs hd => cases hd; exact ⟨h, _, _, rfl, hl, hbs⟩
  | cons y pre ih =>
    rw [List.cons_append] at hd
    cases hd with
    | @cons cmd lines bs b evs xs hl hbs hd =>
      have := ih (h := h ++ Event.write (line cmd) true :: (reads bs ++ [.read (some b)])) hd
      simpa using this

theorem ends_append {h evs : History} {cmd : Bytes} {l : List Str} (he : Ends evs cmd l) : Ends (h ++ evs) cmd l := by
  obtain ⟨pre, bs, b, h1, h2, h3⟩ := he
  exact ⟨h ++ pre, bs, b, by rw [h1, List.append_assoc], h2, h3⟩

theorem ends_answered {h evs : History} {cmd : Bytes} {l : List Str} (he : Ends evs cmd l) : FinalReply (h ++ evs) cmd l := by
  obtain ⟨pre, bs, b, h1, h2, h3⟩ := ends_append (h := h) he
  exact ⟨pre, bs, b, [], h1, h2, h3, by simp⟩

theorem trips_of {o : ProtoObj} {l : List Str} {x : Exc} (h : o.call l = .error x) : x = .indexError ∧ Trips o.cls l := by
  unfold ProtoObj.call at h
  cases hf : o.cls.family with
  | can n =>
    obtain ⟨h1, h2⟩ := C14_can_exact o.cls n hf o.ecuMap l
    obtain ⟨t, ht⟩ := h1.1 ⟨x, h⟩
    exact ⟨h2 _ h, Or.inl ⟨n, t, hf, ht⟩⟩
  | legacy =>
    obtain ⟨h1, h2⟩ := C14_legacy_exact o.cls hf o.ecuMap l
    exact ⟨h2 _ h, Or.inr ⟨hf, h1.1 ⟨x, h⟩⟩⟩
  | unknown =>
    have hu : o.cls = .unknown := by
      cases hc : o.cls <;> rw [hc] at hf <;> simp [Proto.family] at hf <;> rfl
    rw [hu] at h
    obtain ⟨ms, hms⟩ := C14_unknown o.ecuMap l
    rw [hms] at h; cases h

theorem trips_raises {o : ProtoObj} {l : List Str} (h : Trips o.cls l) : o.call l = .error .indexError := by
  unfold ProtoObj.call
  rcases h with ⟨n, t, hf, h⟩ | ⟨hf, h⟩
  · obtain ⟨h1, h2⟩ := C14_can_exact o.cls n hf o.ecuMap l
    obtain ⟨e, he⟩ := h1.2 ⟨t, h⟩
    rw [he, h2 _ he]
  · obtain ⟨h1, h2⟩ := C14_legacy_exact o.cls hf o.ecuMap l
    obtain ⟨e, he⟩ := h1.2 h
    rw [he, h2 _ he]

/-- C14, all protocols: parsing raises exactly on the replies that `Trips` describes. -/
theorem C14_exact (p : Proto) (map : Dict (Option Nat) Nat) (lines : List Str) (e : Exc) :
    p.call map lines = .error e ↔ e = .indexError ∧ Trips p lines := by
  constructor
  · intro h; exact trips_of (o := ⟨p, map⟩) h
  · rintro ⟨rfl, h⟩; exact trips_raises (o := ⟨p, map⟩) h

theorem call_frames {o : ProtoObj} {l : List Str} {ms : List Message} (h : o.call l = .ok ms) : ∀ m ∈ ms, m.frames ≠ [] := by
  obtain ⟨-, rfl⟩ := (call_ok_iff _ _ _ _).1 h
  intro m hm
  rcases List.mem_append.1 hm with hm | hm
  · unfold ecuMessages at hm
    obtain ⟨t, ht, he⟩ := List.mem_filterMap.1 hm
    split at he
    · cases he
      exact fun h0 => (fromTx_empty.1 h0) ht
    · cases he
  · obtain ⟨y, -, rfl⟩ := List.mem_map.1 hm
    simp [chatter]

theorem protocolOf_live {s : OW} {e : Elm} {o : ProtoObj} (h : Live s e o) : protocolOf s = some o.cls := by
  simp [protocolOf, h.iface, h.proto]

/-! ### close -/

/-- The property in full: `close()` returns, the object is closed, and closing it again does nothing. -/
def C52_full : Prop :=
  ∀ (dev : Device) (fl : Str → Option PyFloat) (s : OW), Reachable dev fl s →
    ∃ s', close dev s = (.ok (), s') ∧ Closed s' ∧ ∀ dev', close dev' s' = (.ok (), s')

theorem closed_none (s : OW) (hi : s.interface = none) (hs : s.supported = []) : Closed s ∧ ∀ dev', close dev' s = (.ok (), s) := by
  obtain ⟨i, sup, f, lc, lh, fc, h⟩ := s
  simp only at hi hs
  subst hi hs
  exact ⟨⟨rfl, fun _ => rfl, rfl, rfl, rfl⟩, fun _ => rfl⟩

/-- What `close()` does, in every state and with every device: it returns and the object is
closed; or the adapter vanished before the final reset could be written, then AttributeError, and
the object is not connected; or the header had to be set back and the adapter answered that
with a reply on which the parser fails. -/
theorem C52_partial (dev : Device) (fl : Str → Option PyFloat) (s : OW) (hr : Reachable dev fl s) :
    ∃ r s', close dev s = (r, s') ∧
      (r = .ok () ∧ Closed s' ∧ (∀ dev', close dev' s' = (.ok (), s')) ∨
       r = .error .attributeError ∧ status s' = .notConnected ∧ (∀ c, supports s' c = false) ∧ portName s' = [] ∧
         (∃ pre, s'.hist = pre ++ [.write (line (ascii "ATZ")) false, .close]) ∧
         (∀ dev', ∃ s'', close dev' s' = (.ok (), s'') ∧ Closed s'' ∧ s''.hist = s'.hist) ∨
       r = .error .indexError ∧ (∀ c, supports s' c = false) ∧ BadReply s s' (headerLine engineHeader)) := by
  have hsnd := reachable_sound hr
  by_cases hst : status s = .notConnected
  · refine ⟨_, _, close_nc hsnd hst, Or.inl ⟨rfl, ?_⟩⟩
    exact closed_none _ rfl rfl
  · obtain ⟨e, o, hl⟩ := live_of_sound hsnd hst
    have hlive : Live { s with supported := [] } e o := ⟨hl.iface, hl.status, hl.port, hl.proto⟩
    have hsnd' : OSound { s with supported := [] } := hsnd
    have hc : close dev s = (setHeader dev engineHeader >>= fun _ => onInterface (ElmM.close dev) >>= fun _ =>
        PyM.modify (fun s => { s with interface := none })) { s with supported := [] } := by
      unfold close
      rw [PyM.bind_ok (show PyM.modify _ s = (.ok (), _) from rfl), PyM.bind_ok (show PyM.get _ = (.ok _, _) from rfl)]
      simp only [hl.iface]
    -- what happens after the header was set
    have tail : ∀ t : OW, OSound t → t.supported = [] → t.interface ≠ none →
        ∃ r s', (onInterface (ElmM.close dev) >>= fun _ => PyM.modify (fun s => { s with interface := none })) t = (r, s') ∧
        (r = .ok () ∧ Closed s' ∧ (∀ dev', close dev' s' = (.ok (), s')) ∨
         r = .error .attributeError ∧ status s' = .notConnected ∧ (∀ c, supports s' c = false) ∧ portName s' = [] ∧
         (∃ pre, s'.hist = pre ++ [.write (line (ascii "ATZ")) false, .close]) ∧
         (∀ dev', ∃ s'', close dev' s' = (.ok (), s'') ∧ Closed s'' ∧ s''.hist = s'.hist)) := by
      intro t ht hsup hi
      cases hti : t.interface with
      | none => exact absurd hti hi
      | some e1 =>
        have hon : ∀ r, ElmM.close dev ⟨e1, t.hist⟩ = r →
            onInterface (ElmM.close dev) t = (r.1, { t with interface := some r.2.elm, hist := r.2.hist }) := by
          intro r h1; unfold onInterface; rw [hti]; simp only [h1]
        cases hp : e1.port with
        | none =>
          refine ⟨_, _, ?_, Or.inl ⟨rfl, closed_none { t with interface := none } rfl hsup⟩⟩
          rw [PyM.bind_ok (hon _ (elmClose_none hp))]; rfl
        | some p =>
          rcases write_some dev (ascii "ATZ") ⟨{ e1 with status := .notConnected, protocol := none }, t.hist⟩ p hp with hw | hw
          · refine ⟨_, _, ?_, Or.inl ⟨rfl, closed_none { t with interface := none, hist := t.hist ++ [.write (line (ascii "ATZ")) true] ++ [.close] } rfl hsup⟩⟩
            have h1 : ElmM.close dev ⟨e1, t.hist⟩ = (.ok (),
                ⟨{ e1 with status := .notConnected, protocol := none, port := none }, t.hist ++ [.write (line (ascii "ATZ")) true] ++ [.close]⟩) := by
              unfold ElmM.close
              rw [PyM.bind_ok (show ElmM.modifyElm _ _ = (.ok (), _) from rfl), PyM.bind_ok (show ElmM.getElm _ = (.ok _, _) from rfl)]
              simp only [hp]
              rw [PyM.bind_ok (show ElmM.write dev (ascii "ATZ") _ = (.ok (), _) from rfl)]
              rw [hp] at hw
              rw [hw]
              rw [PyM.bind_ok (show ElmM.getElm _ = (.ok _, _) from rfl)]
              rfl
            rw [PyM.bind_ok (hon _ h1)]; rfl
          · have h1 : ElmM.close dev ⟨e1, t.hist⟩ = (.error .attributeError,
                ⟨{ e1 with status := .notConnected, protocol := none, port := none }, t.hist ++ [.write (line (ascii "ATZ")) false, .close]⟩) := by
              unfold ElmM.close
              rw [PyM.bind_ok (show ElmM.modifyElm _ _ = (.ok (), _) from rfl), PyM.bind_ok (show ElmM.getElm _ = (.ok _, _) from rfl)]
              simp only [hp]
              rw [PyM.bind_ok (show ElmM.write dev (ascii "ATZ") _ = (.ok (), _) from rfl)]
              rw [hp] at hw
              rw [hw]
              rw [PyM.bind_ok (show ElmM.getElm _ = (.ok _, _) from rfl)]
              rfl
            have h2 := hon _ h1
            refine ⟨_, { t with interface := some { e1 with status := .notConnected, protocol := none, port := none }
                                hist := t.hist ++ [.write (line (ascii "ATZ")) false, .close] }, ?_, Or.inr ⟨rfl, rfl, ?_, rfl, ⟨_, rfl⟩, ?_⟩⟩
            · rw [PyM.bind_apply, h2]
            · intro c; simp [supports, hsup]
            · intro dev'
              have hs2 : OSound { t with interface := some { e1 with status := .notConnected, protocol := none, port := none }
                                         hist := t.hist ++ [.write (line (ascii "ATZ")) false, .close] } := by
                have := osound_on (m := ElmM.close dev) (ElmM.sound_close dev) t ht
                rw [h2] at this
                exact this
              exact ⟨_, close_nc hs2 rfl, (closed_none _ rfl rfl).1, rfl⟩
    rw [hc]
    have fin : ∀ t : OW, setHeader dev engineHeader { s with supported := [] } = (.ok (), t) → t.supported = [] → t.interface ≠ none →
        ∃ r s', (setHeader dev engineHeader >>= fun _ => onInterface (ElmM.close dev) >>= fun _ =>
          PyM.modify (fun s => { s with interface := none })) { s with supported := [] } = (r, s') ∧
        (r = .ok () ∧ Closed s' ∧ (∀ dev', close dev' s' = (.ok (), s')) ∨
         r = .error .attributeError ∧ status s' = .notConnected ∧ (∀ c, supports s' c = false) ∧ portName s' = [] ∧
           (∃ pre, s'.hist = pre ++ [.write (line (ascii "ATZ")) false, .close]) ∧
           (∀ dev', ∃ s'', close dev' s' = (.ok (), s'') ∧ Closed s'' ∧ s''.hist = s'.hist) ∨
         r = .error .indexError ∧ (∀ c, supports s' c = false) ∧ BadReply s s' (headerLine engineHeader)) := by
      intro t ht h1 h2
      have hts : OSound t := by
        have := kept_setHeader (ostable_sound dev) engineHeader _ hsnd'
        rw [ht] at this; exact this
      obtain ⟨r, s', h3, h4⟩ := tail t hts h1 h2
      refine ⟨r, s', by rw [PyM.bind_ok ht]; exact h3, ?_⟩
      rcases h4 with h4 | h4
      · exact Or.inl h4
      · exact Or.inr (Or.inl h4)
    by_cases hh : engineHeader = s.lastHeader
    · exact fin _ (setHeader_same (s := { s with supported := [] }) hh) rfl (by simp [hl.iface])
    · rcases setHeader_cases (dev := dev) hlive hh with ⟨pre, l, evs, x, h1, h2, h3, h4⟩ | ⟨pre, l, evs, ms, h1, h2, h3, h4⟩ | ⟨evs, h1, h4⟩
      · obtain ⟨rfl, ht⟩ := trips_of h3
        refine ⟨_, _, by rw [PyM.bind_apply, h4], Or.inr (Or.inr ⟨rfl, fun c => rfl, ?_⟩)⟩
        exact ⟨o.cls, evs, l, protocolOf_live hl, rfl, dialogue_ends (h := []) h2, ht⟩
      · exact fin _ h4 rfl (by simp [woken])
      · exact fin _ h4 rfl (by simp [dropped])


theorem not_trips_ok (p : Proto) : ¬ Trips p ["OK".toList] := by
  have hf : ∀ t, framesBy p t ["OK".toList] = [] := by
    intro t
    have : ["OK".toList].filterMap (lineFrame? p) = [] := by cases p <;> decide +kernel
    unfold framesBy; rw [this]; rfl
  rintro (⟨n, t, -, h⟩ | ⟨-, t, mode, h, -⟩)
  · rw [hf] at h
    cases h with
    | single a rest h => simp at h
    | segmented first bs cfs h1 => simp at h1
  · rw [hf] at h; simp at h

/-- `close()` succeeds if changes of the header are answered `OK` and the final reset can be written. -/
theorem C52_succeeds (dev : Device) (fl : Str → Option PyFloat) (s : OW) (hr : Reachable dev fl s)
    (ho : Obedient (close dev s).2.hist) (hz : .write (line (ascii "ATZ")) false ∉ (close dev s).2.hist) :
    ∃ s', close dev s = (.ok (), s') ∧ Closed s' ∧ ∀ dev', close dev' s' = (.ok (), s') := by
  obtain ⟨r, s', h1, h2⟩ := C52_partial dev fl s hr
  rw [h1] at ho hz
  rcases h2 with ⟨rfl, h2, h3⟩ | ⟨-, -, -, -, ⟨pre, h2⟩, -⟩ | ⟨-, -, p, evs, l, -, h3, h3', h4⟩
  · exact ⟨s', h1, h2, h3⟩
  · exact absurd (by rw [h2]; simp) hz
  · have := ho _ _ (by rw [h3]; exact ends_answered h3')
    subst this
    exact absurd h4 (not_trips_ok p)

/-- The demo adapter, unplugged after the engine speed was queried. -/
def unpluggedMidway : Device := { demo table with
  write := fun h b => !(h.any (fun e => match e with | .write b _ => b == ascii "010C\r" | _ => false) && b == ascii "ATZ\r") }

/-- C52 does not hold in full: the adapter is unplugged, `close()` raises AttributeError. -/
theorem C52_refuted : ¬ C52_full := by
  intro h
  have hc := constructed_of (dev := unpluggedMidway) (fl := fl0) (a := { portstr := some "COM1".toList }) (by decide +kernel)
  obtain ⟨s', h1, -⟩ := h unpluggedMidway fl0 _ ⟨_, _, [.query rpmCommand true], hc, rfl⟩
  have : (close unpluggedMidway (session unpluggedMidway fl0 [.query rpmCommand true]
      (ObdM.construct unpluggedMidway fl0 [] (some "COM1".toList) true {}).2)).1 = .error .attributeError := by decide +kernel
  rw [h1] at this
  cases this

/-- The demo car, asked under another header and then closed. -/
example : ∃ s', close (demo table) (session (demo table) fl0 [.query { rpmCommand with header := ascii "7E1" } true] (demoObd true)) = (.ok (), s') ∧
    Closed s' ∧ ∀ dev', close dev' s' = (.ok (), s') :=
  C52_succeeds _ fl0 _ ⟨_, _, _, demoObd_constructed true, rfl⟩ (obedient_of (by decide +kernel)) (by decide +kernel)

/-! ### query -/

/-- The property in full: a query of a command of the tables returns. -/
def C53_full : Prop :=
  ∀ (dev : Device) (fl : Str → Option PyFloat) (s : OW), Reachable dev fl s → ∀ c ∈ allCommands, ∀ force,
    ∃ r s', query dev fl c force s = (.ok r, s')

theorem table_modes : ∀ c ∈ allCommands, ∃ md, c.mode = .ok md := by
  have h : ∀ c ∈ allCommands, c.mode.toOption.isSome = true := by decide +kernel
  intro c hc
  have := h c hc
  cases hm : c.mode with
  | ok md => exact ⟨md, rfl⟩
  | error e => rw [hm] at this; cases this

theorem table_headers : ∀ c ∈ allCommands, c.header = engineHeader := by decide +kernel

theorem build_string (s : OW) (c : OBDCommand) : buildCommand s c = [] ∨ CommandString c (buildCommand s c) := by
  unfold buildCommand
  split
  · exact Or.inl rfl
  · right
    unfold withCount
    split
    · split
      · exact Or.inr ⟨_, rfl⟩
      · exact Or.inl rfl
    · exact Or.inl rfl

/-- A failing call of a command of the tables. -/
theorem table_call {fl : ElmM.FloatFn} {c : OBDCommand} (hc : c ∈ allCommands) {o : ProtoObj} {l : List Str} {ms : List Message}
    (hms : o.call l = .ok ms) {x : Exc} (h : c.call fl ms = .error x) : x = .indexError ∧ (c.name = "AIR_STATUS" ∨ c.name = "DTC_AIR_STATUS") ∧
      ∃ before m after x y A, ms = before ++ m :: after ∧ (∀ b ∈ before, ¬ Overlap c.ecu b.ecu) ∧ Overlap c.ecu m.ecu ∧
        fit 3 m.data = [x, y, A] ∧ A.toNat ∈ [0x10, 0x20, 0x40, 0x80] := by
  obtain ⟨h1, m, rest, x', y, A, h2, h3, h4⟩ := (C27_raises_iff_partial fl c hc ms (call_frames hms)).1 ⟨x, h⟩
  have h5 := C36_air_status_partial fl c h1 ms m rest h2 x' y A h3
  rw [if_pos h4, h] at h5
  obtain ⟨before, after, hb1, hb2, hb3, -⟩ := List.filter_eq_cons_iff.1 h2
  refine ⟨by cases h5; rfl, ?_, before, m, after, x', y, A, hb1, by simpa using hb2, by simpa using hb3, h3, h4⟩
  have hname : ∀ s, some c = byName s → c.name = s := by
    intro s hs
    have := List.find?_some hs.symm
    simpa using this
  simp only [List.map_cons, List.map_nil, List.mem_cons, List.not_mem_nil, or_false] at h1
  rcases h1 with h1 | h1
  · exact Or.inl (hname _ h1)
  · exact Or.inr (hname _ h1)

theorem body_error {dev : Device} {fl : ElmM.FloatFn} {c : OBDCommand} (hc : c ∈ allCommands) {s : OW} {e : Elm} {o : ProtoObj} (hl : Live s e o) {x : Exc} {s' : OW}
    (h : body dev fl c s = (.error x, s')) : x = .indexError ∧ ∃ cmd, (cmd = [] ∨ CommandString c cmd) ∧ (BadReply s s' cmd ∨ BadAir s s' c cmd) := by
  rcases body_cases (dev := dev) (fl := fl) (c := c) hl with ⟨pre, l, evs, y, h1, h2, h3, h4⟩ | ⟨pre, l, evs, ms, h1, h2, h3, h4⟩ | ⟨evs, h1, h4⟩ <;> rw [h4] at h
  · cases h
    obtain ⟨h5, h6⟩ := trips_of h3
    exact ⟨h5, _, build_string s c, Or.inl ⟨o.cls, evs, l, protocolOf_live hl, rfl, dialogue_ends (h := []) h2, h6⟩⟩
  · have h5 := congrArg Prod.fst h
    have h6 := (congrArg Prod.snd h).symm
    simp only at h5 h6
    by_cases hm : ms = []
    · rw [if_pos hm] at h5; cases h5
    · rw [if_neg hm] at h5
      obtain ⟨h7, h8, before, m, after, x, y, A, h9⟩ := table_call hc h3 h5
      refine ⟨h7, _, build_string s c, Or.inr ⟨h8, e, o, evs, l, ms, before, m, after, x, y, A, hl.iface, hl.proto, ?_, dialogue_ends (h := []) h2, h3, h9⟩⟩
      rw [h6]; rfl
  · cases h

/-- The only ways in which a query of a command of the tables can fail: a reply on which the
parser fails; a secondary air status with a reserved bit; the loss of the connection while the
header is being changed. -/
theorem C53_partial (dev : Device) (fl : Str → Option PyFloat) (s : OW) (hr : Reachable dev fl s) (c : OBDCommand) (hc : c ∈ allCommands)
    (force : Bool) (x : Exc) (s' : OW) (h : query dev fl c force s = (.error x, s')) :
    x = .indexError ∧ (∃ cmd, (cmd = headerLine c.header ∧ s.lastHeader ≠ c.header ∨ cmd = [] ∨ CommandString c cmd) ∧
      (BadReply s s' cmd ∨ BadAir s s' c cmd)) ∨
    x = .typeError ∧ LostAtHeader s s' c.header ∧ s.lastHeader ≠ c.header := by
  have hsnd := reachable_sound hr
  rcases query_cases dev fl c force s with ⟨h1, -⟩ | ⟨y, h1, hst, -, h2⟩ | ⟨h1, hst, -⟩
  · rw [h1] at h; cases h
  · obtain ⟨e, o, hl⟩ := live_of_sound hsnd hst
    obtain ⟨md, hmd⟩ := table_modes c hc
    obtain ⟨b, hb, -⟩ := testCmd_live hl.iface hl.proto hmd
    rw [hb] at h2; cases h2
  · obtain ⟨e, o, hl⟩ := live_of_sound hsnd hst
    rw [h1, exchange_eq] at h
    by_cases hh : c.header = s.lastHeader
    · rw [PyM.bind_ok (setHeader_same hh)] at h
      obtain ⟨h2, cmd, h3, h4⟩ := body_error hc hl h
      exact Or.inl ⟨h2, cmd, Or.inr h3, h4⟩
    · rcases setHeader_cases (dev := dev) hl hh with ⟨pre, l, evs, y, h2, h3, h4, h5⟩ | ⟨pre, l, evs, ms, h2, h3, h4, h5⟩ | ⟨evs, h2, h5⟩
      · rw [PyM.bind_apply, h5] at h
        cases h
        obtain ⟨h6, h7⟩ := trips_of h4
        exact Or.inl ⟨h6, _, Or.inl ⟨rfl, fun hn => hh hn.symm⟩, Or.inl ⟨o.cls, evs, l, protocolOf_live hl, rfl, dialogue_ends (h := []) h3, h7⟩⟩
      · rw [PyM.bind_ok h5] at h
        have hl' : Live { woken s e evs with lastHeader := if ackd ms then c.header else s.lastHeader } { e with lowPower := false } o :=
          ⟨rfl, hl.status, hl.port, hl.proto⟩
        obtain ⟨h6, cmd, h7, h8⟩ := body_error hc hl' h
        refine Or.inl ⟨h6, cmd, Or.inr h7, ?_⟩
        rcases h8 with ⟨p, evs', l', h9, hh', h10, h11⟩ | ⟨h9, e', o', evs', l', ms', before, m, after, x, y, A, h10, h11, hh', h12, h13⟩
        · refine Or.inl ⟨p, evs ++ evs', l', ?_, by rw [hh']; simp [woken], ends_append h10, h11⟩
          rw [protocolOf_live hl'] at h9; rw [protocolOf_live hl]; exact h9
        · rw [hl'.iface] at h10
          cases h10
          rw [hl'.proto] at h11
          cases h11
          exact Or.inr ⟨h9, e, o, evs ++ evs', l', ms', before, m, after, x, y, A, hl.iface, hl.proto, by rw [hh']; simp [woken], ends_append h12, h13⟩
      · rw [PyM.bind_ok h5, body_nc (e := { lost e with lowPower := false }) rfl rfl] at h
        have h6 := congrArg Prod.fst h
        have h7 := (congrArg Prod.snd h).symm
        simp only at h6 h7
        right
        refine ⟨?_, ⟨evs, wake e, ?_, ?_, h2⟩, fun hn => hh hn.symm⟩
        · split at h6 <;> cases h6; rfl
        · rw [h7]; rfl
        · unfold wake; split
          · exact Or.inr rfl
          · exact Or.inl rfl

/-- Queries with the default header keep it. -/
theorem kept_header (dev : Device) (fl : ElmM.FloatFn) (c : OBDCommand) (hc : c.header = engineHeader) (force : Bool) :
    Kept (fun s : OW => s.lastHeader = engineHeader) (query dev fl c force) := by
  intro s h
  rcases query_cases dev fl c force s with ⟨h1, -⟩ | ⟨x, h1, -⟩ | ⟨h1, hst, -⟩
  · rw [h1]; exact h
  · rw [h1]; exact h
  · rw [h1, exchange_eq, PyM.bind_ok (setHeader_same (by rw [hc, h]))]
    unfold body
    rw [PyM.bind_ok (show PyM.get s = (.ok s, s) from rfl)]
    refine (?_ : Kept (fun s : OW => s.lastHeader = engineHeader) _) s h
    refine Kept.bind ?_ (fun ms => ?_)
    · intro s h; unfold onInterface; split <;> exact h
    · refine Kept.bind ?_ (fun _ => Kept.bind ?_ (fun _ => ?_))
      · intro s h; rw [noteCommand_eq]; exact h
      · intro s h
        unfold noteFrames
        split
        · exact h
        · split <;> exact h
      · intro s h
        unfold ObdM.answer
        split
        · exact h
        · split
          · exact h
          · exact h

theorem kept_load (dev : Device) (fl : ElmM.FloatFn) (gs : List OBDCommand) (hg : ∀ g ∈ gs, g.header = engineHeader) :
    Kept (fun s : OW => s.lastHeader = engineHeader) (loadLoop dev fl gs) := by
  induction gs with
  | nil => exact Kept.pure _
  | cons g gs ih =>
    have ih := ih (fun g h => hg g (List.mem_cons_of_mem _ h))
    unfold loadLoop
    refine Kept.bind Kept.get (fun s => Kept.bind (Kept.ofExcept _) (fun b => ?_))
    split
    · exact ih
    · refine Kept.bind (kept_header dev fl g (hg g (by simp)) false) (fun r => ?_)
      split
      · exact ih
      · refine Kept.bind (Kept.ofExcept _) (fun _ => Kept.bind (Kept.ofExcept _) (fun _ => Kept.bind ?_ (fun _ => ih)))
        intro s h; exact h

theorem kept_loadLoop_some (dev : Device) (fl : ElmM.FloatFn) (gs : List OBDCommand) : Kept (fun s : OW => s.interface ≠ none) (loadLoop dev fl gs) := by
  have hon : ∀ {α : Type} (m : ElmM α), Kept (fun s : OW => s.interface ≠ none) (onInterface m) := by
    intro α m s h; unfold onInterface; split
    · next hi => exact absurd hi h
    · simp
  have hst : OStable dev (fun s : OW => s.interface ≠ none) :=
    { send := fun cmd _ => hon _, attrs := fun _ _ _ _ h => h, sup := fun _ _ h => h }
  exact kept_loadLoopOn hst fl gs (fun c _ => sends_true c)

theorem constructed_lastHeader {dev : Device} {fl : ElmM.FloatFn} {a : Args} {s : OW} (h : Constructed dev fl a s) :
    status s = .notConnected ∨ s.lastHeader = engineHeader := by
  unfold Constructed construct at h
  obtain ⟨_, s1, h1, h2⟩ := bind_inv h
  unfold loadCommands at h2
  rw [PyM.bind_ok (show PyM.get s1 = (.ok s1, s1) from rfl)] at h2
  rcases connect_attrs h1 with h3 | ⟨h3, -⟩
  · rw [if_pos (by rw [h3]; decide)] at h2
    cases h2
    exact Or.inl h3
  · right
    split at h2
    · cases h2; exact h3
    · have := kept_load dev fl pidGetters (by decide +kernel) s1 h3
      rw [h2] at this
      exact this

/-- After table commands only, the header is the default one. -/
theorem table_header (dev : Device) (fl : ElmM.FloatFn) (call : Call) (hc : TableCall call) (s : OW) (h : s.lastHeader = engineHeader) :
    (call.after dev fl s).lastHeader = engineHeader := by
  cases call with
  | query c force => exact kept_header dev fl c (table_headers c hc) force s h
  | lowPower =>
    simp only [Call.after, lowPower]
    refine (?_ : Kept (fun s : OW => s.lastHeader = engineHeader) _) s h
    refine Kept.bind Kept.get (fun s => ?_)
    split
    · exact Kept.pure _
    · intro s h; unfold onInterface; split <;> exact h
  | normalPower =>
    simp only [Call.after, normalPower]
    refine (?_ : Kept (fun s : OW => s.lastHeader = engineHeader) _) s h
    refine Kept.bind Kept.get (fun s => ?_)
    split
    · exact Kept.pure _
    · intro s h; unfold onInterface; split <;> exact h
  | close =>
    simp only [Call.after, close]
    rw [PyM.bind_ok (show PyM.modify _ s = (.ok (), _) from rfl), PyM.bind_ok (show PyM.get _ = (.ok _, _) from rfl)]
    cases hi : s.interface with
    | none => exact h
    | some e =>
      simp only
      rw [PyM.bind_ok (setHeader_same (by simpa using h.symm))]
      refine (?_ : Kept (fun s : OW => s.lastHeader = engineHeader) _) _ h
      refine Kept.bind ?_ (fun _ => ?_)
      · intro s h; unfold onInterface; split <;> exact h
      · intro s h; exact h

/-- If only commands of the tables have been queried, a query of such a command fails at most
because of a reply on which parser or decoder fail; in particular it survives that the adapter
is unplugged at any moment. -/
theorem C53_table_partial (dev : Device) (fl : Str → Option PyFloat) (a : Args) (s0 : OW) (hcon : Constructed dev fl a s0)
    (calls : List Call) (hcs : ∀ c ∈ calls, TableCall c) (c : OBDCommand) (hc : c ∈ allCommands) (force : Bool) (x : Exc) (s' : OW)
    (h : query dev fl c force (session dev fl calls s0) = (.error x, s')) :
    x = .indexError ∧ ∃ cmd, (cmd = [] ∨ CommandString c cmd) ∧
      (BadReply (session dev fl calls s0) s' cmd ∨ BadAir (session dev fl calls s0) s' c cmd) := by
  have hh : (session dev fl calls s0).lastHeader = engineHeader := by
    rcases constructed_lastHeader hcon with h0 | h0
    · exfalso
      rw [query_nc (session_nc dev fl calls (constructed_sound hcon) h0).2] at h
      cases h
    · clear hcon h
      induction calls generalizing s0 with
      | nil => exact h0
      | cons call calls ih =>
        exact ih (call.after dev fl s0) (fun c hc => hcs c (List.mem_cons_of_mem _ hc)) (table_header dev fl call (hcs call (by simp)) s0 h0)
  rcases C53_partial dev fl _ ⟨a, s0, calls, hcon, rfl⟩ c hc force x s' h with ⟨h1, cmd, ⟨-, h2⟩ | h2, h3⟩ | ⟨-, -, h1⟩
  · rw [hh, table_headers c hc] at h2
    exact absurd rfl h2
  · exact ⟨h1, cmd, h2, h3⟩
  · rw [hh, table_headers c hc] at h1
    exact absurd rfl h1

/-- The engine speed command of the tables. -/
def tableRpm : OBDCommand := (byName "RPM").getD rpmCommand

theorem mem_of_byName {n : String} {c : OBDCommand} (h : byName n = some c) : c ∈ allCommands := by
  unfold byName at h
  exact List.mem_reverse.1 (List.mem_of_find?_eq_some h)

theorem tableRpm_mem : tableRpm ∈ allCommands := by
  have h : (byName "RPM").isSome = true := by decide +kernel
  unfold tableRpm
  cases hb : byName "RPM" with
  | none => rw [hb] at h; cases h
  | some c => exact mem_of_byName hb

/-- `r` is the exception `x`. -/
def failsWith {α : Type} (x : Exc) : Except Exc α → Bool
  | .error y => decide (y = x)
  | .ok _ => false

theorem eq_of_failsWith {α : Type} {x : Exc} {r : Except Exc α} (h : failsWith x r = true) : r = .error x := by
  cases r with
  | ok a => cases h
  | error y => simp [failsWith] at h; rw [h]

/-- The demo car, sending the lone byte 43 as engine speed. -/
def oddCar : Device := demo (("010C", "7E8 01 43") :: table)

/-- C53 does not hold in full: a reply on which the parser fails. -/
theorem C53_refuted : ¬ C53_full := by
  intro h
  have hc := constructed_of (dev := oddCar) (fl := fl0) (a := { portstr := some "COM1".toList }) (by decide +kernel)
  obtain ⟨r, s', h1⟩ := h oddCar fl0 _ ⟨_, _, [], hc, rfl⟩ tableRpm tableRpm_mem true
  have : (query oddCar fl0 tableRpm true (session oddCar fl0 []
      (ObdM.construct oddCar fl0 [] (some "COM1".toList) true {}).2)).1 = .error .indexError := eq_of_failsWith (by decide +kernel)
  rw [h1] at this
  cases this

/-- C53 does not hold in full: the adapter is unplugged while the header is set back. -/
theorem C53_refuted_unplugged : ¬ C53_full := by
  intro h
  have hc := constructed_of (dev := demo table ["AT SH 7E0 "]) (fl := fl0) (a := { portstr := some "COM1".toList }) (by decide +kernel)
  obtain ⟨r, s', h1⟩ := h _ fl0 _ ⟨_, _, [.query { rpmCommand with header := ascii "7E1" } true], hc, rfl⟩ tableRpm tableRpm_mem true
  have : (query (demo table ["AT SH 7E0 "]) fl0 tableRpm true (session (demo table ["AT SH 7E0 "]) fl0 [.query { rpmCommand with header := ascii "7E1" } true]
      (ObdM.construct (demo table ["AT SH 7E0 "]) fl0 [] (some "COM1".toList) true {}).2)).1 = .error .typeError := eq_of_failsWith (by decide +kernel)
  rw [h1] at this
  cases this

/-- The hypotheses of the partial theorems are met by the witness above. -/
example : ∃ x s', query oddCar fl0 tableRpm true (session oddCar fl0 [.query tableRpm false]
      (ObdM.construct oddCar fl0 [] (some "COM1".toList) true {}).2) = (.error x, s') ∧ tableRpm ∈ allCommands ∧ TableCall (.query tableRpm false) := by
  have : (query oddCar fl0 tableRpm true (session oddCar fl0 [.query tableRpm false]
      (ObdM.construct oddCar fl0 [] (some "COM1".toList) true {}).2)).1 = .error .indexError := eq_of_failsWith (by decide +kernel)
  exact ⟨_, _, Prod.ext this rfl, tableRpm_mem, tableRpm_mem⟩

/-! ### objects without a connection -/

/-- The property in full. -/
def C63_full : Prop :=
  ∀ (dev : Device) (fl : Str → Option PyFloat) (s : OW), Reachable dev fl s → status s = .notConnected →
    Closed s ∧ ∀ c, ∃ b, testCmd s c = .ok b

/-- It does not hold: without any port, the base commands still count as supported, and
`test_cmd` of a mode 06 command raises. -/
theorem C63_refuted : ¬ C63_full := by
  intro h
  have hc : Constructed (demo table) fl0 {} (ObdM.construct (demo table) fl0 [] none true {}).2 :=
    constructed_of (dev := demo table) (fl := fl0) (a := {}) (by decide +kernel)
  have h1 : ∃ c ∈ baseCommands, testCmd (ObdM.construct (demo table) fl0 [] none true {}).2 c = .error .attributeError := by decide +kernel
  obtain ⟨c, -, h1⟩ := h1
  obtain ⟨-, h2⟩ := h (demo table) fl0 _ ⟨_, _, [], hc, rfl⟩ rfl
  obtain ⟨b, hb⟩ := h2 c
  rw [show session (demo table) fl0 [] (ObdM.construct (demo table) fl0 [] none true {}).2 = (ObdM.construct (demo table) fl0 [] none true {}).2 from rfl, h1] at hb
  cases hb

/-- What holds for every object that is not connected: the port name is empty, every query
gives a null response, and no call talks to a device. -/
theorem C63_partial (dev : Device) (fl : Str → Option PyFloat) (s : OW) (hr : Reachable dev fl s) (hs : status s = .notConnected) :
    portName s = [] ∧ (∀ c force, query dev fl c force s = (.ok {}, s)) ∧ lowPower dev s = (.ok none, s) ∧ normalPower dev s = (.ok none, s) ∧
    (∃ s', close dev s = (.ok (), s') ∧ Closed s' ∧ s'.hist = s.hist) := by
  have hsnd := reachable_sound hr
  refine ⟨?_, fun c force => query_nc hs, lowPower_nc hs, normalPower_nc hs, ?_⟩
  · unfold portName
    cases hi : s.interface with
    | none => rfl
    | some e =>
      have : e.port = none := ((hsnd.2 e hi).2.1).1 (status_none hs e hi)
      simp [Elm.portName, this]
  · exact ⟨_, close_nc hsnd hs, (closed_none _ rfl rfl).1, rfl⟩

/-- A closed object: `test_cmd` is False for every command. -/
theorem C63_closed (s : OW) (h : Closed s) (c : OBDCommand) : testCmd s c = .ok false := by
  unfold testCmd
  rw [if_pos (by simp [h.supported c])]
  rfl

/-- If there was a port to try and connecting failed on it, the object is closed. -/
theorem C63_failed (dev : Device) (fl : Str → Option PyFloat) (a : Args) (s : OW) (hc : Constructed dev fl a s)
    (hp : a.portstr ≠ none ∨ a.ports ≠ []) (hi : s.interface = none) : Closed s := by
  unfold Constructed construct at hc
  obtain ⟨_, s1, h1, h2⟩ := bind_inv hc
  have hi1 : s1.interface = none := by
    unfold loadCommands at h2
    rw [PyM.bind_ok (show PyM.get s1 = (.ok s1, s1) from rfl)] at h2
    by_cases hst : status s1 ≠ .carConnected
    · rw [if_pos hst] at h2; cases h2; exact hi
    · rw [if_neg hst] at h2
      cases hi1 : s1.interface with
      | none => simp [status, hi1] at hst
      | some e =>
        have := kept_loadLoop_some dev fl pidGetters s1 (by simp [hi1])
        rw [h2] at this
        exact absurd hi this
  have hs2 : s = s1 := by
    unfold loadCommands at h2
    rw [PyM.bind_ok (show PyM.get s1 = (.ok s1, s1) from rfl), if_pos (by simp [status, hi1])] at h2
    cases h2; rfl
  subst hs2
  have fin : ∀ t : OW, closeIfFailed dev t = (.ok (), s) → t.interface ≠ none → OSound t → Closed s := by
    intro t ht hne hsnd
    unfold closeIfFailed at ht
    rw [PyM.bind_ok (show PyM.get t = (.ok t, t) from rfl)] at ht
    by_cases hst : status t = .notConnected
    · rw [if_pos hst, close_nc hsnd hst] at ht
      cases ht
      exact (closed_none _ rfl rfl).1
    · rw [if_neg hst] at ht; cases ht; exact absurd hi hne
  unfold connect at h1
  cases hps : a.portstr with
  | some p =>
    rw [hps] at h1
    obtain ⟨_, s2, h3, h4⟩ := bind_inv h1
    have hsnd := openInterface_sound h3 ⟨shape_nil, by simp⟩
    obtain ⟨w, hw, rfl⟩ := openInterface_ok h3
    exact fin _ h4 (by simp) hsnd
  | none =>
    rw [hps] at h1
    have hne : a.ports ≠ [] := by
      rcases hp with hp | hp
      · exact absurd hps hp
      · exact hp
    simp only at h1
    rw [if_neg (by simpa using hne)] at h1
    obtain ⟨_, s2, h3, h4⟩ := bind_inv h1
    have hsnd := tryPorts_sound a.ports h3 ⟨shape_nil, by simp⟩
    obtain ⟨p, w, -, rfl⟩ := tryPorts_actual a.ports hne h3
    exact fin _ h4 (by simp) hsnd

/-- A dead port: the hypotheses of C63_failed hold. -/
example : Closed (ObdM.construct secondOnly fl0 ["COM1".toList] none true {}).2 :=
  C63_failed secondOnly fl0 { ports := ["COM1".toList] } _ (constructed_of (by decide +kernel)) (Or.inr (by simp)) (by decide +kernel)

end Props
