import Verif.Lemmas.Construct
import Verif.Spec.Exchange
/-!
# What a query sends
-/
namespace Model
open Py Spec

theorem sent_append (a b : History) : sent (a ++ b) = sent a ++ sent b := by simp [sent]

theorem sent_reads (bs : List Bytes) : sent (reads bs) = [] := by
  simp [sent, List.filterMap_eq_nil_iff]

theorem sent_dialogue {evs : History} {xs : List (Bytes × List Str)} (h : Dialogue evs xs) :
    sent evs = xs.map (fun x => line x.1) := by
  induction h with
  | nil => rfl
  | @cons cmd lines bs b evs xs hl hbs h ih =>
    have : sent (Event.write (line cmd) true :: (reads bs ++ .read (some b) :: evs)) = line cmd :: (sent (reads bs) ++ sent evs) := by
      simp [sent]
    rw [this, sent_reads, ih]; rfl

theorem sent_abort {cmd : Bytes} {evs : History} (h : Abort cmd evs) : sent evs = [line cmd] := by
  cases h with
  | onWrite => rfl
  | onRead bs hb =>
    have : sent (Event.write (line cmd) true :: (reads bs ++ [.read none, .close])) = line cmd :: (sent (reads bs) ++ []) := by
      simp [sent]
    rw [this, sent_reads]; rfl

theorem sent_broken {evs : History} {cmds : List Bytes} (h : Broken evs cmds) :
    ∃ pre suf, cmds = pre ++ suf ∧ pre ≠ [] ∧ sent evs = pre.map line := by
  obtain ⟨xs, c, suf, e1, e2, rfl, rfl, h1, h2⟩ := h
  refine ⟨xs.map Prod.fst ++ [c], suf, by simp, by simp, ?_⟩
  rw [sent_append, sent_dialogue h1, sent_abort h2]; simp

theorem Dialogue.noOpen {evs : History} {xs : List (Bytes × List Str)} (h : Dialogue evs xs) : NoOpen evs := by
  induction h with
  | nil => simp [NoOpen]
  | @cons cmd lines bs b evs xs hl hbs h ih =>
    refine notOpen_exchange cmd true bs _ ?_
    intro e he p r
    rcases List.mem_cons.1 he with rfl | he
    · simp
    · exact ih e he p r

theorem Abort.noOpen {cmd : Bytes} {evs : History} (h : Abort cmd evs) : NoOpen evs := by
  cases h with
  | onWrite => simp [NoOpen]
  | onRead bs hb => exact notOpen_exchange cmd true bs _ (by simp [NoOpen])

theorem Broken.cons {e1 evs : History} {x : Bytes × List Str} {cmds : List Bytes} (h1 : Dialogue e1 [x]) (h : Broken evs cmds) :
    Broken (e1 ++ evs) (x.1 :: cmds) := by
  obtain ⟨xs, c, suf, a, b, rfl, rfl, h2, h3⟩ := h
  exact ⟨x :: xs, c, suf, e1 ++ a, b, by simp, by simp, Dialogue.append h1 h2, h3⟩

theorem Broken.noOpen {evs : History} {cmds : List Bytes} (h : Broken evs cmds) : NoOpen evs := by
  obtain ⟨xs, c, suf, a, b, rfl, rfl, h2, h3⟩ := h
  intro e he p r
  rcases List.mem_append.1 he with he | he
  · exact Dialogue.noOpen h2 e he p r
  · exact Abort.noOpen h3 e he p r

/-- The result of sending, in terms of the specification. -/
theorem send_cases (dev : Device) (cmd : Bytes) (d : Bool) (m : Bytes) (w : EW) (hp : w.elm.port ≠ none) :
    (∃ l evs, Dialogue evs [(cmd, l)] ∧ ElmM.send dev cmd d m w = (.ok l, { w with hist := w.hist ++ evs })) ∨
    (∃ evs, Abort cmd evs ∧ ElmM.send dev cmd d m w = (.ok [], { elm := lost w.elm, hist := w.hist ++ evs })) := by
  rcases ElmM.send_outcome dev cmd d m w with ⟨h, -⟩ | ⟨p, l, w', -, he, hr⟩
  · exact absurd h hp
  · rw [he]
    cases hr with
    | replied bs b hb =>
      left
      refine ⟨_, _, Dialogue.cons (cleanLines_spec b) (fun x hx => linesOf_nil (hb x hx)) Dialogue.nil, rfl⟩
    | writeFailed => exact Or.inr ⟨_, .onWrite, rfl⟩
    | readFailed bs hb => exact Or.inr ⟨_, .onRead bs (fun x hx => linesOf_nil (hb x hx)), rfl⟩

theorem call_empty (o : ProtoObj) : o.call [] = .ok [] := by
  simp only [ProtoObj.call, Proto.call, obdLines, nonObdLines, List.map_nil, List.filter_nil, parseFrames]
  rfl

/-- The wake-up that precedes a command. -/
def wake (e : Elm) : List Bytes := if e.lowPower then [ascii " "] else []

theorem lost_lowPower (e : Elm) (b : Bool) : { lost e with lowPower := b } = lost { e with lowPower := b } := rfl

/-- The result of `send_and_parse` on a connected object. -/
theorem sendAndParse_cases (dev : Device) (cmd : Bytes) (w : EW) (o : ProtoObj) (hs : w.elm.status ≠ .notConnected)
    (hp : w.elm.port ≠ none) (ho : w.elm.protocol = some o) :
    (∃ pre l evs, pre.map Prod.fst = wake w.elm ∧ Dialogue evs (pre ++ [(cmd, l)]) ∧
      ElmM.sendAndParse dev cmd w = ((o.call l).map some, { elm := { w.elm with lowPower := false }, hist := w.hist ++ evs })) ∨
    (∃ evs, Broken evs (wake w.elm ++ [cmd]) ∧
      ElmM.sendAndParse dev cmd w = (.ok (some []), { elm := { lost w.elm with lowPower := false }, hist := w.hist ++ evs })) := by
  have main : ∀ w : EW, w.elm.protocol = some o →
      (do
        let lines ← ElmM.send dev cmd
        let e ← ElmM.getElm
        match e.protocol with
        | none => PyM.throw .typeError
        | some p =>
          let ms ← PyM.ofExcept (p.call lines)
          return some ms : ElmM (Option (List Message))) w =
        ((o.call (w.send dev cmd false elmPrompt).1).map some, (w.send dev cmd false elmPrompt).2) := by
    intro w ho
    have hpr : (w.send dev cmd false elmPrompt).2.elm.protocol = some o := by
      have := ElmM.send_outcome dev cmd false elmPrompt w
      simp only [ElmM.send, PyM.lift_apply, Prod.mk.injEq, Except.ok.injEq] at this
      rcases this with ⟨-, h1, h2⟩ | ⟨p, l, w', -, ⟨h1, h2⟩, hr⟩
      · rw [h2]; exact ho
      · rw [h2]
        cases hr <;> exact ho
    rw [PyM.bind_ok (show ElmM.send dev cmd false elmPrompt w = (.ok _, _) from rfl), PyM.bind_ok (show ElmM.getElm _ = (.ok _, _) from rfl)]
    rw [hpr]
    show (PyM.ofExcept (o.call (w.send dev cmd false elmPrompt).1) >>= fun ms => pure (some ms)) _ = _
    cases h : o.call (w.send dev cmd false elmPrompt).1 <;> rfl
  have mainc : ∀ w : EW, w.elm.port ≠ none → w.elm.protocol = some o → w.elm.lowPower = false →
      (∃ l evs, Dialogue evs [(cmd, l)] ∧ (w.send dev cmd false elmPrompt) = (l, { w with hist := w.hist ++ evs })) ∨
      (∃ evs, Abort cmd evs ∧ (w.send dev cmd false elmPrompt) = ([], { elm := lost w.elm, hist := w.hist ++ evs })) := by
    intro w hp _ _
    rcases send_cases dev cmd false elmPrompt w hp with ⟨l, evs, h1, h2⟩ | ⟨evs, h1, h2⟩
    · left; refine ⟨l, evs, h1, ?_⟩
      simp only [ElmM.send, PyM.lift_apply, Prod.mk.injEq, Except.ok.injEq] at h2
      exact Prod.ext h2.1 h2.2
    · right; refine ⟨evs, h1, ?_⟩
      simp only [ElmM.send, PyM.lift_apply, Prod.mk.injEq, Except.ok.injEq] at h2
      exact Prod.ext h2.1 h2.2
  unfold ElmM.sendAndParse
  rw [PyM.bind_ok (show ElmM.getElm w = (.ok w.elm, w) from rfl), if_neg hs]
  obtain ⟨⟨st, port, proto, lp, tmo⟩, hist⟩ := w
  simp only at hs hp ho ⊢
  cases lp with
  | false =>
    rw [if_neg (by simp)]
    simp only [wake]
    have hm := main { elm := ⟨st, port, proto, false, tmo⟩, hist := hist } ho
    rcases mainc { elm := ⟨st, port, proto, false, tmo⟩, hist := hist } hp ho rfl with ⟨l, evs, h1, h2⟩ | ⟨evs, h1, h2⟩
    · left
      refine ⟨[], l, evs, rfl, h1, Eq.trans hm ?_⟩
      rw [h2]
    · right
      refine ⟨evs, ⟨[], cmd, [], [], evs, rfl, rfl, .nil, h1⟩, Eq.trans hm ?_⟩
      rw [h2]; simp only [call_empty]; rfl
  | true =>
    rw [if_pos rfl]
    simp only [wake]
    have np : ∀ w : EW, w.elm.status ≠ .notConnected → w.elm.port ≠ none →
        (∃ l evs, Dialogue evs [(ascii " ", l)] ∧ ElmM.normalPower dev w = (.ok (some l), { elm := { w.elm with lowPower := false }, hist := w.hist ++ evs })) ∨
        (∃ evs, Abort (ascii " ") evs ∧ ElmM.normalPower dev w = (.ok (some []), { elm := { lost w.elm with lowPower := false }, hist := w.hist ++ evs })) := by
      intro w hs hp
      unfold ElmM.normalPower
      rw [PyM.bind_ok (show ElmM.getElm w = (.ok w.elm, w) from rfl), if_neg hs]
      rcases send_cases dev (ascii " ") false elmPrompt w hp with ⟨l, evs, h1, h2⟩ | ⟨evs, h1, h2⟩
      · left; refine ⟨l, evs, h1, ?_⟩; rw [PyM.bind_ok h2]; rfl
      · right; refine ⟨evs, h1, ?_⟩; rw [PyM.bind_ok h2]; rfl
    rcases np { elm := ⟨st, port, proto, true, tmo⟩, hist := hist } hs hp with ⟨l1, evs1, h1, h2⟩ | ⟨evs1, h1, h2⟩
    · rw [PyM.bind_ok h2]
      have hm := main { elm := ⟨st, port, proto, false, tmo⟩, hist := hist ++ evs1 } ho
      rcases mainc { elm := ⟨st, port, proto, false, tmo⟩, hist := hist ++ evs1 } hp ho rfl with ⟨l, evs, h3, h4⟩ | ⟨evs, h3, h4⟩
      · left
        refine ⟨[(ascii " ", l1)], l, evs1 ++ evs, rfl, Dialogue.append h1 h3, Eq.trans hm ?_⟩
        rw [h4]; simp only [List.append_assoc]
      · right
        refine ⟨evs1 ++ evs, ⟨[(ascii " ", l1)], cmd, [], evs1, evs, rfl, rfl, h1, h3⟩, Eq.trans hm ?_⟩
        rw [h4]; simp only [call_empty, List.append_assoc]; rfl
    · rw [PyM.bind_ok h2]
      have hm := main { elm := { lost ⟨st, port, proto, true, tmo⟩ with lowPower := false }, hist := hist ++ evs1 } ho
      right
      refine ⟨evs1, ⟨[], ascii " ", [cmd], [], evs1, rfl, rfl, .nil, h1⟩, Eq.trans hm ?_⟩
      rw [send_none (by rfl)]
      simp only [call_empty]; rfl

namespace ObdM

/-- A connected object. -/
structure Live (s : OW) (e : Elm) (o : ProtoObj) : Prop where
  iface : s.interface = some e
  status : e.status ≠ .notConnected
  port : e.port ≠ none
  proto : e.protocol = some o

theorem live_of_sound {s : OW} (h : OSound s) (hs : status s ≠ .notConnected) : ∃ e o, Live s e o := by
  cases hi : s.interface with
  | none => simp [status, hi] at hs
  | some e =>
    have h1 : e.status ≠ .notConnected := by simpa [status, hi] using hs
    obtain ⟨-, hl, hp⟩ := h.2 e hi
    cases ho : e.protocol with
    | none => exact absurd (hp ho) h1
    | some o => exact ⟨e, o, hi, h1, fun hq => h1 (hl.2 hq), ho⟩

/-- After a command got its reply. -/
def woken (s : OW) (e : Elm) (evs : History) : OW :=
  { s with interface := some { e with lowPower := false }, hist := s.hist ++ evs }

/-- After the connection was lost. -/
def dropped (s : OW) (e : Elm) (evs : History) : OW :=
  { s with interface := some { lost e with lowPower := false }, hist := s.hist ++ evs }

theorem Live.woken {s : OW} {e : Elm} {o : ProtoObj} (h : Live s e o) (evs : History) :
    Live (woken s e evs) { e with lowPower := false } o := ⟨rfl, h.status, h.port, h.proto⟩

theorem onSend {dev : Device} {cmd : Bytes} {s : OW} {e : Elm} {o : ProtoObj} (h : Live s e o) :
    (∃ pre l evs, pre.map Prod.fst = wake e ∧ Dialogue evs (pre ++ [(cmd, l)]) ∧
      onInterface (ElmM.sendAndParse dev cmd) s = ((o.call l).map some, woken s e evs)) ∨
    (∃ evs, Broken evs (wake e ++ [cmd]) ∧ onInterface (ElmM.sendAndParse dev cmd) s = (.ok (some []), dropped s e evs)) := by
  have he : ∀ r, ElmM.sendAndParse dev cmd ⟨e, s.hist⟩ = r →
      onInterface (ElmM.sendAndParse dev cmd) s = (r.1, { s with interface := some r.2.elm, hist := r.2.hist }) := by
    intro r hr
    unfold onInterface
    rw [h.iface]
    simp only
    rw [hr]
  rcases sendAndParse_cases dev cmd ⟨e, s.hist⟩ o h.status h.port h.proto with ⟨pre, l, evs, h1, h2, h3⟩ | ⟨evs, h1, h2⟩
  · exact Or.inl ⟨pre, l, evs, h1, h2, he _ h3⟩
  · exact Or.inr ⟨evs, h1, he _ h2⟩

/-- The reply that `__set_header` takes for an acknowledgement. -/
def ackd (ms : List Message) : Bool := !ms.isEmpty && decide (['\n'].intercalate (ms.map Message.raw) = "OK".toList)

theorem setHeader_same {dev : Device} {s : OW} {h : Bytes} (hh : h = s.lastHeader) : setHeader dev h s = (.ok (), s) := by
  unfold setHeader
  rw [PyM.bind_ok (show PyM.get s = (.ok s, s) from rfl), if_pos hh]; rfl

theorem setHeader_cases {dev : Device} {h : Bytes} {s : OW} {e : Elm} {o : ProtoObj} (hl : Live s e o) (hh : h ≠ s.lastHeader) :
    (∃ pre l evs x, pre.map Prod.fst = wake e ∧ Dialogue evs (pre ++ [(headerLine h, l)]) ∧ o.call l = .error x ∧
      setHeader dev h s = (.error x, woken s e evs)) ∨
    (∃ pre l evs ms, pre.map Prod.fst = wake e ∧ Dialogue evs (pre ++ [(headerLine h, l)]) ∧ o.call l = .ok ms ∧
      setHeader dev h s = (.ok (), { woken s e evs with lastHeader := if ackd ms then h else s.lastHeader })) ∨
    (∃ evs, Broken evs (wake e ++ [headerLine h]) ∧ setHeader dev h s = (.ok (), dropped s e evs)) := by
  unfold setHeader
  rw [PyM.bind_ok (show PyM.get s = (.ok s, s) from rfl), if_neg hh]
  rcases onSend (dev := dev) (cmd := headerLine h) hl with ⟨pre, l, evs, h1, h2, h3⟩ | ⟨evs, h1, h2⟩
  · cases hc : o.call l with
    | error x =>
      rw [hc] at h3
      left
      refine ⟨pre, l, evs, x, h1, h2, hc, ?_⟩
      rw [PyM.bind_apply]
      unfold headerLine at h3
      rw [h3]; rfl
    | ok ms =>
      rw [hc] at h3
      right; left
      refine ⟨pre, l, evs, ms, h1, h2, hc, ?_⟩
      unfold headerLine at h3
      rw [PyM.bind_ok h3]
      simp only [ackd]
      by_cases hm : ms.isEmpty = true
      · simp only [hm]; rfl
      · by_cases hj : ['\n'].intercalate (ms.map Message.raw) = "OK".toList
        · simp only [hm, hj]; rfl
        · simp only [hm, hj, ne_eq, not_false_eq_true, if_true]; rfl
  · right; right
    refine ⟨evs, h1, ?_⟩
    unfold headerLine at h2
    rw [PyM.bind_ok h2]; rfl

/-- The rest of a query once the header is set. -/
def body (dev : Device) (fl : ElmM.FloatFn) (c : OBDCommand) : ObdM Response := do
  let s ← PyM.get
  let messages ← onInterface (ElmM.sendAndParse dev (buildCommand s c))
  noteCommand (buildCommand s c)
  noteFrames c messages
  answer fl c messages

theorem exchange_eq (dev : Device) (fl : ElmM.FloatFn) (c : OBDCommand) :
    exchange dev fl c = (setHeader dev c.header >>= fun _ => body dev fl c) := rfl

/-- The attributes after a query that sent `str` for `c` and got `n` frames. -/
def noted (s : OW) (c : OBDCommand) (str : Bytes) (n : Nat) : OW :=
  { s with lastCommand := if str.isEmpty then s.lastCommand else str
           frameCounts := if s.frameCounts.mem c.key then s.frameCounts else s.frameCounts.set c.key n }

theorem noteCommand_eq (str : Bytes) (s : OW) :
    noteCommand str s = (.ok (), { s with lastCommand := if str.isEmpty then s.lastCommand else str }) := by
  unfold noteCommand
  split <;> rfl

theorem noteFrames_some (c : OBDCommand) (ms : List Message) (s : OW) : noteFrames c (some ms) s =
    (.ok (), { s with frameCounts := if s.frameCounts.mem c.key then s.frameCounts else s.frameCounts.set c.key (countFrames ms) }) := by
  unfold noteFrames
  split <;> rfl

theorem body_cases {dev : Device} {fl : ElmM.FloatFn} {c : OBDCommand} {s : OW} {e : Elm} {o : ProtoObj} (hl : Live s e o) :
    (∃ pre l evs x, pre.map Prod.fst = wake e ∧ Dialogue evs (pre ++ [(buildCommand s c, l)]) ∧ o.call l = .error x ∧
      body dev fl c s = (.error x, woken s e evs)) ∨
    (∃ pre l evs ms, pre.map Prod.fst = wake e ∧ Dialogue evs (pre ++ [(buildCommand s c, l)]) ∧ o.call l = .ok ms ∧
      body dev fl c s = (if ms = [] then .ok {} else c.call fl ms, noted (woken s e evs) c (buildCommand s c) (countFrames ms))) ∨
    (∃ evs, Broken evs (wake e ++ [buildCommand s c]) ∧
      body dev fl c s = (.ok {}, noted (dropped s e evs) c (buildCommand s c) 0)) := by
  unfold body
  rw [PyM.bind_ok (show PyM.get s = (.ok s, s) from rfl)]
  rcases onSend (dev := dev) (cmd := buildCommand s c) hl with ⟨pre, l, evs, h1, h2, h3⟩ | ⟨evs, h1, h2⟩
  · cases hc : o.call l with
    | error x =>
      rw [hc] at h3
      left
      refine ⟨pre, l, evs, x, h1, h2, hc, ?_⟩
      rw [PyM.bind_apply, h3]; rfl
    | ok ms =>
      rw [hc] at h3
      right; left
      refine ⟨pre, l, evs, ms, h1, h2, hc, ?_⟩
      rw [PyM.bind_ok h3, PyM.bind_ok (noteCommand_eq _ _), PyM.bind_ok (noteFrames_some _ _ _)]
      unfold answer
      cases ms with
      | nil => rfl
      | cons m ms => rfl
  · right; right
    refine ⟨evs, h1, ?_⟩
    rw [PyM.bind_ok h2, PyM.bind_ok (noteCommand_eq _ _), PyM.bind_ok (noteFrames_some _ _ _)]
    rfl

theorem body_nc {dev : Device} {fl : ElmM.FloatFn} {c : OBDCommand} {s : OW} {e : Elm} (he : s.interface = some e)
    (hs : e.status = .notConnected) :
    body dev fl c s = (if s.frameCounts.mem c.key then .ok {} else .error .typeError,
      { s with lastCommand := if (buildCommand s c).isEmpty then s.lastCommand else buildCommand s c }) := by
  unfold body
  rw [PyM.bind_ok (show PyM.get s = (.ok s, s) from rfl), PyM.bind_ok (onInterface_nc he hs), PyM.bind_ok (noteCommand_eq _ _)]
  rw [PyM.bind_apply]
  unfold noteFrames
  simp only
  by_cases h : s.frameCounts.mem c.key = true
  · rw [if_pos h, if_pos h]; rfl
  · rw [if_neg h, if_neg h]

/-- A query either does nothing (a null response, or raising in the support test), or talks. -/
theorem query_cases (dev : Device) (fl : ElmM.FloatFn) (c : OBDCommand) (force : Bool) (s : OW) :
    (query dev fl c force s = (.ok {}, s) ∧ (status s = .notConnected ∨ force = false ∧ testCmd s c = .ok false)) ∨
    (∃ x, query dev fl c force s = (.error x, s) ∧ status s ≠ .notConnected ∧ force = false ∧ testCmd s c = .error x) ∨
    (query dev fl c force s = exchange dev fl c s ∧ status s ≠ .notConnected ∧ (force = true ∨ testCmd s c = .ok true)) := by
  unfold query
  rw [PyM.bind_ok (show PyM.get s = (.ok s, s) from rfl)]
  by_cases hs : status s = .notConnected
  · left; rw [if_pos hs]; exact ⟨rfl, Or.inl hs⟩
  · rw [if_neg hs]
    cases force with
    | true => right; right; exact ⟨rfl, hs, Or.inl rfl⟩
    | false =>
      rw [if_neg (by simp)]
      cases ht : testCmd s c with
      | error x => right; left; exact ⟨x, rfl, hs, rfl, rfl⟩
      | ok b =>
        cases b with
        | true => right; right; exact ⟨rfl, hs, Or.inr rfl⟩
        | false => left; exact ⟨rfl, Or.inr ⟨rfl, rfl⟩⟩

end ObdM
end Model
