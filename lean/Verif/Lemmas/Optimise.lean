import Verif.Spec.Adapter
import Verif.Lemmas.Header
import Verif.Lemmas.EndToEnd
import Verif.Props.Serial
/-!
# A fast and a plain session on the same adapter
-/
namespace Model
open Py Spec

theorem request_write (h : History) (cmd : Bytes) :
    request (h ++ [.write (line cmd) true]) = if cmd = [] then request h else line cmd := by
  unfold request
  have h1 : written (h ++ [Event.write (line cmd) true]) = written h ++ [line cmd] := by simp [written]
  rw [h1, List.filter_append]
  by_cases hc : cmd = []
  · subst hc; simp
  · have h3 : (line cmd != line []) = true := by
      rw [bne_iff_ne]; intro h; exact hc (List.append_cancel_right h)
    rw [if_neg hc]
    simp [h3]

theorem request_quiet (h evs : History) (he : written evs = []) : request (h ++ evs) = request h := by
  unfold request
  have h1 : written (h ++ evs) = written h ++ written evs := by simp [written]
  rw [h1, he, List.append_nil]

theorem readLoop_fails (cs : List Bytes) (rest : List (Option Bytes)) (hc : ∀ c ∈ cs, c ≠ []) :
    ∀ buf : Bytes, (0x3E : UInt8) ∉ buf ++ cs.flatten → readLoop elmPrompt buf (cs.map some ++ none :: rest) = none := by
  induction cs with
  | nil => intro buf _; rfl
  | cons c cs ih =>
    intro buf hb
    have h1 : c.isEmpty = false := by
      cases c with
      | nil => exact absurd rfl (hc [] (by simp))
      | cons _ _ => rfl
    have h2 : isIn elmPrompt (buf ++ c) = false := by
      have := (Props.isIn_prompt (buf ++ c)).not.2 (fun hm => hb (by simp only [List.flatten_cons, ← List.append_assoc]; exact List.mem_append_left _ hm))
      simpa using this
    show (if c.isEmpty then some buf else if isIn elmPrompt (buf ++ c) then some (buf ++ c) else readLoop elmPrompt (buf ++ c) (cs.map some ++ none :: rest)) = none
    rw [h1, h2]
    exact ih (fun c hx => hc c (by simp [hx])) _ (by simpa using hb)

/-- One read from a faithful adapter. -/
theorem read_delivers {dev : Device} {w : EW} {p : Port} (hp : w.elm.port = some p) {r : Option (List Str)} (h : Delivers (dev.read w.hist) r) :
    (∃ lines b, r = some lines ∧ w.read dev elmPrompt = (lines, { w with hist := w.hist ++ [.read (some b)] })) ∨
    (r = none ∧ w.read dev elmPrompt = ([], { elm := lost w.elm, hist := w.hist ++ [.read none, .close] })) := by
  generalize hc : dev.read w.hist = ch at h
  cases h with
  | reply cs rest text lines hne ht hf hl =>
    left
    obtain ⟨h1, h2⟩ := Props.C39_chunks dev w p hp text ht cs rest hne hf hc
    refine ⟨lines, text ++ [0x3E], rfl, ?_⟩
    have h3 := Props.C39_unique _ _ _ h2 hl
    have h4 : (w.read dev elmPrompt).2.elm = w.elm := by
      unfold EW.read at h1 ⊢
      rw [hp] at h1 ⊢
      simp only at h1 ⊢
      cases hr : readLoop elmPrompt [] (dev.read w.hist) with
      | some b => rfl
      | none => rw [hr] at h1; simp at h1
    refine Prod.ext h3 ?_
    cases hw : (w.read dev elmPrompt).2 with
    | mk e h => rw [hw] at h1 h4; simp only at h1 h4; rw [h1, h4]
  | fails cs rest hne hpr =>
    right
    refine ⟨rfl, ?_⟩
    unfold EW.read
    rw [hp]
    simp only [hc]
    rw [readLoop_fails cs rest hne [] (by simpa using hpr)]
    rfl

namespace ObdM

/-- A command sent to an adapter that accepts it and delivers `r`. -/
theorem onSend_delivers {dev : Device} {cmd : Bytes} {s : OW} {e : Elm} {o : ProtoObj} (h : Live s e o)
    (hlp : e.lowPower = false) {r : Option (List Str)} (ha : ∀ h b, dev.write h b = true)
    (hd : Delivers (dev.read (s.hist ++ [.write (line cmd) true])) r) (hne : r ≠ some []) :
    (∃ lines b, r = some lines ∧ onInterface (ElmM.sendAndParse dev cmd) s =
      ((o.call lines).map some, { s with interface := some e, hist := s.hist ++ [.write (line cmd) true, .read (some b)] })) ∨
    (r = none ∧ onInterface (ElmM.sendAndParse dev cmd) s =
      (.ok (some []), { s with interface := some (lost e), hist := s.hist ++ [.write (line cmd) true, .read none, .close] })) := by
  obtain ⟨p, hp⟩ := Option.ne_none_iff_exists'.1 h.port
  have hw : EW.write dev cmd ⟨e, s.hist⟩ = ⟨e, s.hist ++ [.write (line cmd) true]⟩ := by
    unfold EW.write
    simp only [hp]
    rw [if_pos (ha _ _)]
    rfl
  have hsp : ∀ lines w', EW.send dev cmd false elmPrompt ⟨e, s.hist⟩ = (lines, w') → w'.elm.protocol = some o →
      ElmM.sendAndParse dev cmd ⟨e, s.hist⟩ = ((o.call lines).map some, w') := by
    intro lines w' hs' ho
    unfold ElmM.sendAndParse
    rw [PyM.bind_ok (show ElmM.getElm _ = (.ok e, _) from rfl), if_neg h.status, hlp]
    rw [if_neg (by simp)]
    show (ElmM.send dev cmd false elmPrompt >>= fun lines => ElmM.getElm >>= fun e => match e.protocol with
          | none => PyM.throw Exc.typeError
          | some p => PyM.ofExcept (p.call lines) >>= fun ms => pure (some ms) : ElmM (Option (List Message))) _ = _
    rw [PyM.bind_ok (show ElmM.send dev cmd false elmPrompt ⟨e, s.hist⟩ = (.ok lines, w') by unfold ElmM.send; rw [PyM.lift_apply, hs']),
      PyM.bind_ok (show ElmM.getElm _ = (.ok _, _) from rfl)]
    rw [ho]
    show (PyM.ofExcept (o.call lines) >>= fun ms => pure (some ms)) _ = _
    cases o.call lines <;> rfl
  have hon : ∀ x, ElmM.sendAndParse dev cmd ⟨e, s.hist⟩ = x →
      onInterface (ElmM.sendAndParse dev cmd) s = (x.1, { s with interface := some x.2.elm, hist := x.2.hist }) := by
    intro x hx
    unfold onInterface
    rw [h.iface]
    simp only
    rw [hx]
  rcases read_delivers (w := ⟨e, s.hist ++ [.write (line cmd) true]⟩) hp hd with ⟨lines, b, h1, h2⟩ | ⟨h1, h2⟩
  · left
    refine ⟨lines, b, h1, ?_⟩
    have hlines : lines.isEmpty = false := by
      cases lines with
      | nil => exact absurd h1 hne
      | cons _ _ => rfl
    have hsend : EW.send dev cmd false elmPrompt ⟨e, s.hist⟩ = (lines, ⟨e, s.hist ++ [.write (line cmd) true] ++ [.read (some b)]⟩) := by
      unfold EW.send
      rw [hw, h2]
      have : ∀ n (w : EW), EW.retry dev elmPrompt n (lines, w) = (lines, w) := by
        intro n w
        cases n with
        | zero => rfl
        | succ n => simp [EW.retry, hlines]
      exact this _ _
    rw [hon _ (hsp _ _ hsend h.proto)]
    simp
  · right
    refine ⟨h1, ?_⟩
    have hsend : EW.send dev cmd false elmPrompt ⟨e, s.hist⟩ = ([], ⟨lost e, s.hist ++ [.write (line cmd) true] ++ [.read none, .close]⟩) := by
      unfold EW.send
      rw [hw, h2]
      have : ∀ n (w : EW), w.elm.port = none → EW.retry dev elmPrompt n ([], w) = ([], w) := by
        intro n
        induction n with
        | zero => intro w _; rfl
        | succ n ih =>
          intro w hw
          simp only [EW.retry, List.isEmpty_nil, if_true]
          have : EW.read dev elmPrompt w = ([], w) := by unfold EW.read; rw [hw]
          rw [this]
          exact ih w hw
      exact this _ _ rfl
    rw [hon _ (hsp _ _ hsend h.proto)]
    simp [call_empty]
    rfl

/-- A command sent to a faithful adapter. -/
theorem onSend_faithful {dev : Device} {env : Answers} (hf : Faithful dev env) {cmd : Bytes} {s : OW} {e : Elm} {o : ProtoObj} (h : Live s e o)
    (hlp : e.lowPower = false) {r : Option (List Str)}
    (hr : env (s.hist.length + 1) (request (s.hist ++ [.write (line cmd) true])) = r) (hne : r ≠ some []) :
    (∃ lines b, r = some lines ∧ onInterface (ElmM.sendAndParse dev cmd) s =
      ((o.call lines).map some, { s with interface := some e, hist := s.hist ++ [.write (line cmd) true, .read (some b)] })) ∨
    (r = none ∧ onInterface (ElmM.sendAndParse dev cmd) s =
      (.ok (some []), { s with interface := some (lost e), hist := s.hist ++ [.write (line cmd) true, .read none, .close] })) := by
  have hd := hf.answers (s.hist ++ [.write (line cmd) true])
  rw [List.length_append, List.length_singleton, hr] at hd
  exact onSend_delivers h hlp hf.accepts hd hne

/-- The commands that a fast and a plain session may both be asked for. -/
structure Allowed (env : Answers) (o : ProtoObj) (c : OBDCommand) : Prop where
  header : c.header = engineHeader
  nonempty : c.command ≠ []
  req : c.fast = true → IsRequest c.command
  steady : Steady env o c

/-- A fast object `s` and a plain object `t` that have done the same so far. -/
structure Twins (env : Answers) (o : ProtoObj) (s t : OW) : Prop where
  iface : s.interface = t.interface
  sup : s.supported = t.supported
  fast : s.fast = true
  plain : t.fast = false
  time : s.hist.length = t.hist.length
  live : status s ≠ .notConnected → (∃ e, Live s e o ∧ e.lowPower = false) ∧ s.lastHeader = engineHeader ∧ t.lastHeader = engineHeader ∧
    (s.lastCommand ≠ [] → request s.hist = line s.lastCommand) ∧
    ∀ d, Allowed env o d → d.fast = true → ∀ n, s.frameCounts.get? d.key = some n → 1 ≤ n ∧ n ≤ 9 ∧
      ∀ k lines, env k (line d.command) = some lines → lines.length = n

theorem decBytes_digit {n : Nat} (hn : n ≤ 9) : decBytes n = [UInt8.ofNat (0x30 + n)] := by
  have : ∀ n : Fin 10, decBytes n = [UInt8.ofNat (0x30 + n)] := by decide
  exact this ⟨n, by omega⟩

/-- The two commands mean the same. -/
theorem twins_env {env : Answers} (hl : Limits env) {o : ProtoObj} {s t : OW} (h : Twins env o s t) (hst : status s ≠ .notConnected) {c : OBDCommand}
    (hc : Allowed env o c) (k : Nat) : env k (line (withCount s c)) = env k (line c.command) := by
  unfold withCount
  split
  · rename_i hfast
    rw [h.fast, Bool.true_and] at hfast
    cases hg : s.frameCounts.get? c.key with
    | none => rfl
    | some n =>
      obtain ⟨-, -, -, -, hcount⟩ := h.live hst
      obtain ⟨h1, h2, hn⟩ := hcount c hc hfast n hg
      simp only
      rw [decBytes_digit h2, hl k c.command n (hc.req hfast) h1 h2]
      cases hr : env k (line c.command) with
      | some lines => simp [← hn k lines hr]
      | none => rfl
  · rfl

theorem twins_request {env : Answers} {o : ProtoObj} {s t : OW} (h : Twins env o s t) (hst : status s ≠ .notConnected) {c : OBDCommand}
    (hc : Allowed env o c) : request (s.hist ++ [.write (line (buildCommand s c)) true]) = line (withCount s c) := by
  have hne : withCount s c ≠ [] := by
    unfold withCount
    split
    · split
      · simp [hc.nonempty]
      · exact hc.nonempty
    · exact hc.nonempty
  obtain ⟨-, -, -, hlast, -⟩ := h.live hst
  rw [request_write]
  unfold buildCommand
  rw [h.fast, Bool.true_and]
  by_cases he : withCount s c = s.lastCommand
  · have hb : (withCount s c == s.lastCommand) = true := by simpa using he
    simp only [hb, if_true]
    rw [hlast (he ▸ hne), he]
  · have hb : (withCount s c == s.lastCommand) = false := by simpa using he
    simp [hb, hne]

/-- The rest of a query, given what the adapter sent. -/
theorem body_of {dev : Device} {fl : ElmM.FloatFn} {c : OBDCommand} {s s' : OW} {ms : List Message}
    (h : onInterface (ElmM.sendAndParse dev (buildCommand s c)) s = (.ok (some ms), s')) :
    body dev fl c s = (if ms = [] then .ok {} else c.call fl ms, noted s' c (buildCommand s c) (countFrames ms)) := by
  unfold body
  rw [PyM.bind_ok (show PyM.get s = (.ok s, s) from rfl), PyM.bind_ok h, PyM.bind_ok (noteCommand_eq _ _), PyM.bind_ok (noteFrames_some _ _ _)]
  unfold answer
  cases ms with
  | nil => rfl
  | cons m ms => rfl

theorem build_plain {t : OW} (h : t.fast = false) (c : OBDCommand) : buildCommand t c = c.command := by
  unfold buildCommand withCount
  simp [h]

theorem twins_query {dev : Device} {env : Answers} (hf : Faithful dev env) (hl : Limits env) (fl : ElmM.FloatFn) {o : ProtoObj} {s t : OW}
    (h : Twins env o s t) {c : OBDCommand} (hc : status s ≠ .notConnected → Allowed env o c) (force : Bool) :
    (query dev fl c force s).1 = (query dev fl c force t).1 ∧ Twins env o (query dev fl c force s).2 (query dev fl c force t).2 := by
  have hstat : status s = status t := by unfold status; rw [h.iface]
  have htest : testCmd s c = testCmd t c := by unfold testCmd supports; rw [h.iface, h.sup]
  unfold query
  rw [PyM.bind_ok (show PyM.get s = (.ok s, s) from rfl), PyM.bind_ok (show PyM.get t = (.ok t, t) from rfl), ← hstat, ← htest]
  by_cases hst : status s = .notConnected
  · rw [if_pos hst]; exact ⟨rfl, h⟩
  rw [if_neg hst]
  replace hc := hc hst
  have main : (exchange dev fl c s).1 = (exchange dev fl c t).1 ∧ Twins env o (exchange dev fl c s).2 (exchange dev fl c t).2 := by
    obtain ⟨⟨e, hlive, hlp⟩, hh1, hh2, hlast, hcount⟩ := h.live hst
    have hlive' : Live t e o := ⟨h.iface ▸ hlive.iface, hlive.status, hlive.port, hlive.proto⟩
    rw [exchange_eq, PyM.bind_ok (setHeader_same (hc.header.trans hh1.symm)), PyM.bind_ok (setHeader_same (hc.header.trans hh2.symm))]
    have hreq1 := twins_request h hst hc
    have hreq2 : request (t.hist ++ [.write (line (buildCommand t c)) true]) = line c.command := by
      rw [build_plain h.plain, request_write, if_neg hc.nonempty]
    obtain ⟨n, hn⟩ := hc.steady
    generalize hr : env (t.hist.length + 1) (line c.command) = r
    have hne : r ≠ some [] := by
      intro h0
      subst h0
      exact (hn _ _ hr).1 rfl
    have hr1 : env (s.hist.length + 1) (request (s.hist ++ [.write (line (buildCommand s c)) true])) = r := by
      rw [hreq1, twins_env hl h hst hc, h.time, hr]
    have hr2 : env (t.hist.length + 1) (request (t.hist ++ [.write (line (buildCommand t c)) true])) = r := by rw [hreq2, hr]
    have hcmd : ∀ x, request ((s.hist ++ [Event.write (line (buildCommand s c)) true]) ++ x) =
        request (s.hist ++ [Event.write (line (buildCommand s c)) true]) → (if (buildCommand s c).isEmpty then s.lastCommand else buildCommand s c) ≠ [] →
        request ((s.hist ++ [Event.write (line (buildCommand s c)) true]) ++ x) = line (if (buildCommand s c).isEmpty then s.lastCommand else buildCommand s c) := by
      intro x hx hlc
      rw [hx, request_write]
      by_cases hb : buildCommand s c = []
      · rw [hb] at hlc ⊢
        rw [if_pos rfl]
        exact hlast hlc
      · rw [if_neg hb, if_neg (by simpa using hb)]
    rcases onSend_faithful hf hlive hlp hr1 hne with ⟨lines, b1, e1, g1⟩ | ⟨e1, g1⟩
    · rcases onSend_faithful hf hlive' hlp hr2 hne with ⟨lines', b2, e2, g2⟩ | ⟨e2, g2⟩
      · rw [e1] at e2
        cases e2
        rw [e1] at hr
        obtain ⟨-, ms, hms, hmsn⟩ := hn _ _ hr
        rw [hms] at g1 g2
        rw [body_of g1, body_of g2]
        refine ⟨rfl, ?_⟩
        constructor
        · exact rfl
        · exact h.sup
        · exact h.fast
        · exact h.plain
        · show (s.hist ++ _).length = (t.hist ++ _).length
          simp [h.time]
        · intro _
          refine ⟨⟨e, ⟨rfl, hlive.status, hlive.port, hlive.proto⟩, hlp⟩, hh1, hh2, ?_, ?_⟩
          · intro hlc
            have := hcmd [.read (some b1)] (request_quiet _ _ rfl) hlc
            rw [List.append_assoc] at this
            exact this
          · intro d hd hdf m hm
            by_cases hmem : s.frameCounts.mem c.key = true
            · refine hcount d hd hdf m ?_
              simp only [noted, hmem, if_true] at hm
              exact hm
            · simp only [noted, hmem] at hm
              by_cases hk : d.key = c.key
              · have hdc : d.command = c.command := congrArg Prod.fst hk
                obtain ⟨n', hn'⟩ := hd.steady
                have hr' := hr
                rw [← hdc] at hr'
                obtain ⟨-, ms', hms', hcnt⟩ := hn' _ _ hr'
                rw [hms] at hms'
                cases hms'
                obtain ⟨a1, a2, a3, a4⟩ := hcnt hdf
                have hmn : m = n' := by
                  rw [hk] at hm
                  rw [if_neg (by simp), Dict.get?_set, if_pos rfl] at hm
                  injection hm with hm
                  rw [← hm, ← a4]; rfl
                subst hmn
                refine ⟨a1, a2, ?_⟩
                intro k l hkl
                obtain ⟨-, ms2, -, hc2⟩ := hn' k l hkl
                exact (hc2 hdf).2.2.1
              · refine hcount d hd hdf m ?_
                rw [if_neg (by simp), Dict.get?_set, if_neg (fun e => hk e.symm)] at hm
                exact hm
      · rw [e1] at e2; cases e2
    · rcases onSend_faithful hf hlive' hlp hr2 hne with ⟨lines', b2, e2, g2⟩ | ⟨e2, g2⟩
      · rw [e1] at e2; cases e2
      · rw [body_of g1, body_of g2]
        refine ⟨rfl, ?_⟩
        constructor
        · exact rfl
        · exact h.sup
        · exact h.fast
        · exact h.plain
        · show (s.hist ++ _).length = (t.hist ++ _).length
          simp [h.time]
        · intro hcon
          exact absurd rfl hcon
  cases force with
  | true => exact main
  | false =>
    rw [if_neg (by simp)]
    cases testCmd s c with
    | error x => exact ⟨rfl, h⟩
    | ok b =>
      cases b with
      | true => exact main
      | false => exact ⟨rfl, h⟩

theorem twins_outcomes {dev : Device} {env : Answers} (hf : Faithful dev env) (hl : Limits env) (fl : ElmM.FloatFn) {o : ProtoObj} {cs : List OBDCommand}
    (qs : List (OBDCommand × Bool)) (hq : ∀ q ∈ qs, q.1 ∈ cs) : ∀ s t, Twins env o s t → (status s ≠ .notConnected → ∀ c ∈ cs, Allowed env o c) →
    outcomes dev fl qs s = outcomes dev fl qs t := by
  induction qs with
  | nil => intro s t _ _; rfl
  | cons q qs ih =>
    intro s t h hc
    obtain ⟨h1, h2⟩ := twins_query hf hl fl h (c := q.1) (fun hs => hc hs _ (hq q (by simp))) q.2
    show _ :: _ = _ :: _
    rw [h1, ih (fun q hx => hq q (by simp [hx])) _ _ h2 ?_]
    intro hs
    refine hc (fun hn => hs ?_)
    rw [query_nc hn]
    exact hn

theorem twins_load {dev : Device} {env : Answers} (hf : Faithful dev env) (hl : Limits env) (fl : ElmM.FloatFn) {o : ProtoObj} {cs : List OBDCommand}
    (gs : List OBDCommand) (hg : ∀ g ∈ gs, g ∈ cs) : ∀ s t, Twins env o s t → (status s ≠ .notConnected → ∀ c ∈ cs, Allowed env o c) →
    (loadLoop dev fl gs s).1 = (loadLoop dev fl gs t).1 ∧ Twins env o (loadLoop dev fl gs s).2 (loadLoop dev fl gs t).2 := by
  induction gs with
  | nil => intro s t h _; exact ⟨rfl, h⟩
  | cons g gs ih =>
    intro s t h hc
    replace ih := ih (fun g hx => hg g (by simp [hx]))
    have htest : testCmd s g = testCmd t g := by unfold testCmd supports; rw [h.iface, h.sup]
    obtain ⟨h1, h2⟩ := twins_query hf hl fl h (c := g) (fun hs => hc hs _ (hg g (by simp))) false
    have hc2 : status (query dev fl g false s).2 ≠ .notConnected → ∀ c ∈ cs, Allowed env o c := by
      intro hs
      refine hc (fun hn => hs ?_)
      rw [query_nc hn]
      exact hn
    unfold loadLoop
    rw [PyM.bind_ok (show PyM.get s = (.ok s, s) from rfl), PyM.bind_ok (show PyM.get t = (.ok t, t) from rfl), ← htest]
    cases testCmd s g with
    | error x => exact ⟨rfl, h⟩
    | ok b =>
      rw [PyM.bind_ok (show PyM.ofExcept (.ok b) s = (.ok b, s) from rfl), PyM.bind_ok (show PyM.ofExcept (.ok b) t = (.ok b, t) from rfl)]
      cases b with
      | false =>
        rw [if_pos (by simp)]
        exact ih s t h hc
      | true =>
        rw [if_neg (by simp)]
        cases hs : query dev fl g false s with
        | mk r s1 =>
        cases ht : query dev fl g false t with
        | mk r' t1 =>
        rw [hs] at h1 h2 hc2
        rw [ht] at h1 h2
        simp only at h1 h2 hc2
        subst h1
        cases r with
        | error x => rw [PyM.bind_error hs, PyM.bind_error ht]; exact ⟨rfl, h2⟩
        | ok r =>
          rw [PyM.bind_ok hs, PyM.bind_ok ht]
          by_cases hn : r.isNull = true
          · rw [if_pos hn]
            exact ih _ _ h2 hc2
          · rw [if_neg hn]
            cases g.mode with
            | error x => exact ⟨rfl, h2⟩
            | ok md =>
              rw [PyM.bind_ok (show PyM.ofExcept (.ok md) s1 = (.ok md, s1) from rfl), PyM.bind_ok (show PyM.ofExcept (.ok md) t1 = (.ok md, t1) from rfl)]
              cases g.pid with
              | error x => exact ⟨rfl, h2⟩
              | ok pd =>
                rw [PyM.bind_ok (show PyM.ofExcept (.ok pd) s1 = (.ok pd, s1) from rfl), PyM.bind_ok (show PyM.ofExcept (.ok pd) t1 = (.ok pd, t1) from rfl)]
                refine ih _ _ ?_ hc2
                constructor
                · exact h2.iface
                · show addSupported _ _ _ s1.supported = addSupported _ _ _ t1.supported
                  rw [h2.sup]
                · exact h2.fast
                · exact h2.plain
                · exact h2.time
                · intro hs
                  obtain ⟨⟨e, he, hlp⟩, rest⟩ := h2.live hs
                  exact ⟨⟨e, ⟨he.iface, he.status, he.port, he.proto⟩, hlp⟩, rest⟩

/-- The method does not look at `fast`. -/
def Blind {α : Type} (m : ObdM α) : Prop := ∀ b s, m { s with fast := b } = ((m s).1, { (m s).2 with fast := b })

theorem Blind.bind {α β : Type} {m : ObdM α} {f : α → ObdM β} (hm : Blind m) (hf : ∀ a, Blind (f a)) : Blind (m >>= f) := by
  intro b s
  rw [PyM.bind_apply, PyM.bind_apply, hm b s]
  cases h : m s with
  | mk r s' =>
    cases r with
    | ok a => exact hf a b s'
    | error x => rfl

theorem Blind.pure {α : Type} (a : α) : Blind (Pure.pure a : ObdM α) := fun _ _ => rfl
theorem Blind.modify {f : OW → OW} (h : ∀ b s, f { s with fast := b } = { f s with fast := b }) : Blind (PyM.modify f) := by
  intro b s
  show (Except.ok (), f _) = _
  rw [h]; rfl
theorem Blind.get {α : Type} {f : OW → ObdM α} (h1 : ∀ b s, f { s with fast := b } = f s) (h2 : ∀ s, Blind (f s)) : Blind (PyM.get >>= f) := by
  intro b s
  rw [PyM.bind_ok (show PyM.get s = (.ok s, s) from rfl), PyM.bind_ok (show PyM.get _ = (.ok _, _) from rfl), h1]
  exact h2 s b s

theorem blind_on {α : Type} (m : ElmM α) : Blind (onInterface m) := by
  intro b s
  obtain ⟨i, _, _, _, _, _, _⟩ := s
  cases i <;> rfl

theorem blind_setHeader (dev : Device) (h : Bytes) : Blind (setHeader dev h) := by
  unfold setHeader
  refine Blind.get (fun _ _ => rfl) (fun s => ?_)
  split
  · exact Blind.pure _
  · refine Blind.bind (blind_on _) (fun r => ?_)
    split
    · exact Blind.pure _
    · split
      · exact Blind.pure _
      · split
        · exact Blind.pure _
        · exact Blind.modify (fun _ _ => rfl)

theorem blind_close (dev : Device) : Blind (close dev) := by
  unfold close
  refine Blind.bind (Blind.modify (fun _ _ => rfl)) (fun _ => ?_)
  refine Blind.get (fun _ _ => rfl) (fun s => ?_)
  split
  · exact Blind.pure _
  · refine Blind.bind (blind_setHeader _ _) (fun _ => Blind.bind (blind_on _) (fun _ => Blind.modify (fun _ _ => rfl)))

theorem blind_closeIfFailed (dev : Device) : Blind (closeIfFailed dev) := by
  unfold closeIfFailed
  refine Blind.get (fun _ _ => rfl) (fun s => ?_)
  split
  · exact blind_close dev
  · exact Blind.pure _

theorem blind_open (dev : Device) (fl : ElmM.FloatFn) (port : Str) (cfg : ElmM.Config) : Blind (openInterface dev fl port cfg) := by
  intro b s
  unfold openInterface
  cases h : (ElmM.construct dev fl port cfg s.hist).1 <;> simp only [h]

theorem blind_ports (dev : Device) (fl : ElmM.FloatFn) (cfg : ElmM.Config) (ports : List Str) : Blind (tryPorts dev fl cfg ports) := by
  induction ports with
  | nil => exact Blind.pure _
  | cons p ports ih =>
    unfold tryPorts
    refine Blind.bind (blind_open _ _ _ _) (fun _ => Blind.get (fun _ _ => rfl) (fun s => ?_))
    split
    · exact Blind.pure _
    · exact ih

theorem blind_connect (dev : Device) (fl : ElmM.FloatFn) (ports : List Str) (portstr : Option Str) (cfg : ElmM.Config) :
    Blind (connect dev fl ports portstr cfg) := by
  unfold connect
  split
  · split
    · exact Blind.pure _
    · exact Blind.bind (blind_ports _ _ _ _) (fun _ => blind_closeIfFailed _)
  · exact Blind.bind (blind_open _ _ _ _) (fun _ => blind_closeIfFailed _)

/-- The protocol of the interface. -/
def HasProto (o : ProtoObj) (s : OW) : Prop := ∃ e, s.interface = some e ∧ e.protocol = some o

theorem hasProto_send (dev : Device) (o : ProtoObj) (cmd : Bytes) (d : Bool) (m : Bytes) :
    Kept (fun w : EW => w.elm.protocol = some o) (ElmM.send dev cmd d m) := by
  intro w h
  rcases ElmM.send_outcome dev cmd d m w with ⟨-, he⟩ | ⟨p, l, w', hp, he, hr⟩ <;> rw [he]
  · exact h
  · cases hr <;> exact h

theorem ostable_hasProto (dev : Device) (o : ProtoObj) : OStable dev (HasProto o) where
  send := fun cmd _ => by
    intro s ⟨e, he, ho⟩
    unfold onInterface
    rw [he]
    exact ⟨_, rfl, ElmM.kept_sendAndParse (C := fun _ => True) (P := fun w : EW => w.elm.protocol = some o) (fun c d m _ => hasProto_send dev o c d m) cmd
      trivial trivial (fun _ h => h) ⟨e, s.hist⟩ ho⟩
  attrs := fun _ _ _ _ h => h
  sup := fun _ _ h => h

end ObdM
end Model
