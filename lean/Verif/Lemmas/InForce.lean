import Verif.Lemmas.Acked
import Verif.Props.Raw
import Verif.Spec.Headers
/-!
# The header in force over all histories of calls, also if headers are refused
-/
namespace Model
open Py Spec Props
namespace ObdM

theorem mem_intercalate {sep : Str} {ls : List Str} {c : Char} (h : c ∈ sep.intercalate ls) : c ∈ sep ∨ ∃ l ∈ ls, c ∈ l := by
  unfold List.intercalate at h
  obtain ⟨l, hl, hc⟩ := List.mem_flatten.1 h
  have : ∀ (ls : List Str) l, l ∈ ls.intersperse sep → l = sep ∨ l ∈ ls := by
    intro ls
    induction ls with
    | nil => intro l hl; simp at hl
    | cons a t ih =>
      intro l hl
      cases t with
      | nil => simp at hl; exact Or.inr (by simp [hl])
      | cons b t =>
        rw [List.intersperse_cons_cons] at hl
        rcases List.mem_cons.1 hl with rfl | hl
        · exact Or.inr (by simp)
        · rcases List.mem_cons.1 hl with rfl | hl
          · exact Or.inl rfl
          · rcases ih l hl with h | h
            · exact Or.inl h
            · exact Or.inr (List.mem_cons_of_mem _ h)
  rcases this ls l hl with rfl | h
  · exact Or.inl hc
  · exact Or.inr ⟨l, h, hc⟩

/-- What is taken for an acknowledgement has a line `OK`. -/
theorem ok_of_ackd {o : ProtoObj} {l : List Str} {ms : List Message} (h : o.call l = .ok ms) (ha : ackd ms = true) : "OK".toList ∈ l := by
  unfold ackd at ha
  rw [Bool.and_eq_true, decide_eq_true_eq] at ha
  obtain ⟨h1, h2⟩ := ha
  have hone : ∃ m, ms = [m] ∧ m.raw = "OK".toList := by
    cases ms with
    | nil => simp at h1
    | cons m ms =>
      cases ms with
      | nil => exact ⟨m, rfl, by simpa [List.intercalate] using h2⟩
      | cons m' ms =>
        exfalso
        have : '\n' ∈ "OK".toList := by
          rw [← h2]
          simp [List.intercalate]
        exact absurd this (by decide)
  obtain ⟨m, rfl, hm⟩ := hone
  have hraw := call_rawOf o.cls o.ecuMap l [m] h m (by simp)
  have hO : ∀ ls : List Str, (∀ s ∈ ls, isHex (noSpaces s) = true) → m.raw = ['\n'].intercalate (ls.map (fun s => s.filter (fun c => c != ' '))) → False := by
    intro ls hls he
    rw [hm] at he
    have : 'O' ∈ "OK".toList := by decide
    rw [he] at this
    rcases mem_intercalate this with h | ⟨t, ht, hc⟩
    · exact absurd h (by decide)
    · obtain ⟨s, hs, rfl⟩ := List.mem_map.1 ht
      have := hls s hs
      unfold isHex at this
      have := List.all_eq_true.1 this 'O' hc
      exact absurd this (by decide)
  unfold RawOf at hraw
  split at hraw
  · next t _ =>
    refine (hO _ ?_ hraw).elim
    intro s hs
    have := (List.mem_filter.1 hs).2
    unfold sentBy at this
    cases hf : lineFrame? o.cls s with
    | none => rw [hf] at this; simp at this
    | some x => exact lineFrame?_hex hf
  · rcases hraw with ⟨h1, -⟩ | ⟨-, h1⟩
    · rw [hm] at h1; exact h1
    · refine (hO _ ?_ h1).elim
      intro s hs
      have := (List.mem_filter.1 hs).2
      rw [decide_eq_true_eq, notHex_iff, Bool.not_eq_false] at this
      exact this

theorem dialogue_replied_mem {evs : History} {xs : List (Bytes × List Str)} (hd : Dialogue evs xs) {cmd : Bytes} {lines : List Str} (hl : lines ≠ [])
    (hr : Replied evs cmd lines) : (cmd, lines) ∈ xs := by
  have hb := repliedB_of hl hr
  clear hr
  induction hd with
  | nil => cases hb
  | @cons cmd' lines' bs b evs xs hl' hbs h ih =>
    have hskip : ∀ (bs : List Bytes), repliedB cmd lines (bs.map (fun b => Event.read (some b)) ++ Event.read (some b) :: evs) = repliedB cmd lines evs := by
      intro bs
      induction bs with
      | nil => rfl
      | cons x bs ih => exact ih
    rw [repliedB, hskip, Bool.or_eq_true, Bool.and_eq_true] at hb
    rcases hb with ⟨h1, h2⟩ | hb
    · rw [beq_iff_eq] at h1 h2
      have h1 := line_inj h1
      subst h1
      rw [firstReply_reads hbs] at h2
      unfold firstReply at h2
      have h3 := linesOf_unique hl'
      rw [← h3] at h2
      split at h2
      · next h0 =>
        exfalso
        -- an empty reply in the end: nothing was read after it
        clear ih hskip
        cases h with
        | nil => cases h2
        | cons _ _ _ => cases h2
      · injection h2 with h2
        subst h2
        simp
    · exact List.mem_cons_of_mem _ (ih hb)

theorem inForce_append {h evs : History} {hd x : Bytes} {ok : Bool} {t : History} (he : evs = .write x ok :: t)
    (hn : ∀ y, ¬ Replied evs (headerLine y) ["OK".toList]) (h1 : InForce h hd) : InForce (h ++ evs) hd := by
  have key : ∀ h, ¬ SomeAck h → ¬ SomeAck (h ++ evs) := by
    rintro h h1 ⟨y, hy⟩
    rcases replied_split he hy with h | h
    · exact h1 ⟨y, h⟩
    · exact hn y h
  rcases h1 with ⟨rfl, h1⟩ | ⟨pre, bs, b, lines, post, rfl, h2, h3, h4, h5⟩
  · exact Or.inl ⟨rfl, key _ h1⟩
  · exact Or.inr ⟨pre, bs, b, lines, post ++ evs, by simp, h2, h3, h4, key _ h5⟩

theorem quiet_replied {evs : History} (hn : ∀ b ∈ sent evs, ¬ SetsHeader b) (y : Bytes) : ¬ Replied evs (headerLine y) ["OK".toList] :=
  fun h => hn _ (replied_sent h) ⟨y, rfl⟩

theorem inForce_quiet {h evs : History} {hd x : Bytes} {ok : Bool} {t : History} (he : evs = .write x ok :: t)
    (hn : ∀ b ∈ sent evs, ¬ SetsHeader b) (h1 : InForce h hd) : InForce (h ++ evs) hd := inForce_append he (quiet_replied hn) h1

theorem inForce_set {h evs : History} {pre : List (Bytes × List Str)} {hd : Bytes} {l : List Str} (hok : "OK".toList ∈ l)
    (hd' : Dialogue evs (pre ++ [(headerLine hd, l)])) : InForce (h ++ evs) hd := by
  have : ∃ (p : History) (bs : List Bytes) (b : Bytes), evs = p ++ .write (line (headerLine hd)) true :: (reads bs ++ .read (some b) :: []) ∧
      (∀ x ∈ bs, LinesOf x []) ∧ LinesOf b l := by
    clear hok
    induction pre generalizing evs with
    | nil =>
      cases hd' with
      | cons hl hbs h => cases h; exact ⟨[], _, _, rfl, hbs, hl⟩
    | cons y pre ih =>
      rw [List.cons_append] at hd'
      cases hd' with
      | @cons cmd lines bs b evs xs hl hbs h =>
        obtain ⟨p, bs', b', rfl, h1, h2⟩ := ih h
        exact ⟨.write (line cmd) true :: (reads bs ++ .read (some b) :: p), bs', b', by simp, h1, h2⟩
  obtain ⟨p, bs, b, rfl, h1, h2⟩ := this
  right
  refine ⟨h ++ p, bs, b, l, [], by simp, h1, h2, hok, ?_⟩
  rintro ⟨x, pre, bs, b, post, heq, -⟩
  simp at heq

/-- The library's idea of the header is right. -/
def HeaderX (s : OW) : Prop := status s ≠ .notConnected → InForce s.hist s.lastHeader


theorem dialogue_answered' {evs : History} {pre : List (Bytes × List Str)} {cmd : Bytes} {l : List Str}
    (hd : Dialogue evs (pre ++ [(cmd, l)])) : FinalReply evs cmd l := by
  simpa using dialogue_answered (h := []) hd

theorem finalReply_append {h evs : History} {cmd b : Bytes} {l : List Str} {ok : Bool} {t : History} (he : evs = .write b ok :: t)
    (hr : FinalReply h cmd l) : FinalReply (h ++ evs) cmd l := by
  obtain ⟨pre, bs, b, post, rfl, h1, h2, h3⟩ := hr
  refine ⟨pre, bs, b, post ++ evs, by simp, h1, h2, ?_⟩
  intro r t
  cases post with
  | nil => rw [he]; simp
  | cons y post => intro h; cases h; exact h3 _ _ rfl

theorem headerX_set {dev : Device} {hd : Bytes} {s : OW} {e : Elm} {o : ProtoObj} (hl : Live s e o) (h : HeaderX s) :
    HeaderX (setHeader dev hd s).2 := by
  have hst : status s ≠ .notConnected := by simpa [status, hl.iface] using hl.status
  by_cases hh : hd = s.lastHeader
  · rw [setHeader_same hh]; exact h
  · have keep : ∀ {pre : List (Bytes × List Str)} {l : List Str} {evs : History}, pre.map Prod.fst = wake e →
        Dialogue evs (pre ++ [(headerLine hd, l)]) → l ≠ ["OK".toList] → InForce (s.hist ++ evs) s.lastHeader := by
      intro pre l evs h1 h2 hne
      obtain ⟨b, t, hbt⟩ := dialogue_head' h2
      refine inForce_append hbt ?_ (h hst)
      intro y hy
      have := dialogue_replied_mem h2 (by simp) hy
      rcases List.mem_append.1 this with hm | hm
      · have hm := List.mem_map_of_mem (f := Prod.fst) hm
        rw [h1] at hm
        exact wake_tidy e (line (headerLine y)) (List.mem_map.2 ⟨_, hm, rfl⟩) ⟨y, rfl⟩
      · simp only [List.mem_singleton, Prod.mk.injEq] at hm
        exact hne hm.2.symm
    rcases setHeader_cases (dev := dev) hl hh with ⟨pre, l, evs, x, h1, h2, h3, h4⟩ | ⟨pre, l, evs, ms, h1, h2, h3, h4⟩ | ⟨evs, h1, h4⟩ <;> rw [h4]
    · intro _
      refine keep h1 h2 ?_
      rintro rfl
      obtain ⟨ms, hms, -⟩ := call_ok o
      rw [hms] at h3; cases h3
    · intro _
      by_cases ha : ackd ms = true
      · simp only [ha, if_true]
        exact inForce_set (ok_of_ackd h3 ha) h2
      · simp only [ha]
        refine keep h1 h2 ?_
        rintro rfl
        obtain ⟨ms', hms, ha'⟩ := call_ok o
        rw [hms] at h3; cases h3
        exact ha ha'
    · exact fun hne => absurd rfl hne

/-- Where a command that does not set the header is sent, the header is as before. -/
theorem headerX_body {dev : Device} {fl : ElmM.FloatFn} {c : OBDCommand} {s : OW} {e : Elm} {o : ProtoObj} (hl : Live s e o)
    (ht : Tidy c.command) (h : HeaderX s) : HeaderX (body dev fl c s).2 ∧
    ∃ evs, (body dev fl c s).2.hist = s.hist ++ evs ∧ (∃ b ok t, evs = .write b ok :: t) ∧
      ∀ b ∈ sent evs, ¬ SetsHeader b := by
  have hsent : ∀ p q, wake e ++ [buildCommand s c] = p ++ q → ∀ b ∈ p.map line, ¬ SetsHeader b := by
    intro p q hpq b hb hs
    obtain ⟨x, hx, rfl⟩ := List.mem_map.1 hb
    have hx' : x ∈ wake e ++ [buildCommand s c] := by rw [hpq]; simp [hx]
    rcases List.mem_append.1 hx' with hw | hw
    · exact wake_tidy e (line x) (List.mem_map.2 ⟨x, hw, rfl⟩) hs
    · rw [List.mem_singleton] at hw; subst hw; exact tidy_build s c ht (setsHeader_line hs)
  rcases body_cases (dev := dev) (fl := fl) (c := c) hl with ⟨pre, l, evs, x, h1, h2, h3, h4⟩ | ⟨pre, l, evs, ms, h1, h2, h3, h4⟩ | ⟨evs, h1, h4⟩ <;> rw [h4]
  · have hs : ∀ b ∈ sent evs, ¬ SetsHeader b := by
      have : sent evs = (wake e ++ [buildCommand s c]).map line := by rw [sent_dialogue h2, ← h1]; simp
      rw [this]; exact hsent _ [] (by simp)
    obtain ⟨b, t, hbt⟩ := dialogue_head' h2
    refine ⟨?_, evs, rfl, ⟨b, true, t, hbt⟩, hs⟩
    intro _
    exact inForce_quiet hbt hs (h (by simpa [status, hl.iface] using hl.status))
  · have hs : ∀ b ∈ sent evs, ¬ SetsHeader b := by
      have : sent evs = (wake e ++ [buildCommand s c]).map line := by rw [sent_dialogue h2, ← h1]; simp
      rw [this]; exact hsent _ [] (by simp)
    obtain ⟨b, t, hbt⟩ := dialogue_head' h2
    refine ⟨?_, evs, rfl, ⟨b, true, t, hbt⟩, hs⟩
    intro _
    exact inForce_quiet hbt hs (h (by simpa [status, hl.iface] using hl.status))
  · refine ⟨fun hne => absurd rfl hne, evs, rfl, broken_head h1, ?_⟩
    obtain ⟨p, q, h5, h6, h7⟩ := sent_broken h1
    rw [h7]; exact hsent p q h5

/-- The exchange of a query: the header before the command itself is sent. -/
theorem headerX_exchange {dev : Device} {fl : ElmM.FloatFn} {c : OBDCommand} {s : OW} {e : Elm} {o : ProtoObj} (hl : Live s e o)
    (hs : OSound s) (ht : Tidy c.command) (h : HeaderX s) : HeaderX (exchange dev fl c s).2 ∧
    ∃ evs, (exchange dev fl c s).2.hist = s.hist ++ evs ∧
      ∀ e1 b ok e2, evs = e1 ++ .write b ok :: e2 → b ≠ line (ascii " ") → ¬ SetsHeader b →
        InForce (s.hist ++ e1) c.header ∨ Refused e1 c.header := by
  have hb : ∀ {s : OW} {e : Elm}, Live s e o → HeaderX s →
      HeaderX (body dev fl c s).2 ∧ ∃ evs, (body dev fl c s).2.hist = s.hist ++ evs ∧ (∃ b ok t, evs = .write b ok :: t) ∧
        ∀ e1 b ok e2, evs = e1 ++ .write b ok :: e2 → InForce (s.hist ++ e1) s.lastHeader := by
    intro s e hl h
    obtain ⟨h1, evs, h2, ⟨b, ok, t, h3⟩, h4⟩ := headerX_body (dev := dev) (fl := fl) hl ht h
    refine ⟨h1, evs, h2, ⟨b, ok, t, h3⟩, ?_⟩
    intro e1 b' ok' e2 he
    have hst : status s ≠ .notConnected := by simpa [status, hl.iface] using hl.status
    cases e1 with
    | nil => rw [List.append_nil]; exact h hst
    | cons x e1 =>
      rw [h3] at he
      have hx : x = .write b ok := by simp at he; exact he.1.symm
      subst hx
      refine inForce_quiet rfl ?_ (h hst)
      intro y hy
      apply h4
      rw [h3, he, sent_append]
      exact List.mem_append_left _ hy
  have hst : status s ≠ .notConnected := by simpa [status, hl.iface] using hl.status
  rw [exchange_eq]
  by_cases hh : c.header = s.lastHeader
  · rw [PyM.bind_ok (setHeader_same hh)]
    obtain ⟨h1, evs, h2, -, h3⟩ := hb hl h
    refine ⟨h1, evs, h2, fun e1 b ok e2 he _ _ => Or.inl ?_⟩
    rw [hh]
    exact h3 e1 b ok e2 he
  · have hset := headerX_set (dev := dev) (hd := c.header) hl h
    have hwh : ∀ p q, wake e ++ [headerLine c.header] = p ++ q → ∀ b ∈ p.map line, b = line (ascii " ") ∨ SetsHeader b := by
      intro p q hpq b hb
      obtain ⟨x, hx, rfl⟩ := List.mem_map.1 hb
      have hx' : x ∈ wake e ++ [headerLine c.header] := by rw [hpq]; simp [hx]
      rcases List.mem_append.1 hx' with hw | hw
      · left
        unfold wake at hw
        split at hw
        · rw [List.mem_singleton] at hw; rw [hw]
        · cases hw
      · right; rw [List.mem_singleton] at hw; rw [hw]; exact ⟨_, rfl⟩
    rcases setHeader_cases (dev := dev) hl hh with ⟨pre, l, evs, x, h1, h2, h3, h4⟩ | ⟨pre, l, evs, ms, h1, h2, h3, h4⟩ | ⟨evs, h1, h4⟩
    · have he : (setHeader dev c.header >>= fun _ => body dev fl c) s = (.error x, woken s e evs) := by
        rw [PyM.bind_apply, h4]
      rw [h4] at hset
      rw [he]
      refine ⟨hset, evs, rfl, ?_⟩
      intro e1 b ok e2 hev hb1 hb2
      exfalso
      have hm : b ∈ sent evs := by rw [hev, sent_append]; simp [sent]
      have hse : sent evs = (wake e ++ [headerLine c.header]).map line := by rw [sent_dialogue h2, ← h1]; simp
      rw [hse] at hm
      rcases hwh _ [] (by simp) b hm with h | h
      · exact hb1 h
      · exact hb2 h
    · rw [h4] at hset
      rw [PyM.bind_ok h4]
      have hl' : Live { woken s e evs with lastHeader := if ackd ms then c.header else s.lastHeader } { e with lowPower := false } o :=
        ⟨rfl, hl.status, hl.port, hl.proto⟩
      obtain ⟨g1, evs', g2, ⟨b0, ok0, t0, g0⟩, g3⟩ := hb hl' hset
      refine ⟨g1, evs ++ evs', g2.trans (List.append_assoc _ _ _), ?_⟩
      intro e1 b ok e2 hev hb1 hb2
      rcases append_cases hev with ⟨post', e3, e4⟩ | ⟨pre', e3, e4⟩
      · exfalso
        have hm : b ∈ sent evs := by rw [e3, sent_append]; simp [sent]
        have hse : sent evs = (wake e ++ [headerLine c.header]).map line := by rw [sent_dialogue h2, ← h1]; simp
        rw [hse] at hm
        rcases hwh _ [] (by simp) b hm with h | h
        · exact hb1 h
        · exact hb2 h
      · rw [e4]
        by_cases ha : ackd ms = true
        · left
          rw [← List.append_assoc]
          have := g3 pre' b ok e2 e3
          simp only [ha, if_true] at this
          exact this
        · right
          refine ⟨l, ?_, ?_⟩
          · rintro rfl
            obtain ⟨ms', hms, ha'⟩ := call_ok o
            rw [hms] at h3; cases h3
            exact ha ha'
          · cases pre' with
            | nil => rw [List.append_nil]; exact dialogue_answered' h2
            | cons y pre' =>
              have hy : y = .write b0 ok0 := by rw [g0] at e3; simp at e3; exact e3.1.symm
              subst hy
              exact finalReply_append rfl (dialogue_answered' h2)
    · rw [PyM.bind_ok h4, body_nc (e := { lost e with lowPower := false }) rfl rfl]
      refine ⟨fun hne => absurd rfl hne, evs, rfl, ?_⟩
      intro e1 b ok e2 hev hb1 hb2
      exfalso
      have hm : b ∈ sent evs := by rw [hev, sent_append]; simp [sent]
      obtain ⟨p, q, h5, h6, h7⟩ := sent_broken h1
      rw [h7] at hm
      rcases hwh p q h5 b hm with h | h
      · exact hb1 h
      · exact hb2 h

theorem headerX_query {dev : Device} {fl : ElmM.FloatFn} {c : OBDCommand} {force : Bool} {s : OW}
    (hs : OSound s) (ht : Tidy c.command) (h : HeaderX s) : HeaderX (query dev fl c force s).2 ∧
    ∃ evs, (query dev fl c force s).2.hist = s.hist ++ evs ∧
      ∀ e1 b ok e2, evs = e1 ++ .write b ok :: e2 → b ≠ line (ascii " ") → ¬ SetsHeader b →
        InForce (s.hist ++ e1) c.header ∨ Refused e1 c.header := by
  rcases query_cases dev fl c force s with ⟨h1, -⟩ | ⟨x, h1, -⟩ | ⟨h1, hst, -⟩
  · rw [h1]; exact ⟨h, [], by simp, by simp⟩
  · rw [h1]; exact ⟨h, [], by simp, by simp⟩
  · obtain ⟨e, o, hl⟩ := live_of_sound hs hst
    rw [h1]; exact headerX_exchange hl hs ht h

theorem headerX_onSend {α : Type} {m : ElmM α} {s : OW} (h : HeaderX s)
    (hm : ∀ e, s.interface = some e → ∃ evs, (m ⟨e, s.hist⟩).2.hist = s.hist ++ evs ∧
      ((m ⟨e, s.hist⟩).2.elm.status = .notConnected ∨ (m ⟨e, s.hist⟩).2.elm.status = e.status ∧ (∃ b ok t, evs = .write b ok :: t) ∧ ∀ b ∈ sent evs, ¬ SetsHeader b)) :
    HeaderX (onInterface m s).2 := by
  unfold onInterface
  cases hi : s.interface with
  | none => exact h
  | some e =>
    obtain ⟨evs, h1, h2⟩ := hm e hi
    intro hst
    simp only [h1]
    rcases h2 with h2 | ⟨h2, ⟨b, ok, t, h3⟩, h4⟩
    · exact absurd h2 hst
    · refine inForce_quiet h3 h4 (h ?_)
      have : (m ⟨e, s.hist⟩).2.elm.status ≠ .notConnected := hst
      rw [h2] at this
      simpa [status, hi] using this

theorem headerX_lowPower (dev : Device) (s : OW) (hs : OSound s) (h : HeaderX s) : HeaderX (lowPower dev s).2 := by
  by_cases hst : status s = .notConnected
  · rw [lowPower_nc hst]; exact h
  · obtain ⟨e, o, hl⟩ := live_of_sound hs hst
    unfold lowPower
    rw [PyM.bind_ok (show PyM.get s = (.ok s, s) from rfl), hl.iface]
    refine headerX_onSend h ?_
    intro e' he'
    rw [hl.iface] at he'; cases he'
    unfold ElmM.lowPower
    rw [PyM.bind_ok (show ElmM.getElm _ = (.ok e, _) from rfl), if_neg hl.status]
    rcases send_cases dev (ascii "ATLP") true elmLpActive ⟨e, s.hist⟩ hl.port with ⟨l, evs, g1, g⟩ | ⟨evs, g1, g⟩
    · rw [PyM.bind_ok g]
      refine ⟨evs, ?_, ?_⟩
      · split <;> rfl
      · right
        obtain ⟨b, t, ht⟩ := dialogue_head g1
        refine ⟨by split <;> rfl, ⟨b, true, t, ht⟩, ?_⟩
        intro b hb hset
        rw [sent_dialogue g1] at hb
        simp only [List.map_cons, List.map_nil, List.mem_singleton] at hb
        rw [hb] at hset
        obtain ⟨t, ht⟩ := setsHeader_line hset
        simp [ascii] at ht
    · rw [PyM.bind_ok g]
      refine ⟨evs, by split <;> rfl, Or.inl ?_⟩
      split <;> rfl

theorem headerX_normalPower (dev : Device) (s : OW) (hs : OSound s) (h : HeaderX s) : HeaderX (normalPower dev s).2 := by
  by_cases hst : status s = .notConnected
  · rw [normalPower_nc hst]; exact h
  · obtain ⟨e, o, hl⟩ := live_of_sound hs hst
    unfold normalPower
    rw [PyM.bind_ok (show PyM.get s = (.ok s, s) from rfl), hl.iface]
    refine headerX_onSend h ?_
    intro e' he'
    rw [hl.iface] at he'; cases he'
    unfold ElmM.normalPower
    rw [PyM.bind_ok (show ElmM.getElm _ = (.ok e, _) from rfl), if_neg hl.status]
    rcases send_cases dev (ascii " ") false elmPrompt ⟨e, s.hist⟩ hl.port with ⟨l, evs, g1, g⟩ | ⟨evs, g1, g⟩
    · rw [PyM.bind_ok g]
      refine ⟨evs, rfl, Or.inr ?_⟩
      obtain ⟨b, t, ht⟩ := dialogue_head g1
      refine ⟨rfl, ⟨b, true, t, ht⟩, ?_⟩
      intro b hb hset
      rw [sent_dialogue g1] at hb
      simp only [List.map_cons, List.map_nil, List.mem_singleton] at hb
      rw [hb] at hset
      obtain ⟨t, ht⟩ := setsHeader_line hset
      simp [ascii] at ht
    · rw [PyM.bind_ok g]
      exact ⟨evs, rfl, Or.inl rfl⟩

theorem headerX_close (dev : Device) (s : OW) (hs : OSound s) (h : HeaderX s) : HeaderX (close dev s).2 := by
  rcases close_status dev s hs with h1 | ⟨x, h1, h2⟩
  · exact fun hne => absurd h1 hne
  · rw [h2]
    by_cases hst : status s = .notConnected
    · exfalso
      rw [close_nc hs hst] at h2; cases h2
    · obtain ⟨e, o, hl⟩ := live_of_sound hs hst
      exact headerX_set (dev := dev) (hd := engineHeader) (s := { s with supported := [] }) ⟨hl.iface, hl.status, hl.port, hl.proto⟩ h

theorem headerX_call (dev : Device) (fl : ElmM.FloatFn) (c : Call) (hc : OrdinaryCall c) (s : OW) (hs : OSound s) (h : HeaderX s) :
    HeaderX (c.after dev fl s) := by
  cases c with
  | query c force => exact (headerX_query hs hc.1 h).1
  | lowPower => exact headerX_lowPower dev s hs h
  | normalPower => exact headerX_normalPower dev s hs h
  | close => exact headerX_close dev s hs h

theorem headerX_session (dev : Device) (fl : ElmM.FloatFn) (cs : List Call) (hc : ∀ c ∈ cs, OrdinaryCall c) (s : OW) (hs : OSound s) (h : HeaderX s) :
    HeaderX (session dev fl cs s) := by
  induction cs generalizing s with
  | nil => exact h
  | cons c cs ih => exact ih (fun c hcc => hc c (by simp [hcc])) _ (osound_call dev fl c s hs) (headerX_call dev fl c (hc c (by simp)) s hs h)

theorem constructed_headerX {dev : Device} {fl : ElmM.FloatFn} {a : Args} {s : OW} (h : Constructed dev fl a s) : OSound s ∧ HeaderX s := by
  unfold Constructed construct at h
  obtain ⟨_, s1, h1, h⟩ := bind_inv h
  have hk : OSound s1 ∧ HeaderX s1 := by
    refine ⟨connect_sound h1 ⟨shape_nil, by simp⟩, ?_⟩
    have hw := connect_hist (R := Writes (fun b => ¬ SetsHeader b)) (dev := dev) (fl := fl) (cfg := a.cfg) (fun port hist hh =>
      ElmM.kept_construct (steps_writes dev a.cfg.protocol (by
          intro c hc hset
          obtain ⟨t, ht⟩ := setsHeader_line hset
          simp only [List.mem_cons, List.not_mem_nil, or_false] at hc
          rcases hc with rfl | rfl | rfl | rfl | rfl | rfl <;> simp [ascii] at ht)
        (ElmM.kept_setProtocol (stable_writes dev _) a.cfg.protocol (by
          intro id hset
          obtain ⟨t, ht⟩ := setsHeader_line hset
          simp [ascii] at ht) (by
          intro hset
          obtain ⟨t, ht⟩ := setsHeader_line hset
          simp [ascii] at ht) (by
          intro hset
          obtain ⟨t, ht⟩ := setsHeader_line hset
          simp [ascii] at ht) (by
          intro hset
          obtain ⟨t, ht⟩ := setsHeader_line hset
          simp [ascii] at ht))) fl port hist
        (fun e err => writes_append hh (by intro b ok h; simp at h))) h1 ⟨shape_nil, by simp⟩ (by intro b ok h; simp at h)
    intro hst
    rcases connect_attrs h1 with h2 | ⟨h2, -⟩
    · exact absurd h2 hst
    · left
      refine ⟨h2, ?_⟩
      rintro ⟨x, pre, bs, b, post, heq, -⟩
      exact hw (line (headerLine x)) true (by rw [heq]; simp) ⟨x, rfl⟩
  have := loadCommands_of (dev := dev) (fl := fl) (P := fun s => OSound s ∧ HeaderX s)
    (fun c hc s hs => ⟨kept_query (ostable_sound dev) fl c false s hs.1, (headerX_query hs.1 (getters_tidy c hc) hs.2).1⟩) (fun _ _ h => h) s1 hk
  rw [h] at this; exact this

end ObdM
end Model
