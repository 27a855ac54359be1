import Verif.Lemmas.Power
/-!
# The header in force over all histories of calls
-/
namespace Model
open Py Spec
namespace ObdM

theorem reads_prefix {bs : List Bytes} {b : Bytes} {post a evs : History} {x : Bytes} {ok : Bool} {t : History}
    (he : evs = .write x ok :: t) (h : a ++ evs = reads bs ++ .read (some b) :: post) :
    ∃ post', a = reads bs ++ .read (some b) :: post' ∧ post = post' ++ evs := by
  induction bs generalizing a with
  | nil =>
    cases a with
    | nil => rw [he] at h; cases h
    | cons y a =>
      simp only [List.cons_append, reads, List.map_nil, List.nil_append, List.cons.injEq] at h
      obtain ⟨rfl, rfl⟩ := h
      exact ⟨a, rfl, rfl⟩
  | cons c bs ih =>
    cases a with
    | nil => rw [he] at h; cases h
    | cons y a =>
      simp only [List.cons_append, reads, List.map_cons, List.cons.injEq] at h
      obtain ⟨rfl, h⟩ := h
      obtain ⟨post', rfl, h2⟩ := ih h
      exact ⟨post', rfl, h2⟩

/-- A reply in a history extended by further commands. -/
theorem replied_split {h evs : History} {cmd : Bytes} {lines : List Str} {x : Bytes} {ok : Bool} {t : History}
    (he : evs = .write x ok :: t) (hr : Replied (h ++ evs) cmd lines) : Replied h cmd lines ∨ Replied evs cmd lines := by
  obtain ⟨pre, bs, b, post, heq, h1, h2⟩ := hr
  rcases append_cases heq with ⟨post', e1, e2⟩ | ⟨pre', e1, e2⟩
  · left
    obtain ⟨p, hp, -⟩ := reads_prefix he e2.symm
    exact ⟨pre, bs, b, p, by rw [e1, hp], h1, h2⟩
  · right
    exact ⟨pre', bs, b, post, e1, h1, h2⟩

theorem replied_sent {h : History} {cmd : Bytes} {lines : List Str} (hr : Replied h cmd lines) : line cmd ∈ sent h := by
  obtain ⟨pre, bs, b, post, rfl, -⟩ := hr
  rw [sent_append]
  simp [sent]

theorem noAck_append {h evs : History} {x : Bytes} {ok : Bool} {t : History} (he : evs = .write x ok :: t)
    (hn : ∀ b ∈ sent evs, ¬ SetsHeader b) (h1 : ¬ SomeAck h) : ¬ SomeAck (h ++ evs) := by
  rintro ⟨y, hy⟩
  rcases replied_split he hy with h | h
  · exact h1 ⟨y, h⟩
  · exact hn _ (replied_sent h) ⟨y, rfl⟩

theorem lastAcked_append {h evs : History} {hd x : Bytes} {ok : Bool} {t : History} (he : evs = .write x ok :: t)
    (hn : ∀ b ∈ sent evs, ¬ SetsHeader b) (h1 : LastAcked h hd) : LastAcked (h ++ evs) hd := by
  rcases h1 with ⟨rfl, h1⟩ | ⟨pre, bs, b, post, rfl, h2, h3, h4⟩
  · exact Or.inl ⟨rfl, noAck_append he hn h1⟩
  · exact Or.inr ⟨pre, bs, b, post ++ evs, by simp, h2, h3, noAck_append he hn h4⟩

theorem setsHeader_line {cmd : Bytes} (h : SetsHeader (line cmd)) : ∃ t, cmd = ascii "AT SH " ++ t := by
  obtain ⟨x, hx⟩ := h
  exact ⟨x ++ ascii " ", by rw [line_inj hx, headerLine]; simp⟩

/-- Commands that do not set the header. -/
def Tidy (cmd : Bytes) : Prop := ¬ ∃ t, cmd = ascii "AT SH " ++ t

theorem tidy_build (s : OW) (c : OBDCommand) (h : Tidy c.command) : Tidy (buildCommand s c) := by
  rintro ⟨t, ht⟩
  rcases buildCommand_forms s c with e | e | ⟨n, -, e⟩
  · rw [e] at ht; simp [ascii] at ht
  · rw [e] at ht; exact h ⟨t, ht⟩
  · rw [e] at ht
    -- the six bytes of "AT SH " contain no digit, so they all lie in the command
    obtain ⟨ds, hds⟩ : ∃ ds, decBytes n = ds := ⟨_, rfl⟩
    have hdig : ∀ d ∈ decBytes n, 48 ≤ d.toNat ∧ d.toNat ≤ 57 := by
      intro d hd
      obtain ⟨ch, hch, rfl⟩ := List.mem_map.1 hd
      have := Nat.isDigit_of_mem_toDigits (b := 10) (by decide) (by decide) hch
      rw [Char.isDigit_iff_toNat] at this
      rw [UInt8.toNat_ofNat_of_lt' (by simp at this; show _ < 256; omega)]
      simpa using this
    rcases List.append_eq_append_iff.1 ht with ⟨u, h1, h2⟩ | ⟨u, h1, h2⟩
    · cases u with
      | nil => exact h ⟨[], by rw [List.append_nil] at h1; simpa using h1.symm⟩
      | cons d u =>
        have hd := hdig d (by rw [h2]; simp)
        have hmem : d ∈ ascii "AT SH " := by rw [h1]; simp
        have : ∀ d ∈ ascii "AT SH ", ¬ (48 ≤ d.toNat ∧ d.toNat ≤ 57) := by decide
        exact this d hmem hd
    · exact h ⟨u, h1⟩

/-- The library's idea of the header is right, if the adapter is obedient. -/
def Header (s : OW) : Prop := Obedient s.hist → status s ≠ .notConnected → LastAcked s.hist s.lastHeader

theorem obedient_prefix {h evs : History} {b : Bytes} {ok : Bool} {t : History} (he : evs = .write b ok :: t)
    (ho : Obedient (h ++ evs)) : Obedient h := by
  rintro x lines ⟨pre, bs, b, post, rfl, h1, h2, h3⟩
  refine ho x lines ⟨pre, bs, b, post ++ evs, by simp, h1, h2, ?_⟩
  intro r t
  cases post with
  | nil => rw [he]; simp
  | cons y post => intro h; cases h; exact h3 _ _ rfl

theorem call_ok (o : ProtoObj) : ∃ ms, o.call ["OK".toList] = .ok ms ∧ ackd ms = true := by
  refine ⟨[{ frames := [{ raw := "OK".toList }] }], ?_, by decide⟩
  have h1 : obdLines ["OK".toList] = [] := by decide
  have h2 : nonObdLines ["OK".toList] = ["OK".toList] := by decide
  simp only [ProtoObj.call, Proto.call, h1, h2, parseFrames]
  rfl

theorem wake_tidy (e : Elm) : ∀ b ∈ (wake e).map line, ¬ SetsHeader b := by
  intro b hb hs
  obtain ⟨x, hx, rfl⟩ := List.mem_map.1 hb
  obtain ⟨t, ht⟩ := setsHeader_line hs
  unfold wake at hx
  split at hx
  · rw [List.mem_singleton] at hx; rw [hx] at ht; simp [ascii] at ht
  · cases hx

/-- The dialogue that sets a header: the wake-up, and the acknowledged change. -/
theorem dialogue_acked {evs : History} {pre : List (Bytes × List Str)} {hd : Bytes} (h : Dialogue evs (pre ++ [(headerLine hd, ["OK".toList])])) :
    ∃ (p : History) (bs : List Bytes) (b : Bytes), evs = p ++ .write (line (headerLine hd)) true :: (reads bs ++ .read (some b) :: []) ∧
      (∀ x ∈ bs, LinesOf x []) ∧ LinesOf b ["OK".toList] := by
  induction pre generalizing evs with
  | nil =>
    cases h with
    | cons hl hbs h => cases h; exact ⟨[], _, _, rfl, hbs, hl⟩
  | cons y pre ih =>
    rw [List.cons_append] at h
    cases h with
    | @cons cmd lines bs b evs xs hl hbs h =>
      obtain ⟨p, bs', b', rfl, h1, h2⟩ := ih h
      exact ⟨.write (line cmd) true :: (reads bs ++ .read (some b) :: p), bs', b', by simp, h1, h2⟩

theorem lastAcked_set {h evs : History} {pre : List (Bytes × List Str)} {hd : Bytes}
    (hd' : Dialogue evs (pre ++ [(headerLine hd, ["OK".toList])])) : LastAcked (h ++ evs) hd := by
  obtain ⟨p, bs, b, rfl, h1, h2⟩ := dialogue_acked hd'
  right
  refine ⟨h ++ p, bs, b, [], by simp, h1, h2, ?_⟩
  rintro ⟨x, pre, bs, b, post, heq, -⟩
  simp at heq

theorem dialogue_replied {h evs : History} {pre : List (Bytes × List Str)} {cmd : Bytes} {l : List Str}
    (hd : Dialogue evs (pre ++ [(cmd, l)])) : Replied (h ++ evs) cmd l := by
  induction pre generalizing h evs with
  | nil =>
    cases hd with
    | cons hl hbs hd => cases hd; exact ⟨h, _, _, [], rfl, hl, hbs⟩
  | cons y pre ih =>
    rw [List.cons_append] at hd
    cases hd with
    | @cons cmd lines bs b evs xs hl hbs hd =>
      have := ih (h := h ++ Event.write (line cmd) true :: (reads bs ++ [.read (some b)])) hd
      simpa using this

theorem dialogue_answered {h evs : History} {pre : List (Bytes × List Str)} {cmd : Bytes} {l : List Str}
    (hd : Dialogue evs (pre ++ [(cmd, l)])) : FinalReply (h ++ evs) cmd l := by
  induction pre generalizing h evs with
  | nil =>
    cases hd with
    | cons hl hbs hd => cases hd; exact ⟨h, _, _, [], rfl, hl, hbs, by simp⟩
  | cons y pre ih =>
    rw [List.cons_append] at hd
    cases hd with
    | @cons cmd lines bs b evs xs hl hbs hd =>
      have := ih (h := h ++ Event.write (line cmd) true :: (reads bs ++ [.read (some b)])) hd
      simpa using this

theorem header_set {dev : Device} {hd : Bytes} {s : OW} {e : Elm} {o : ProtoObj} (hl : Live s e o) (h : Header s) :
    Header (setHeader dev hd s).2 ∧
    (∀ u, (setHeader dev hd s).1 = .ok u → Obedient (setHeader dev hd s).2.hist → status (setHeader dev hd s).2 ≠ .notConnected →
      (setHeader dev hd s).2.lastHeader = hd) := by
  by_cases hh : hd = s.lastHeader
  · rw [setHeader_same hh]; exact ⟨h, fun _ _ _ _ => hh.symm⟩
  · rcases setHeader_cases (dev := dev) hl hh with ⟨pre, l, evs, x, h1, h2, h3, h4⟩ | ⟨pre, l, evs, ms, h1, h2, h3, h4⟩ | ⟨evs, h1, h4⟩ <;> rw [h4]
    · refine ⟨?_, fun u hu => by cases hu⟩
      intro ho _
      have hok := ho hd l (dialogue_answered h2)
      subst hok
      obtain ⟨ms, hms, -⟩ := call_ok o
      rw [hms] at h3; cases h3
    · have key : Obedient (s.hist ++ evs) → ackd ms = true ∧ l = ["OK".toList] := by
        intro ho
        have hok := ho hd l (dialogue_answered h2)
        subst hok
        obtain ⟨ms', hms, ha⟩ := call_ok o
        rw [hms] at h3; cases h3
        exact ⟨ha, rfl⟩
      refine ⟨?_, ?_⟩
      · intro ho _
        obtain ⟨ha, rfl⟩ := key ho
        simp only [ha, if_true]
        exact lastAcked_set h2
      · intro u _ ho _
        simp only [(key ho).1, if_true]
    · exact ⟨fun _ hne => absurd rfl hne, fun u _ _ hne => absurd rfl hne⟩

/-- Where a command that does not set the header is sent, the header is as before. -/
theorem header_body {dev : Device} {fl : ElmM.FloatFn} {c : OBDCommand} {s : OW} {e : Elm} {o : ProtoObj} (hl : Live s e o)
    (ht : Tidy c.command) (h : Header s) : Header (body dev fl c s).2 ∧
    ∃ evs, (body dev fl c s).2.hist = s.hist ++ evs ∧ (∃ b ok t, evs = .write b ok :: t) ∧
      ∀ b ∈ sent evs, ¬ SetsHeader b := by
  have hsent : ∀ p q, wake e ++ [buildCommand s c] = p ++ q → ∀ b ∈ p.map line, ¬ SetsHeader b := by
    intro p q hpq b hb hs
    obtain ⟨x, hx, rfl⟩ := List.mem_map.1 hb
    have hx' : x ∈ wake e ++ [buildCommand s c] := by rw [hpq]; simp [hx]
    rcases List.mem_append.1 hx' with hw | hw
    · exact wake_tidy e (line x) (List.mem_map.2 ⟨x, hw, rfl⟩) hs
    · rw [List.mem_singleton] at hw; subst hw; exact tidy_build s c ht (setsHeader_line hs)
  rcases body_cases (dev := dev) (fl := fl) (c := c) hl with ⟨pre, l, evs, x, h1, h2, h3, h4⟩ | ⟨pre, l, evs, ms, h1, h2, h3, h4⟩ | ⟨evs, h1, h4⟩ <;> rw [h4]
  · have hs : ∀ b ∈ sent evs, ¬ SetsHeader b := by
      have : sent evs = (wake e ++ [buildCommand s c]).map line := by rw [sent_dialogue h2, ← h1]; simp
      rw [this]; exact hsent _ [] (by simp)
    obtain ⟨b, t, hbt⟩ := dialogue_head' h2
    refine ⟨?_, evs, rfl, ⟨b, true, t, hbt⟩, hs⟩
    intro ho _
    exact lastAcked_append hbt hs (h (obedient_prefix hbt ho) (by simpa [status, hl.iface] using hl.status))
  · have hs : ∀ b ∈ sent evs, ¬ SetsHeader b := by
      have : sent evs = (wake e ++ [buildCommand s c]).map line := by rw [sent_dialogue h2, ← h1]; simp
      rw [this]; exact hsent _ [] (by simp)
    obtain ⟨b, t, hbt⟩ := dialogue_head' h2
    refine ⟨?_, evs, rfl, ⟨b, true, t, hbt⟩, hs⟩
    intro ho _
    exact lastAcked_append hbt hs (h (obedient_prefix hbt ho) (by simpa [status, hl.iface] using hl.status))
  · refine ⟨fun _ hne => absurd rfl hne, evs, rfl, broken_head h1, ?_⟩
    obtain ⟨p, q, h5, h6, h7⟩ := sent_broken h1
    rw [h7]; exact hsent p q h5

theorem live_set {dev : Device} {hd : Bytes} {s : OW} (h : OSound s) : OSound (setHeader dev hd s).2 :=
  kept_setHeader (ostable_sound dev) hd s h

/-- The exchange of a query: the header before the command itself is sent. -/
theorem header_exchange {dev : Device} {fl : ElmM.FloatFn} {c : OBDCommand} {s : OW} {e : Elm} {o : ProtoObj} (hl : Live s e o)
    (hs : OSound s) (ht : Tidy c.command) (h : Header s) : Header (exchange dev fl c s).2 ∧
    ∃ evs, (exchange dev fl c s).2.hist = s.hist ++ evs ∧
      ∀ e1 b ok e2, evs = e1 ++ .write b ok :: e2 → b ≠ line (ascii " ") → ¬ SetsHeader b →
        Obedient (s.hist ++ e1) → LastAcked (s.hist ++ e1) c.header := by
  have hb : ∀ {s : OW} {e : Elm}, Live s e o → Header s → s.lastHeader = c.header ∨ ¬ Obedient s.hist →
      Header (body dev fl c s).2 ∧ ∃ evs, (body dev fl c s).2.hist = s.hist ++ evs ∧
        ∀ e1 b ok e2, evs = e1 ++ .write b ok :: e2 → Obedient (s.hist ++ e1) → LastAcked (s.hist ++ e1) c.header := by
    intro s e hl h hlh
    obtain ⟨h1, evs, h2, ⟨b, ok, t, h3⟩, h4⟩ := header_body (dev := dev) (fl := fl) hl ht h
    refine ⟨h1, evs, h2, ?_⟩
    intro e1 b' ok' e2 he ho
    have hst : status s ≠ .notConnected := by simpa [status, hl.iface] using hl.status
    rcases hlh with hlh | hno
    · cases e1 with
      | nil =>
        rw [List.append_nil] at ho ⊢
        rw [← hlh]; exact h ho hst
      | cons x e1 =>
        rw [h3] at he
        have hx : x = .write b ok := by simp at he; exact he.1.symm
        subst hx
        rw [← hlh]
        refine lastAcked_append rfl ?_ (h (obedient_prefix rfl ho) hst)
        intro y hy
        apply h4
        rw [h3, he, sent_append]
        exact List.mem_append_left _ hy
    · cases e1 with
      | nil => rw [List.append_nil] at ho; exact absurd ho hno
      | cons x e1 =>
        rw [h3] at he
        have hx : x = .write b ok := by simp at he; exact he.1.symm
        subst hx
        exact absurd (obedient_prefix rfl ho) hno
  have hst : status s ≠ .notConnected := by simpa [status, hl.iface] using hl.status
  rw [exchange_eq]
  by_cases hh : c.header = s.lastHeader
  · rw [PyM.bind_ok (setHeader_same hh)]
    obtain ⟨h1, evs, h2, h3⟩ := hb hl h (Or.inl hh.symm)
    exact ⟨h1, evs, h2, fun e1 b ok e2 he _ _ => h3 e1 b ok e2 he⟩
  · have hset := header_set (dev := dev) (hd := c.header) hl h
    have hwh : ∀ p q, wake e ++ [headerLine c.header] = p ++ q → ∀ b ∈ p.map line, b = line (ascii " ") ∨ SetsHeader b := by
      intro p q hpq b hb
      obtain ⟨x, hx, rfl⟩ := List.mem_map.1 hb
      have hx' : x ∈ wake e ++ [headerLine c.header] := by rw [hpq]; simp [hx]
      rcases List.mem_append.1 hx' with hw | hw
      · left
        unfold wake at hw
        split at hw
        · rw [List.mem_singleton] at hw; rw [hw]
        · cases hw
      · right; rw [List.mem_singleton] at hw; rw [hw]; exact ⟨_, rfl⟩
    rcases setHeader_cases (dev := dev) hl hh with ⟨pre, l, evs, x, h1, h2, h3, h4⟩ | ⟨pre, l, evs, ms, h1, h2, h3, h4⟩ | ⟨evs, h1, h4⟩
    · have he : (setHeader dev c.header >>= fun _ => body dev fl c) s = (.error x, woken s e evs) := by
        rw [PyM.bind_apply, h4]
      rw [h4] at hset
      rw [he]
      refine ⟨hset.1, evs, rfl, ?_⟩
      intro e1 b ok e2 hev hb1 hb2
      exfalso
      have hm : b ∈ sent evs := by rw [hev, sent_append]; simp [sent]
      have hse : sent evs = (wake e ++ [headerLine c.header]).map line := by rw [sent_dialogue h2, ← h1]; simp
      rw [hse] at hm
      rcases hwh _ [] (by simp) b hm with h | h
      · exact hb1 h
      · exact hb2 h
    · rw [h4] at hset
      rw [PyM.bind_ok h4]
      have hl' : Live { woken s e evs with lastHeader := if ackd ms then c.header else s.lastHeader } { e with lowPower := false } o :=
        ⟨rfl, hl.status, hl.port, hl.proto⟩
      have hcond : (if ackd ms then c.header else s.lastHeader) = c.header ∨ ¬ Obedient (s.hist ++ evs) := by
        by_cases hob : Obedient (s.hist ++ evs)
        · left; exact hset.2 () rfl hob hl.status
        · exact Or.inr hob
      obtain ⟨g1, evs', g2, g3⟩ := hb hl' hset.1 hcond
      refine ⟨g1, evs ++ evs', g2.trans (List.append_assoc _ _ _), ?_⟩
      intro e1 b ok e2 hev hb1 hb2 ho
      rcases append_cases hev with ⟨post', e3, e4⟩ | ⟨pre', e3, e4⟩
      · exfalso
        have hm : b ∈ sent evs := by rw [e3, sent_append]; simp [sent]
        have hse : sent evs = (wake e ++ [headerLine c.header]).map line := by rw [sent_dialogue h2, ← h1]; simp
        rw [hse] at hm
        rcases hwh _ [] (by simp) b hm with h | h
        · exact hb1 h
        · exact hb2 h
      · rw [e4, ← List.append_assoc] at ho ⊢
        exact g3 pre' b ok e2 e3 ho
    · rw [PyM.bind_ok h4, body_nc (e := { lost e with lowPower := false }) rfl rfl]
      refine ⟨fun _ hne => absurd rfl hne, evs, rfl, ?_⟩
      intro e1 b ok e2 hev hb1 hb2
      exfalso
      have hm : b ∈ sent evs := by rw [hev, sent_append]; simp [sent]
      obtain ⟨p, q, h5, h6, h7⟩ := sent_broken h1
      rw [h7] at hm
      rcases hwh p q h5 b hm with h | h
      · exact hb1 h
      · exact hb2 h

theorem header_query {dev : Device} {fl : ElmM.FloatFn} {c : OBDCommand} {force : Bool} {s : OW}
    (hs : OSound s) (ht : Tidy c.command) (h : Header s) : Header (query dev fl c force s).2 ∧
    ∃ evs, (query dev fl c force s).2.hist = s.hist ++ evs ∧
      ∀ e1 b ok e2, evs = e1 ++ .write b ok :: e2 → b ≠ line (ascii " ") → ¬ SetsHeader b →
        Obedient (s.hist ++ e1) → LastAcked (s.hist ++ e1) c.header := by
  rcases query_cases dev fl c force s with ⟨h1, -⟩ | ⟨x, h1, -⟩ | ⟨h1, hst, -⟩
  · rw [h1]; exact ⟨h, [], by simp, by simp⟩
  · rw [h1]; exact ⟨h, [], by simp, by simp⟩
  · obtain ⟨e, o, hl⟩ := live_of_sound hs hst
    rw [h1]; exact header_exchange hl hs ht h

theorem header_onSend {α : Type} {m : ElmM α} {s : OW} (h : Header s)
    (hm : ∀ e, s.interface = some e → ∃ evs, (m ⟨e, s.hist⟩).2.hist = s.hist ++ evs ∧
      ((m ⟨e, s.hist⟩).2.elm.status = .notConnected ∨ (m ⟨e, s.hist⟩).2.elm.status = e.status ∧ (∃ b ok t, evs = .write b ok :: t) ∧ ∀ b ∈ sent evs, ¬ SetsHeader b)) :
    Header (onInterface m s).2 := by
  unfold onInterface
  cases hi : s.interface with
  | none => exact h
  | some e =>
    obtain ⟨evs, h1, h2⟩ := hm e hi
    intro ho hst
    simp only [h1] at ho ⊢
    rcases h2 with h2 | ⟨h2, ⟨b, ok, t, h3⟩, h4⟩
    · exact absurd h2 hst
    · refine lastAcked_append h3 h4 (h (obedient_prefix h3 ho) ?_)
      have : (m ⟨e, s.hist⟩).2.elm.status ≠ .notConnected := hst
      rw [h2] at this
      simpa [status, hi] using this

theorem header_lowPower (dev : Device) (s : OW) (hs : OSound s) (h : Header s) : Header (lowPower dev s).2 := by
  by_cases hst : status s = .notConnected
  · rw [lowPower_nc hst]; exact h
  · obtain ⟨e, o, hl⟩ := live_of_sound hs hst
    unfold lowPower
    rw [PyM.bind_ok (show PyM.get s = (.ok s, s) from rfl), hl.iface]
    refine header_onSend h ?_
    intro e' he'
    rw [hl.iface] at he'; cases he'
    unfold ElmM.lowPower
    rw [PyM.bind_ok (show ElmM.getElm _ = (.ok e, _) from rfl), if_neg hl.status]
    rcases send_cases dev (ascii "ATLP") true elmLpActive ⟨e, s.hist⟩ hl.port with ⟨l, evs, g1, g⟩ | ⟨evs, g1, g⟩
    · rw [PyM.bind_ok g]
      refine ⟨evs, ?_, ?_⟩
      · split <;> rfl
      · right
        obtain ⟨b, t, ht⟩ := dialogue_head g1
        refine ⟨by split <;> rfl, ⟨b, true, t, ht⟩, ?_⟩
        intro b hb hset
        rw [sent_dialogue g1] at hb
        simp only [List.map_cons, List.map_nil, List.mem_singleton] at hb
        rw [hb] at hset
        obtain ⟨t, ht⟩ := setsHeader_line hset
        simp [ascii] at ht
    · rw [PyM.bind_ok g]
      refine ⟨evs, by split <;> rfl, Or.inl ?_⟩
      split <;> rfl

theorem header_normalPower (dev : Device) (s : OW) (hs : OSound s) (h : Header s) : Header (normalPower dev s).2 := by
  by_cases hst : status s = .notConnected
  · rw [normalPower_nc hst]; exact h
  · obtain ⟨e, o, hl⟩ := live_of_sound hs hst
    unfold normalPower
    rw [PyM.bind_ok (show PyM.get s = (.ok s, s) from rfl), hl.iface]
    refine header_onSend h ?_
    intro e' he'
    rw [hl.iface] at he'; cases he'
    unfold ElmM.normalPower
    rw [PyM.bind_ok (show ElmM.getElm _ = (.ok e, _) from rfl), if_neg hl.status]
    rcases send_cases dev (ascii " ") false elmPrompt ⟨e, s.hist⟩ hl.port with ⟨l, evs, g1, g⟩ | ⟨evs, g1, g⟩
    · rw [PyM.bind_ok g]
      refine ⟨evs, rfl, Or.inr ?_⟩
      obtain ⟨b, t, ht⟩ := dialogue_head g1
      refine ⟨rfl, ⟨b, true, t, ht⟩, ?_⟩
      intro b hb hset
      rw [sent_dialogue g1] at hb
      simp only [List.map_cons, List.map_nil, List.mem_singleton] at hb
      rw [hb] at hset
      obtain ⟨t, ht⟩ := setsHeader_line hset
      simp [ascii] at ht
    · rw [PyM.bind_ok g]
      exact ⟨evs, rfl, Or.inl rfl⟩

/-- `close` leaves the object unconnected, unless setting the header raised. -/
theorem close_status (dev : Device) (s : OW) (hs : OSound s) : status (close dev s).2 = .notConnected ∨
    ∃ x, (setHeader dev engineHeader { s with supported := [] }).1 = .error x ∧
      (close dev s) = (.error x, (setHeader dev engineHeader { s with supported := [] }).2) := by
  unfold close
  rw [PyM.bind_ok (show PyM.modify _ s = (.ok (), _) from rfl), PyM.bind_ok (show PyM.get _ = (.ok _, _) from rfl)]
  cases hi : s.interface with
  | none => left; rfl
  | some e =>
    simp only
    rw [PyM.bind_apply]
    cases hh : setHeader dev engineHeader { s with interface := some e, supported := [] } with
    | mk r s1 =>
      cases r with
      | error x => right; exact ⟨x, rfl, rfl⟩
      | ok u =>
        left
        simp only
        rw [PyM.bind_apply]
        cases hi1 : s1.interface with
        | none => simp [onInterface, hi1, status]
        | some e1 =>
          have hca := ElmM.close_any dev ⟨e1, s1.hist⟩
          simp only [onInterface, hi1]
          cases hcl : ElmM.close dev ⟨e1, s1.hist⟩ with
          | mk r w =>
            rw [hcl] at hca
            cases r with
            | error x => exact hca.1
            | ok u => rfl

theorem header_close (dev : Device) (s : OW) (hs : OSound s) (h : Header s) : Header (close dev s).2 := by
  rcases close_status dev s hs with h1 | ⟨x, h1, h2⟩
  · exact fun _ hne => absurd h1 hne
  · rw [h2]
    by_cases hst : status s = .notConnected
    · exfalso
      rw [close_nc hs hst] at h2; cases h2
    · obtain ⟨e, o, hl⟩ := live_of_sound hs hst
      exact (header_set (dev := dev) (hd := engineHeader) (s := { s with supported := [] }) ⟨hl.iface, hl.status, hl.port, hl.proto⟩ h).1

theorem header_call (dev : Device) (fl : ElmM.FloatFn) (c : Call) (hc : OrdinaryCall c) (s : OW) (hs : OSound s) (h : Header s) :
    Header (c.after dev fl s) := by
  cases c with
  | query c force => exact (header_query hs hc.1 h).1
  | lowPower => exact header_lowPower dev s hs h
  | normalPower => exact header_normalPower dev s hs h
  | close => exact header_close dev s hs h

theorem header_session (dev : Device) (fl : ElmM.FloatFn) (cs : List Call) (hc : ∀ c ∈ cs, OrdinaryCall c) (s : OW) (hs : OSound s) (h : Header s) :
    Header (session dev fl cs s) := by
  induction cs generalizing s with
  | nil => exact h
  | cons c cs ih => exact ih (fun c hcc => hc c (by simp [hcc])) _ (osound_call dev fl c s hs) (header_call dev fl c (hc c (by simp)) s hs h)

/-- A predicate kept by every query of a listing command is kept by loading the commands. -/
theorem loadLoop_of {dev : Device} {fl : ElmM.FloatFn} {P : OW → Prop} (hq : ∀ c ∈ pidGetters, Kept P (query dev fl c false))
    (hsup : ∀ s l, P s → P { s with supported := l }) (l : List OBDCommand) (hl : ∀ c ∈ l, c ∈ pidGetters) : Kept P (loadLoop dev fl l) := by
  induction l with
  | nil => exact Kept.pure _
  | cons g l ih =>
    have ih := ih (fun c hc => hl c (by simp [hc]))
    unfold loadLoop
    refine Kept.bind (P := P) Kept.get (fun s => ?_)
    refine Kept.bind (P := P) (Kept.ofExcept _) (fun b => ?_)
    split
    · exact ih
    · refine Kept.bind (P := P) (hq g (hl g (by simp))) (fun r => ?_)
      split
      · exact ih
      · refine Kept.bind (P := P) (Kept.ofExcept _) (fun m => ?_)
        refine Kept.bind (P := P) (Kept.ofExcept _) (fun p => ?_)
        exact Kept.bind (P := P) (Kept.modify (fun s hs => hsup s _ hs)) (fun _ => ih)

theorem loadCommands_of {dev : Device} {fl : ElmM.FloatFn} {P : OW → Prop} (hq : ∀ c ∈ pidGetters, Kept P (query dev fl c false))
    (hsup : ∀ s l, P s → P { s with supported := l }) : Kept P (loadCommands dev fl) := by
  unfold loadCommands
  refine Kept.bind (P := P) Kept.get (fun s => ?_)
  split
  · exact Kept.pure _
  · exact loadLoop_of hq hsup _ (fun _ h => h)

theorem getters_tidy : ∀ c ∈ pidGetters, Tidy c.command := by
  have : (pidGetters.all (fun c => decide (c.command[2]? ≠ some 0x20))) = true := by decide +kernel
  intro c hc ⟨t, ht⟩
  have h1 := List.all_eq_true.1 this c hc
  rw [ht] at h1
  simp [ascii] at h1

theorem connect_attrs {dev : Device} {fl : ElmM.FloatFn} {a : Args} {s1 : OW}
    (h1 : connect dev fl a.ports a.portstr a.cfg { supported := baseCommands, fast := a.fast } = (.ok (), s1)) :
    status s1 = .notConnected ∨ s1.lastHeader = engineHeader ∧ s1.lastCommand = [] ∧ s1.frameCounts = [] ∧ s1.supported = baseCommands ∧
      ∃ e, s1.interface = some e ∧ e.lowPower = false := by
  by_cases hst : status s1 = .notConnected
  · exact Or.inl hst
  · right
    obtain ⟨port, t, -, -, hlh, hsup, hlc, hfc, ho⟩ := connect_opened h1 rfl hst
    obtain ⟨w, hw, rfl⟩ := openInterface_ok ho
    refine ⟨hlh, hlc, hfc, hsup, _, rfl, ?_⟩
    rcases ElmM.construct_lowPower hw with h | h
    · exact h
    · exact absurd h.1 hst

theorem constructed_header {dev : Device} {fl : ElmM.FloatFn} {a : Args} {s : OW} (h : Constructed dev fl a s) : OSound s ∧ Header s := by
  unfold Constructed construct at h
  obtain ⟨_, s1, h1, h⟩ := bind_inv h
  have hk : OSound s1 ∧ Header s1 := by
    refine ⟨connect_sound h1 ⟨shape_nil, by simp⟩, ?_⟩
    have hw := connect_hist (R := Writes (fun b => ¬ SetsHeader b)) (dev := dev) (fl := fl) (cfg := a.cfg) (fun port hist hh =>
      ElmM.kept_construct (steps_writes dev a.cfg.protocol (by
          intro c hc hset
          obtain ⟨t, ht⟩ := setsHeader_line hset
          simp only [List.mem_cons, List.not_mem_nil, or_false] at hc
          rcases hc with rfl | rfl | rfl | rfl | rfl | rfl <;> simp [ascii] at ht)
        (ElmM.kept_setProtocol (stable_writes dev _) a.cfg.protocol (by
          intro id hset
          obtain ⟨t, ht⟩ := setsHeader_line hset
          simp [ascii] at ht) (by
          intro hset
          obtain ⟨t, ht⟩ := setsHeader_line hset
          simp [ascii] at ht) (by
          intro hset
          obtain ⟨t, ht⟩ := setsHeader_line hset
          simp [ascii] at ht) (by
          intro hset
          obtain ⟨t, ht⟩ := setsHeader_line hset
          simp [ascii] at ht))) fl port hist
        (fun e err => writes_append hh (by intro b ok h; simp at h))) h1 ⟨shape_nil, by simp⟩ (by intro b ok h; simp at h)
    intro _ hst
    rcases connect_attrs h1 with h2 | ⟨h2, -⟩
    · exact absurd h2 hst
    · left
      refine ⟨h2, ?_⟩
      rintro ⟨x, pre, bs, b, post, heq, -⟩
      exact hw (line (headerLine x)) true (by rw [heq]; simp) ⟨x, rfl⟩
  have := loadCommands_of (dev := dev) (fl := fl) (P := fun s => OSound s ∧ Header s)
    (fun c hc s hs => ⟨kept_query (ostable_sound dev) fl c false s hs.1, (header_query hs.1 (getters_tidy c hc) hs.2).1⟩) (fun _ _ h => h) s1 hk
  rw [h] at this; exact this

end ObdM
end Model
