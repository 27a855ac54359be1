import Verif.Lemmas.Header
/-!
# The last command remembered by the library
-/
namespace Model
open Py Spec
namespace ObdM

/-- Apart from housekeeping, the last command that arrived is the one remembered. -/
def Recalls (s : OW) : Prop := status s ≠ .notConnected → s.lastCommand ≠ [] →
  ∃ pre post, s.hist = pre ++ .write (line s.lastCommand) true :: post ∧ ∀ b ∈ written post, Housekeeping b

theorem written_append (a b : History) : written (a ++ b) = written a ++ written b := by simp [written]

theorem written_sent {h : History} {b : Bytes} (hb : b ∈ written h) : b ∈ sent h := by
  unfold written at hb
  obtain ⟨e, he, h1⟩ := List.mem_filterMap.1 hb
  unfold sent
  refine List.mem_filterMap.2 ⟨e, he, ?_⟩
  cases e <;> simp at h1 ⊢
  rename_i b' ok
  cases ok <;> simp_all

theorem recalls_append {s s' : OW} {evs : History} (h : Recalls s) (h1 : s'.hist = s.hist ++ evs) (h2 : s'.lastCommand = s.lastCommand)
    (h3 : status s ≠ .notConnected) (h4 : ∀ b ∈ sent evs, Housekeeping b) : Recalls s' := by
  intro _ hne
  rw [h2] at hne ⊢
  obtain ⟨pre, post, h5, h6⟩ := h h3 hne
  refine ⟨pre, post ++ evs, by rw [h1, h5]; simp, ?_⟩
  intro b hb
  rw [written_append] at hb
  rcases List.mem_append.1 hb with hb | hb
  · exact h6 b hb
  · exact h4 b (written_sent hb)

theorem dialogue_last {evs : History} {pre : List (Bytes × List Str)} {cmd : Bytes} {l : List Str} (h : Dialogue evs (pre ++ [(cmd, l)])) :
    ∃ (p : History) (bs : List Bytes) (b : Bytes), evs = p ++ .write (line cmd) true :: (reads bs ++ .read (some b) :: []) ∧
      (∀ x ∈ bs, LinesOf x []) ∧ LinesOf b l := by
  induction pre generalizing evs with
  | nil =>
    cases h with
    | cons hl hbs h => cases h; exact ⟨[], _, _, rfl, hbs, hl⟩
  | cons y pre ih =>
    rw [List.cons_append] at h
    cases h with
    | @cons cmd lines bs b evs xs hl hbs h =>
      obtain ⟨p, bs', b', rfl, h1, h2⟩ := ih h
      exact ⟨.write (line cmd) true :: (reads bs ++ .read (some b) :: p), bs', b', by simp, h1, h2⟩

theorem house_wake (e : Elm) : ∀ b ∈ (wake e).map line, Housekeeping b := by
  intro b hb
  obtain ⟨x, hx, rfl⟩ := List.mem_map.1 hb
  unfold wake at hx
  split at hx
  · rw [List.mem_singleton] at hx; rw [hx]; exact Or.inr (Or.inr (Or.inl rfl))
  · cases hx

theorem recalls_set {dev : Device} {hd : Bytes} {s : OW} {e : Elm} {o : ProtoObj} (hl : Live s e o) (h : Recalls s) :
    Recalls (setHeader dev hd s).2 := by
  have hst : status s ≠ .notConnected := by simpa [status, hl.iface] using hl.status
  by_cases hh : hd = s.lastHeader
  · rw [setHeader_same hh]; exact h
  · have hs : ∀ {evs pre l}, pre.map Prod.fst = wake e → Dialogue evs (pre ++ [(headerLine hd, l)]) → ∀ b ∈ sent evs, Housekeeping b := by
      intro evs pre l h1 h2 b hb
      have : sent evs = (wake e).map line ++ [line (headerLine hd)] := by rw [sent_dialogue h2, ← h1]; simp
      rw [this] at hb
      rcases List.mem_append.1 hb with hb | hb
      · exact house_wake e b hb
      · rw [List.mem_singleton] at hb; exact Or.inr (Or.inl ⟨hd, hb⟩)
    rcases setHeader_cases (dev := dev) hl hh with ⟨pre, l, evs, x, h1, h2, h3, h4⟩ | ⟨pre, l, evs, ms, h1, h2, h3, h4⟩ | ⟨evs, h1, h4⟩ <;> rw [h4]
    · exact recalls_append h rfl rfl hst (hs h1 h2)
    · exact recalls_append h rfl rfl hst (hs h1 h2)
    · exact fun hne => absurd rfl hne

theorem recalls_body {dev : Device} {fl : ElmM.FloatFn} {c : OBDCommand} {s s' : OW} {r : Response} {e : Elm} {o : ProtoObj} (hl : Live s e o)
    (h : Recalls s) (hq : body dev fl c s = (.ok r, s')) : Recalls s' := by
  have hst : status s ≠ .notConnected := by simpa [status, hl.iface] using hl.status
  rcases body_cases (dev := dev) (fl := fl) (c := c) hl with ⟨pre, l, evs, x, h1, h2, h3, h4⟩ | ⟨pre, l, evs, ms, h1, h2, h3, h4⟩ | ⟨evs, h1, h4⟩
  · rw [h4] at hq; cases hq
  · have hs' : s' = noted (woken s e evs) c (buildCommand s c) (countFrames ms) := by
      rw [h4] at hq; exact (congrArg Prod.snd hq).symm
    subst hs'
    by_cases hb : buildCommand s c = []
    · refine recalls_append h rfl (by simp [noted, hb, woken]) hst ?_
      have : sent evs = (wake e).map line ++ [line []] := by rw [sent_dialogue h2, ← h1, hb]; simp
      rw [this]
      intro b hb
      rcases List.mem_append.1 hb with hb | hb
      · exact house_wake e b hb
      · rw [List.mem_singleton] at hb; exact Or.inl hb
    · intro _ _
      obtain ⟨p, bs, b, h5, -, -⟩ := dialogue_last h2
      have hlc : (noted (woken s e evs) c (buildCommand s c) (countFrames ms)).lastCommand = buildCommand s c := by
        simp [noted, hb]
      rw [hlc]
      refine ⟨s.hist ++ p, reads bs ++ [.read (some b)], ?_, ?_⟩
      · show s.hist ++ evs = _
        rw [h5]; simp
      · intro x hx
        have hx := written_sent hx
        rw [sent_append, sent_reads] at hx
        simp [sent] at hx
  · have hs' : s' = noted (dropped s e evs) c (buildCommand s c) 0 := by
      rw [h4] at hq; exact (congrArg Prod.snd hq).symm
    subst hs'
    exact fun hne => absurd rfl hne

theorem recalls_exchange {dev : Device} {fl : ElmM.FloatFn} {c : OBDCommand} {s s' : OW} {r : Response} {e : Elm} {o : ProtoObj} (hl : Live s e o)
    (hs : OSound s) (h : Recalls s) (hq : exchange dev fl c s = (.ok r, s')) : Recalls s' := by
  rw [exchange_eq] at hq
  obtain ⟨_, s1, h1, hq⟩ := bind_inv hq
  have h2 := recalls_set (dev := dev) (hd := c.header) hl h
  have h3 := live_set (dev := dev) (hd := c.header) hs
  rw [h1] at h2 h3
  by_cases hst : status s1 = .notConnected
  · cases hi : s1.interface with
    | none =>
      exfalso
      by_cases hh : c.header = s.lastHeader
      · rw [setHeader_same hh] at h1
        cases h1
        rw [hl.iface] at hi; cases hi
      · rcases setHeader_cases (dev := dev) hl hh with ⟨pre, l, evs, x, -, -, -, h4⟩ | ⟨pre, l, evs, ms, -, -, -, h4⟩ | ⟨evs, -, h4⟩ <;>
          rw [h4] at h1 <;> cases h1 <;> cases hi
    | some e1 =>
      have hs1 : e1.status = .notConnected := by simpa [status, hi] using hst
      rw [body_nc hi hs1] at hq
      have hs' : s' = { s1 with lastCommand := if (buildCommand s1 c).isEmpty then s1.lastCommand else buildCommand s1 c } :=
        (congrArg Prod.snd hq).symm
      subst hs'
      exact fun hne => absurd hst hne
  · obtain ⟨e1, o1, hl1⟩ := live_of_sound h3 hst
    exact recalls_body hl1 h2 hq

theorem recalls_query {dev : Device} {fl : ElmM.FloatFn} {c : OBDCommand} {force : Bool} {s s' : OW} {r : Response}
    (hs : OSound s) (h : Recalls s) (hq : query dev fl c force s = (.ok r, s')) : Recalls s' := by
  rcases query_cases dev fl c force s with ⟨h1, -⟩ | ⟨x, h1, -⟩ | ⟨h1, hst, -⟩ <;> rw [h1] at hq
  · cases hq; exact h
  · cases hq
  · obtain ⟨e, o, hl⟩ := live_of_sound hs hst
    exact recalls_exchange hl hs h hq

theorem recalls_onSend {α : Type} {m : ElmM α} {s : OW} (hst : status s ≠ .notConnected) (h : Recalls s)
    (hm : ∀ e, s.interface = some e → ∃ evs, (m ⟨e, s.hist⟩).2.hist = s.hist ++ evs ∧
      ((m ⟨e, s.hist⟩).2.elm.status = .notConnected ∨ ∀ b ∈ sent evs, Housekeeping b)) :
    Recalls (onInterface m s).2 := by
  unfold onInterface
  cases hi : s.interface with
  | none => exact h
  | some e =>
    obtain ⟨evs, h1, h2⟩ := hm e hi
    rcases h2 with h2 | h2
    · exact fun hne => absurd h2 hne
    · exact recalls_append h h1 rfl hst h2

theorem recalls_lowPower (dev : Device) (s : OW) (hs : OSound s) (h : Recalls s) : Recalls (lowPower dev s).2 := by
  by_cases hst : status s = .notConnected
  · rw [lowPower_nc hst]; exact h
  · obtain ⟨e, o, hl⟩ := live_of_sound hs hst
    unfold lowPower
    rw [PyM.bind_ok (show PyM.get s = (.ok s, s) from rfl), hl.iface]
    refine recalls_onSend hst h ?_
    intro e' he'
    rw [hl.iface] at he'; cases he'
    unfold ElmM.lowPower
    rw [PyM.bind_ok (show ElmM.getElm _ = (.ok e, _) from rfl), if_neg hl.status]
    rcases send_cases dev (ascii "ATLP") true elmLpActive ⟨e, s.hist⟩ hl.port with ⟨l, evs, g1, g⟩ | ⟨evs, g1, g⟩
    · rw [PyM.bind_ok g]
      refine ⟨evs, by split <;> rfl, Or.inr ?_⟩
      intro b hb
      rw [sent_dialogue g1] at hb
      simp only [List.map_cons, List.map_nil, List.mem_singleton] at hb
      exact Or.inr (Or.inr (Or.inr hb))
    · rw [PyM.bind_ok g]
      refine ⟨evs, by split <;> rfl, Or.inl ?_⟩
      split <;> rfl

theorem recalls_normalPower (dev : Device) (s : OW) (hs : OSound s) (h : Recalls s) : Recalls (normalPower dev s).2 := by
  by_cases hst : status s = .notConnected
  · rw [normalPower_nc hst]; exact h
  · obtain ⟨e, o, hl⟩ := live_of_sound hs hst
    unfold normalPower
    rw [PyM.bind_ok (show PyM.get s = (.ok s, s) from rfl), hl.iface]
    refine recalls_onSend hst h ?_
    intro e' he'
    rw [hl.iface] at he'; cases he'
    unfold ElmM.normalPower
    rw [PyM.bind_ok (show ElmM.getElm _ = (.ok e, _) from rfl), if_neg hl.status]
    rcases send_cases dev (ascii " ") false elmPrompt ⟨e, s.hist⟩ hl.port with ⟨l, evs, g1, g⟩ | ⟨evs, g1, g⟩
    · rw [PyM.bind_ok g]
      refine ⟨evs, rfl, Or.inr ?_⟩
      intro b hb
      rw [sent_dialogue g1] at hb
      simp only [List.map_cons, List.map_nil, List.mem_singleton] at hb
      exact Or.inr (Or.inr (Or.inl hb))
    · rw [PyM.bind_ok g]
      exact ⟨evs, rfl, Or.inl rfl⟩

theorem recalls_close (dev : Device) (s : OW) (hs : OSound s) (h : Recalls s) : Recalls (close dev s).2 := by
  rcases close_status dev s hs with h1 | ⟨x, h1, h2⟩
  · exact fun hne => absurd h1 hne
  · rw [h2]
    by_cases hst : status s = .notConnected
    · exfalso
      rw [close_nc hs hst] at h2; cases h2
    · obtain ⟨e, o, hl⟩ := live_of_sound hs hst
      exact recalls_set (dev := dev) (hd := engineHeader) (s := { s with supported := [] }) ⟨hl.iface, hl.status, hl.port, hl.proto⟩ h

theorem recalls_ran {dev : Device} {fl : ElmM.FloatFn} {calls : List Call} {s s' : OW} (hr : Ran dev fl s calls s') (hs : OSound s)
    (h : Recalls s) : OSound s' ∧ Recalls s' := by
  induction hr with
  | nil s => exact ⟨hs, h⟩
  | query s c force r s1 calls s' hq _ ih =>
    refine ih ?_ (recalls_query hs h hq)
    have := kept_query (ostable_sound dev) fl c force s hs
    rw [hq] at this; exact this
  | other s call calls s' hc _ ih =>
    refine ih (osound_call dev fl call s hs) ?_
    cases call with
    | query c force => exact absurd rfl (hc c force)
    | lowPower => exact recalls_lowPower dev s hs h
    | normalPower => exact recalls_normalPower dev s hs h
    | close => exact recalls_close dev s hs h

theorem loadLoop_ok {dev : Device} {fl : ElmM.FloatFn} {P : OW → Prop}
    (hq : ∀ c ∈ pidGetters, ∀ s r s', P s → query dev fl c false s = (.ok r, s') → P s')
    (hsup : ∀ s l, P s → P { s with supported := l }) (l : List OBDCommand) (hl : ∀ c ∈ l, c ∈ pidGetters) (s s' : OW) (hs : P s)
    (h : loadLoop dev fl l s = (.ok (), s')) : P s' := by
  induction l generalizing s with
  | nil => cases h; exact hs
  | cons g l ih =>
    have ih := ih (fun c hc => hl c (by simp [hc]))
    unfold loadLoop at h
    rw [PyM.bind_ok (show PyM.get s = (.ok s, s) from rfl)] at h
    replace h := bind_inv h
    obtain ⟨b, s1, h1, h⟩ := h
    have : s1 = s := by
      cases ht : testCmd s g <;> rw [ht] at h1 <;> cases h1
      rfl
    subst this
    split at h
    · exact ih _ hs h
    · replace h := bind_inv h
      obtain ⟨r, s2, h2, h⟩ := h
      have hs2 := hq g (hl g (by simp)) _ _ _ hs h2
      split at h
      · exact ih _ hs2 h
      · replace h := bind_inv h
        obtain ⟨m, s3, h3, h⟩ := h
        have : s3 = s2 := by
          cases ht : g.mode <;> rw [ht] at h3 <;> cases h3
          rfl
        subst this
        replace h := bind_inv h
        obtain ⟨p, s4, h4, h⟩ := h
        have : s4 = s3 := by
          cases ht : g.pid <;> rw [ht] at h4 <;> cases h4
          rfl
        subst this
        replace h := bind_inv h
        obtain ⟨_, s5, h5, h⟩ := h
        cases h5
        exact ih _ (hsup _ _ hs2) h

theorem constructed_recalls {dev : Device} {fl : ElmM.FloatFn} {a : Args} {s : OW} (h : Constructed dev fl a s) : OSound s ∧ Recalls s := by
  refine ⟨constructed_sound h, ?_⟩
  unfold Constructed construct at h
  obtain ⟨_, s1, h1, h⟩ := bind_inv h
  have hk : OSound s1 ∧ Recalls s1 := by
    refine ⟨connect_sound h1 ⟨shape_nil, by simp⟩, ?_⟩
    intro hst hne
    rcases connect_attrs h1 with h2 | ⟨-, h2, -⟩
    · exact absurd h2 hst
    · exact absurd h2 hne
  unfold loadCommands at h
  rw [PyM.bind_ok (show PyM.get s1 = (.ok s1, s1) from rfl)] at h
  split at h
  · cases h; exact hk.2
  · refine (loadLoop_ok (P := fun s => OSound s ∧ Recalls s) ?_ (fun _ _ h => h) _ (fun _ h => h) s1 s hk h).2
    intro c hc s r s' hs hq
    refine ⟨?_, recalls_query hs.1 hs.2 hq⟩
    have := kept_query (ostable_sound dev) fl c false s hs.1
    rw [hq] at this; exact this

end ObdM
end Model
