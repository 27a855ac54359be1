import Verif.Props.Traffic
/-!
# C80: a response depends on the reply only
-/
namespace Props
open Py Model Spec ObdM

theorem justRead_dialogue {evs h : History} {xs : List (Bytes × List Str)} {cmd : Bytes} {l : List Str} (hd : Dialogue evs (xs ++ [(cmd, l)])) :
    JustRead (h ++ evs) l := by
  induction xs generalizing h evs with
  | nil =>
    cases hd with
    | cons hl hbs h1 =>
      cases h1
      rename_i bs b
      exact ⟨h ++ .write (line cmd) true :: bs.map (fun b => Event.read (some b)), b, by simp, hl⟩
  | cons x xs ih =>
    cases hd with
    | cons hl hbs h1 =>
      rename_i cmd' lines bs b evs'
      obtain ⟨pre, b', h2, h3⟩ := ih (h := h ++ (Event.write (line cmd') true :: (bs.map (fun b => Event.read (some b)) ++ [.read (some b)]))) h1
      exact ⟨pre, b', by rw [← h2]; simp, h3⟩

theorem justRead_unique {h : History} {l l' : List Str} (h1 : JustRead h l) (h2 : JustRead h l') : l = l' := by
  obtain ⟨p, b, e1, hb⟩ := h1
  obtain ⟨p', b', e2, hb'⟩ := h2
  rw [e1] at e2
  have := (List.append_inj' e2 rfl).2
  simp only [List.cons.injEq, Event.read.injEq, Option.some.injEq, and_true] at this
  subst this
  rw [linesOf_unique hb, linesOf_unique hb']

theorem justRead_broken {h evs : History} {cmds : List Bytes} {l : List Str} (hb : Broken evs cmds) : ¬ JustRead (h ++ evs) l := by
  rintro ⟨p, b, h1, -⟩
  obtain ⟨xs, c, suf, e1, e2, -, rfl, -, ha⟩ := hb
  have h2 := congrArg List.getLast? h1
  cases ha with
  | onWrite => simp at h2
  | onRead bs _ =>
    rw [show h ++ (e1 ++ Event.write (line c) true :: (List.map (fun b => Event.read (some b)) bs ++ [Event.read none, Event.close])) =
      (h ++ (e1 ++ Event.write (line c) true :: (List.map (fun b => Event.read (some b)) bs ++ [Event.read none]))) ++ [Event.close] by simp] at h2
    rw [List.getLast?_append, List.getLast?_append] at h2
    simp at h2

/-- What a query makes of a reply. -/
def made (fl : Str → Option PyFloat) (o : ProtoObj) (c : OBDCommand) (l : List Str) : Except Exc Response :=
  match o.call l with
  | .error x => .error x
  | .ok ms => if ms = [] then .ok {} else c.call fl ms

theorem exchange_made {dev : Device} {fl : Str → Option PyFloat} {c : OBDCommand} {s : OW} {e : Elm} {o : ProtoObj} (hl : Live s e o) {l : List Str}
    (h : JustRead (exchange dev fl c s).2.hist l) : (exchange dev fl c s).1 = made fl o c l := by
  have hb : ∀ {s : OW} {e : Elm}, Live s e o → JustRead (body dev fl c s).2.hist l → (body dev fl c s).1 = made fl o c l := by
    intro s e hl h
    rcases body_cases (dev := dev) (fl := fl) (c := c) hl with ⟨pre, l', evs, x, -, h2, h3, h4⟩ | ⟨pre, l', evs, ms, -, h2, h3, h4⟩ | ⟨evs, h1, h4⟩ <;> rw [h4] at h ⊢
    · have := justRead_unique h (justRead_dialogue h2); subst this
      simp [made, h3]
    · have := justRead_unique h (justRead_dialogue h2); subst this
      simp [made, h3]
    · exact absurd h (justRead_broken h1)
  rw [exchange_eq] at h ⊢
  by_cases hh : c.header = s.lastHeader
  · rw [PyM.bind_ok (setHeader_same hh)] at h ⊢
    exact hb hl h
  · rcases setHeader_cases (dev := dev) hl hh with ⟨pre, l', evs, x, h1, h2, h3, h4⟩ | ⟨pre, l', evs, ms, h1, h2, h3, h4⟩ | ⟨evs, h1, h4⟩
    · rw [PyM.bind_apply, h4] at h ⊢
      have := justRead_unique h (justRead_dialogue h2); subst this
      simp [made, h3]
    · rw [PyM.bind_ok h4] at h ⊢
      exact hb (e := { e with lowPower := false }) ⟨rfl, hl.status, hl.port, hl.proto⟩ h
    · rw [PyM.bind_ok h4, body_nc (e := { lost e with lowPower := false }) rfl rfl] at h
      exact absurd h (justRead_broken h1)

/-- C80: two connected objects that speak the same protocol with the same ECUs, whatever their adapters, settings and
histories, give the same response (or raise the same exception) for the same command if the same lines arrive. -/
theorem C80_stateless (dev dev' : Device) (fl : Str → Option PyFloat) (s s' : OW) (hr : Reachable dev fl s) (hr' : Reachable dev' fl s')
    (hs : status s ≠ .notConnected) (hs' : status s' ≠ .notConnected) (hc : SameCar s s')
    (c : OBDCommand) (force force' : Bool) (hg : Goes s c force) (hg' : Goes s' c force') (lines : List Str)
    (hl : JustRead (query dev fl c force s).2.hist lines) (hl' : JustRead (query dev' fl c force' s').2.hist lines) :
    (query dev fl c force s).1 = (query dev' fl c force' s').1 := by
  have hq : ∀ {dev : Device} {s : OW} {force : Bool}, status s ≠ .notConnected → Goes s c force → query dev fl c force s = exchange dev fl c s := by
    intro dev s force hs hg
    rcases query_cases dev fl c force s with ⟨-, h | ⟨h1, h2⟩⟩ | ⟨x, -, -, h1, h2⟩ | ⟨h, -⟩
    · exact absurd h hs
    · rcases hg with hg | hg
      · rw [h1] at hg; cases hg
      · rw [h2] at hg; cases hg
    · rcases hg with hg | hg
      · rw [h1] at hg; cases hg
      · rw [h2] at hg; cases hg
    · exact h
  rw [hq hs hg] at hl ⊢
  rw [hq hs' hg'] at hl' ⊢
  obtain ⟨e, o, hL⟩ := live_of_sound (reachable_sound hr) hs
  obtain ⟨e', o', hL'⟩ := live_of_sound (reachable_sound hr') hs'
  obtain ⟨e1, e1', h1, h2, h3⟩ := hc
  have ho : o = o' := by
    rw [hL.iface] at h1; cases h1
    rw [hL'.iface] at h2; cases h2
    have := hL.proto; rw [h3, hL'.proto] at this; cases this; rfl
  subst ho
  rw [exchange_made hL hl, exchange_made hL' hl']

/-- The hypotheses of C80 can be met: a fast and a slow object, the latter with a history. -/
example : Goes (demoObd true) rpmCommand true ∧ SameCar (demoObd true) (session (demo table) fl0 [.lowPower] (demoObd false)) ∧
    (sent (query (demo table) fl0 rpmCommand true (demoObd true)).2.hist).getLast? = some (ascii "010C\r") := by
  refine ⟨.inl rfl, ?_, by decide +kernel⟩
  have h : (demoObd true).interface.map Elm.protocol = (session (demo table) fl0 [.lowPower] (demoObd false)).interface.map Elm.protocol := by decide +kernel
  have h1 : (demoObd true).interface.isSome := by decide +kernel
  obtain ⟨e, he⟩ := Option.isSome_iff_exists.1 h1
  rw [he] at h
  cases hi : (session (demo table) fl0 [.lowPower] (demoObd false)).interface with
  | none => rw [hi] at h; cases h
  | some e' => rw [hi] at h; exact ⟨e, e', he, hi, by simpa using h⟩
end Props
