import Verif.Spec.Works
import Verif.Props.Chunks
import Verif.Props.Connect
import Verif.Props.Sessions
/-!
# C98: the status of a working adapter
-/
namespace Model
open Py Spec
namespace ElmM
variable {dev : Device}

/-- A command to an adapter that answers. -/
theorem send_says {cmd : Bytes} {lines : List Str} {d : Bool} {e : Elm} {h : History} (hw : ∀ h b, dev.write h b = true)
    (hp : e.port ≠ none) (hr : Replies dev h cmd lines) (hn : lines ≠ [] ∨ d = true) :
    ∃ b, send dev cmd d elmPrompt ⟨e, h⟩ = (.ok lines, ⟨e, h ++ [.write (line cmd) true, .read (some b)]⟩) := by
  obtain ⟨body, h1, h2⟩ := hr
  obtain ⟨p, hp⟩ := Option.ne_none_iff_exists'.1 hp
  refine ⟨body ++ [0x3E], ?_⟩
  have h3 := Props.arrives_read h1
  have h4 : EW.write dev cmd ⟨e, h⟩ = ⟨e, h ++ [.write (line cmd) true]⟩ := by
    unfold EW.write
    simp only [hp, hw]
    rfl
  have h5 : EW.read dev elmPrompt ⟨e, h ++ [.write (line cmd) true]⟩ = (lines, ⟨e, h ++ [.write (line cmd) true, .read (some (body ++ [0x3E]))]⟩) := by
    unfold EW.read
    simp only [hp, h3]
    rw [linesOf_unique h2]
    simp [Props.received]
  unfold send PyM.lift EW.send
  rw [h4, h5]
  rcases hn with hn | hn
  · have : ∀ n, EW.retry dev elmPrompt n (lines, (⟨e, h ++ [.write (line cmd) true, .read (some (body ++ [0x3E]))]⟩ : EW)) =
        (lines, ⟨e, h ++ [.write (line cmd) true, .read (some (body ++ [0x3E]))]⟩) := by
      intro n
      cases n with
      | zero => rfl
      | succ n => unfold EW.retry; rw [if_neg (by simpa using hn)]
    rw [this]
  · subst hn; rfl

/-- Two states of the object that differ in the port settings only, both with a port. -/
def SameBut (e e' : Elm) : Prop := e'.status = e.status ∧ e'.protocol = e.protocol ∧ e'.port ≠ none

theorem tryRates_found (hs : Sturdy dev) (t : Rat) (l : List Nat) (hl : ∃ rate ∈ l, ∀ h, ∃ b, dev.probe h rate = .ok b ∧ Prompted b)
    (e : Elm) (h : History) (hp : e.port ≠ none) :
    ∃ e' h', tryRates dev t l ⟨e, h⟩ = (.ok true, ⟨e', h'⟩) ∧ SameBut e e' := by
  induction l generalizing e h with
  | nil => obtain ⟨r, hr, _⟩ := hl; cases hr
  | cons r l ih =>
    obtain ⟨b, hb⟩ := hs.probes h r
    have h1 : probe dev r ⟨e, h⟩ = (.ok b, ⟨{ e with port := e.port.map (fun p => { p with baud := r }) }, h ++ [.probe r (.ok b)]⟩) := by
      unfold probe
      rw [hb]
    unfold tryRates
    rw [PyM.bind_ok h1]
    by_cases hq : b.getLast? = some 0x3E
    · rw [if_pos hq]
      refine ⟨_, _, rfl, rfl, rfl, ?_⟩
      cases hp' : e.port with
      | none => exact absurd hp' hp
      | some p => simp
    · rw [if_neg hq]
      have hl' : ∃ rate ∈ l, ∀ h, ∃ b, dev.probe h rate = .ok b ∧ Prompted b := by
        obtain ⟨rate, hm, hr⟩ := hl
        rcases List.mem_cons.1 hm with rfl | hm
        · exfalso
          obtain ⟨b', hb', a, ha⟩ := hr h
          rw [hb] at hb'
          cases hb'
          apply hq
          rw [ha]; simp
        · exact ⟨rate, hm, hr⟩
      obtain ⟨e', h', h2, h3, h4, h5⟩ := ih hl' { e with port := e.port.map (fun p => { p with baud := r }) } (h ++ [.probe r (.ok b)]) (by
        cases hp' : e.port with
        | none => exact absurd hp' hp
        | some p => simp)
      exact ⟨e', h', h2, h3, h4, h5⟩

theorem setBaudrate_ok (hs : Sturdy dev) (hl : ∃ rate ∈ rates, ∀ h, ∃ b, dev.probe h rate = .ok b ∧ Prompted b)
    (b : Option Nat) (e : Elm) (h : History) (hp : e.port ≠ none) :
    ∃ e' h', setBaudrate dev b ⟨e, h⟩ = (.ok true, ⟨e', h'⟩) ∧ SameBut e e' := by
  obtain ⟨p, hp'⟩ := Option.ne_none_iff_exists'.1 hp
  unfold setBaudrate
  rw [PyM.bind_ok (show getElm ⟨e, h⟩ = (.ok e, ⟨e, h⟩) from rfl)]
  cases b with
  | none =>
    simp only
    split
    · exact ⟨e, h, rfl, rfl, rfl, hp⟩
    · unfold autoBaudrate
      rw [PyM.bind_ok (show getElm ⟨e, h⟩ = (.ok e, ⟨e, h⟩) from rfl)]
      simp only [hp']
      rw [PyM.bind_ok (show setTimeout e.timeout ⟨e, h⟩ = (.ok (), ⟨{ e with port := e.port.map (fun p => { p with timeout := e.timeout }) }, h⟩) from rfl)]
      obtain ⟨e', h', h2, h3, h4, h5⟩ := tryRates_found hs p.timeout tryBauds hl { e with port := e.port.map (fun p => { p with timeout := e.timeout }) } h
        (by simp [hp'])
      exact ⟨e', h', h2, h3, h4, h5⟩
  | some b =>
    simp only [hp', hs.rates]
    exact ⟨_, _, rfl, rfl, rfl, by simp⟩

theorem loadProtocol_cases (p : Proto) (r : List Str) (e : Elm) (h : History) :
    (∃ x, p.init r = .error x ∧ loadProtocol p r ⟨e, h⟩ = (.error x, ⟨e, h⟩)) ∨
    (∃ o, p.init r = .ok o ∧ loadProtocol p r ⟨e, h⟩ = (.ok (), ⟨{ e with protocol := some o }, h⟩)) := by
  unfold loadProtocol
  cases hi : p.init r with
  | error x => exact Or.inl ⟨x, rfl, rfl⟩
  | ok o => exact Or.inr ⟨o, rfl, rfl⟩

variable {volt number : Str} {car : Option Str → List Str}

/-- What an attempt to agree on a protocol gives: no agreement; agreement on `id`; or the reply of the car cannot be
parsed. -/
def Attempt (r0 : Str → List Str) (e : Elm) (out : Option Str) (res : Except Exc Bool × EW) : Prop :=
  match out with
  | none => ∃ h', res = (.ok false, ⟨e, h'⟩)
  | some id => ∃ p, supportedProtocols.get? id = some p ∧ ∃ h',
      ((∃ x, p.init (r0 id) = .error x ∧ res = (.error x, ⟨e, h'⟩)) ∨
       (∃ o, p.init (r0 id) = .ok o ∧ res = (.ok true, ⟨{ e with protocol := some o }, h'⟩)))

theorem selected_select (h : History) (id : Str) (hk : id ∈ knownIds) (b : Bytes) :
    selected (h ++ [.write (line (selects id)) true, .read (some b)]) = some id := by
  have hsel : selection (line (selects id)) = some (some id) := by
    revert id
    decide
  unfold selected
  have : written (h ++ [.write (line (selects id)) true, .read (some b)]) = written h ++ [line (selects id)] := by
    unfold written
    rw [List.filterMap_append]
    rfl
  rw [this, List.filterMap_append]
  simp [hsel]

theorem selected_auto (h : History) (b : Bytes) :
    selected (h ++ [.write (line (ascii "ATSP0")) true, .read (some b)]) = none := by
  have hsel : selection (line (ascii "ATSP0")) = some none := by decide
  unfold selected
  have : written (h ++ [.write (line (ascii "ATSP0")) true, .read (some b)]) = written h ++ [line (ascii "ATSP0")] := by
    unfold written
    rw [List.filterMap_append]
    rfl
  rw [this, List.filterMap_append]
  simp [hsel]

theorem manual_works (hd : Elm327 dev volt number car) (id : Str) (p : Proto) (hg : supportedProtocols.get? id = some p) (e : Elm) (h : History)
    (hp : e.port ≠ none) :
    Attempt (fun x => car (some x)) e (if EW.hasMessage (car (some id)) unableToConnect then none else some id) (manualProtocol dev id p ⟨e, h⟩) := by
  have hk : id ∈ knownIds := (known_iff id).2 ⟨p, hg⟩
  obtain ⟨r, hr, hrep⟩ := hd.manual h id hk
  obtain ⟨b, h1⟩ := send_says hd.sturdy.writes hp hrep (Or.inl hr) (d := false)
  have h2 := hd.request (h ++ [.write (line (selects id)) true, .read (some b)])
  rw [selected_select h id hk b] at h2
  obtain ⟨b', h3⟩ := send_says hd.sturdy.writes hp h2 (Or.inl (hd.speaks _)) (d := false)
  unfold manualProtocol
  rw [show ascii "ATTP" ++ encodeAscii id = selects id from rfl, PyM.bind_ok h1, PyM.bind_ok h3]
  by_cases hu : EW.hasMessage (car (some id)) unableToConnect = true
  · rw [if_pos hu, if_pos hu]
    exact ⟨_, rfl⟩
  · rw [if_neg hu, if_neg hu]
    refine ⟨p, hg, h ++ [.write (line (selects id)) true, .read (some b)] ++ [.write (line (ascii "0100")) true, .read (some b')], ?_⟩
    rcases loadProtocol_cases p (car (some id)) e (h ++ [.write (line (selects id)) true, .read (some b)] ++ [.write (line (ascii "0100")) true, .read (some b')]) with
      ⟨x, hx, hl⟩ | ⟨o, hx, hl⟩
    · exact Or.inl ⟨x, hx, by rw [PyM.bind_apply, hl]⟩
    · exact Or.inr ⟨o, hx, by rw [PyM.bind_ok hl]; rfl⟩

/-- The same, without the reason. -/
def Result (e : Elm) (out : Option Str) (res : Except Exc Bool × EW) : Prop :=
  match out with
  | none => ∃ h', res = (.ok false, ⟨e, h'⟩)
  | some id => (∃ x h', res = (.error x, ⟨e, h'⟩)) ∨ ∃ o h', o.cls.elmId = id ∧ res = (.ok true, ⟨{ e with protocol := some o }, h'⟩)

theorem Attempt.result {r0 : Str → List Str} {e : Elm} {out : Option Str} {res : Except Exc Bool × EW} (h : Attempt r0 e out res) : Result e out res := by
  cases out with
  | none => exact h
  | some id =>
    obtain ⟨p, hg, h', ⟨x, _, hx⟩ | ⟨o, ho, hx⟩⟩ := h
    · exact Or.inl ⟨x, h', hx⟩
    · exact Or.inr ⟨o, h', by rw [init_cls ho]; exact get_elmId hg, hx⟩

theorem try_works (hd : Elm327 dev volt number car) (ids : List Str) (hi : ∀ id ∈ ids, id ∈ knownIds) (e : Elm) (h : History) (hp : e.port ≠ none)
    (out : Option Str) (ho : match out with
      | none => ∀ x ∈ ids, Unable (car (some x))
      | some id => ∃ before after, ids = before ++ id :: after ∧ (∀ x ∈ before, Unable (car (some x))) ∧ ¬ Unable (car (some id))) :
    Result e out (tryProtocols dev ids ⟨e, h⟩) := by
  induction ids generalizing h with
  | nil =>
    cases out with
    | none => exact ⟨h, rfl⟩
    | some id => obtain ⟨_, _, h1, _⟩ := ho; simp at h1
  | cons id ids ih =>
    obtain ⟨p, hg⟩ := (known_iff id).1 (hi id (by simp))
    have hm := manual_works hd id p hg e h hp
    unfold tryProtocols
    rw [hg]
    simp only
    by_cases hu : EW.hasMessage (car (some id)) unableToConnect = true
    · rw [if_pos hu] at hm
      obtain ⟨h', h1⟩ := hm
      rw [PyM.bind_ok h1, if_neg (by simp)]
      refine ih (fun x hx => hi x (by simp [hx])) h' ?_
      cases out with
      | none => exact fun x hx => ho x (by simp [hx])
      | some id' =>
        obtain ⟨before, after, h2, h3, h4⟩ := ho
        cases before with
        | nil =>
          simp only [List.nil_append, List.cons.injEq] at h2
          rw [← h2.1] at h4
          exact absurd ((unable_iff _).1 hu) h4
        | cons x before =>
          simp only [List.cons_append, List.cons.injEq] at h2
          exact ⟨before, after, h2.2, fun y hy => h3 y (by simp [hy]), h4⟩
    · rw [if_neg hu] at hm
      have hnu : ¬ Unable (car (some id)) := fun h => hu ((unable_iff _).2 h)
      have he : out = some id := by
        cases out with
        | none => exact absurd (ho id (by simp)) hnu
        | some id' =>
          obtain ⟨before, after, h2, h3, h4⟩ := ho
          cases before with
          | nil => simp only [List.nil_append, List.cons.injEq] at h2; rw [h2.1]
          | cons x before =>
            simp only [List.cons_append, List.cons.injEq] at h2
            exact absurd (h2.1 ▸ h3 x (by simp)) hnu
      subst he
      rcases hm.result with ⟨x, h', h1⟩ | ⟨o, h', h0, h1⟩
      · exact Or.inl ⟨x, h', by rw [PyM.bind_apply, h1]⟩
      · exact Or.inr ⟨o, h', h0, by rw [PyM.bind_ok h1, if_pos rfl]; rfl⟩

theorem auto_works (hd : Elm327 dev volt number car) (e : Elm) (h : History) (hp : e.port ≠ none) (out : Option Str)
    (ha : Agreed number car none out) : Result e out (autoProtocol dev ⟨e, h⟩) := by
  obtain ⟨r, hrep⟩ := hd.automatic h
  obtain ⟨b, h1⟩ := send_says hd.sturdy.writes hp hrep (Or.inr rfl) (d := true)
  have h2 := hd.request (h ++ [.write (line (ascii "ATSP0")) true, .read (some b)])
  rw [selected_auto h b] at h2
  obtain ⟨b', h3⟩ := send_says hd.sturdy.writes hp h2 (Or.inr rfl) (d := true)
  obtain ⟨b'', h4⟩ := send_says hd.sturdy.writes hp
    (hd.tells (h ++ [.write (line (ascii "ATSP0")) true, .read (some b)] ++ [.write (line (ascii "0100")) true, .read (some b')])) (Or.inl (by simp)) (d := false)
  unfold autoProtocol
  rw [PyM.bind_ok h1, PyM.bind_ok h3]
  by_cases hu : EW.hasMessage (car none) unableToConnect = true
  · rw [if_pos hu]
    have hu' := (unable_iff _).1 hu
    cases ha <;> first | exact ⟨_, rfl⟩ | contradiction
  · rw [if_neg hu, PyM.bind_ok h4]
    simp only
    have hu' : ¬ Unable (car none) := fun h => hu ((unable_iff _).2 h)
    have hst := stripAuto_announces number
    cases hg : supportedProtocols.get? (stripAuto number) with
    | some p =>
      have hk := (known_iff _).2 ⟨p, hg⟩
      have he : out = some (stripAuto number) := by
        cases ha with
        | noCar h => exact absurd h hu'
        | told id _ h _ => rw [announces_unique h hst]
        | tried _ _ _ _ _ h hn => rw [announces_unique h hst] at hn; exact absurd hk hn
        | exhausted _ _ h hn => rw [announces_unique h hst] at hn; exact absurd hk hn
      subst he
      simp only
      rcases loadProtocol_cases p (car none) e (h ++ [.write (line (ascii "ATSP0")) true, .read (some b)] ++ [.write (line (ascii "0100")) true, .read (some b')] ++
          [.write (line (ascii "ATDPN")) true, .read (some b'')]) with ⟨x, hx, hl⟩ | ⟨o, hx, hl⟩
      · exact Or.inl ⟨x, _, by rw [PyM.bind_apply, hl]⟩
      · exact Or.inr ⟨o, _, by rw [init_cls hx]; exact get_elmId hg, by rw [PyM.bind_ok hl]; rfl⟩
    | none =>
      have hk : stripAuto number ∉ knownIds := fun h => by
        obtain ⟨p, hp⟩ := (known_iff _).1 h
        rw [hg] at hp; cases hp
      simp only
      refine try_works hd tryProtocolOrder (by decide) e _ hp out ?_
      cases ha with
      | noCar h => exact absurd h hu'
      | told id _ h hn => rw [announces_unique h hst] at hn; exact absurd hn hk
      | tried _ _ before after _ h hn ho hb hc => exact ⟨before, after, ho, hb, hc⟩
      | exhausted _ _ h hn hb => exact hb

theorem set_works (hd : Elm327 dev volt number car) (e : Elm) (h : History) (hp : e.port ≠ none) (pr out : Option Str)
    (ha : Agreed number car pr out) : Result e out (setProtocol dev pr ⟨e, h⟩) := by
  unfold setProtocol
  cases pr with
  | none => exact auto_works hd e h hp out ha
  | some id =>
    simp only
    cases hg : supportedProtocols.get? id with
    | none =>
      have hk : id ∉ knownIds := fun h => by
        obtain ⟨p, hp⟩ := (known_iff _).1 h
        rw [hg] at hp; cases hp
      cases ha with
      | asked _ h => exact absurd h hk
      | refused => exact ⟨h, rfl⟩
    | some p =>
      have hk := (known_iff _).2 ⟨p, hg⟩
      have hm := (manual_works hd id p hg e h hp).result
      cases ha with
      | asked _ _ hu =>
        rw [if_neg (fun h => hu ((unable_iff _).1 h))] at hm
        exact hm
      | refused _ hx =>
        have hu := hx.resolve_left (fun h => h hk)
        rw [if_pos ((unable_iff _).2 hu)] at hm
        exact hm

/-- The end of the set-up: the status and the protocol, or an exception. -/
def Ended (st : Status) (out : Option Str) (res : Except Exc Unit × EW) : Prop :=
  match out with
  | none => ∃ w, res = (.ok (), w) ∧ w.elm.status = st ∧ w.elm.port ≠ none
  | some id => (∃ x w, res = (.error x, w)) ∨ ∃ w o, res = (.ok (), w) ∧ w.elm.status = .carConnected ∧ w.elm.port ≠ none ∧
      w.elm.protocol = some o ∧ o.cls.elmId = id

theorem initProtocol_works (hd : Elm327 dev volt number car) (e : Elm) (h : History) (hp : e.port ≠ none) (pr out : Option Str)
    (ha : Agreed number car pr out) : Ended e.status out (initProtocol dev pr ⟨e, h⟩) := by
  have hr := set_works hd e h hp pr out ha
  unfold initProtocol
  cases out with
  | none =>
    obtain ⟨h', h1⟩ := hr
    rw [PyM.bind_ok h1, if_neg (by simp)]
    exact ⟨_, rfl, rfl, hp⟩
  | some id =>
    rcases hr with ⟨x, h', h1⟩ | ⟨o, h', h0, h1⟩
    · exact Or.inl ⟨x, _, by rw [PyM.bind_apply, h1]⟩
    · refine Or.inr ⟨⟨{ e with protocol := some o, status := .carConnected }, h'⟩, o, ?_, rfl, hp, rfl, h0⟩
      rw [PyM.bind_ok h1, if_pos rfl, PyM.bind_ok (show modifyElm _ _ = (.ok (), _) from rfl)]
      unfold logConnected
      rw [PyM.bind_ok (show getElm _ = (.ok _, _) from rfl)]
      cases hp' : e.port with
      | none => exact absurd hp' hp
      | some p => rfl

/-- The status if the voltage is low or no protocol is agreed on, and the protocol agreed on. -/
def expected (checkVoltage low : Bool) (out : Option Str) : Status × Option Str :=
  if checkVoltage then (if low then (.elmConnected, none) else (.obdConnected, out)) else (.elmConnected, out)

theorem initVoltage_works (hd : Elm327 dev volt number car) (fl : FloatFn) (e : Elm) (h : History) (hp : e.port ≠ none) (pr out : Option Str)
    (he : e.status = .elmConnected) (cv : Bool) (x : PyFloat) (hv : cv = true → volt ≠ [] ∧ voltageRead fl volt = some x)
    (ha : Agreed number car pr out) :
    Ended (expected cv (below6 x) out).1 (expected cv (below6 x) out).2 (initVoltage dev fl pr cv ⟨e, h⟩) := by
  unfold initVoltage expected
  cases cv with
  | false =>
    rw [if_neg (by simp), if_neg (by simp)]
    have := initProtocol_works hd e h hp pr out ha
    rwa [he] at this
  | true =>
    obtain ⟨hv1, hv2⟩ := hv rfl
    obtain ⟨b, h1⟩ := send_says hd.sturdy.writes hp (hd.voltage h) (Or.inl (by simp)) (d := false)
    rw [if_pos rfl, if_pos rfl, PyM.bind_ok h1]
    simp only
    unfold voltageRead at hv2
    have hv0 : ¬ volt.isEmpty = true := by simpa using hv1
    rw [if_neg hv0, hv2]
    simp only
    by_cases hb : below6 x = true
    · rw [if_pos hb, if_pos hb]
      exact ⟨_, rfl, he, hp⟩
    · rw [if_neg hb, if_neg hb, PyM.bind_ok (show modifyElm _ _ = (.ok (), _) from rfl)]
      exact initProtocol_works hd { e with status := .obdConnected } _ hp pr out ha

theorem initAt_works (hd : Elm327 dev volt number car) (fl : FloatFn) (e : Elm) (h : History) (hp : e.port ≠ none) (pr out : Option Str)
    (cv : Bool) (x : PyFloat) (hv : cv = true → volt ≠ [] ∧ voltageRead fl volt = some x) (ha : Agreed number car pr out) :
    Ended (expected cv (below6 x) out).1 (expected cv (below6 x) out).2 (initAt dev fl pr cv ⟨e, h⟩) := by
  obtain ⟨r1, hr1⟩ := hd.reset h
  obtain ⟨b1, h1⟩ := send_says hd.sturdy.writes hp hr1 (Or.inr rfl) (d := true)
  obtain ⟨r2, hr2, hok⟩ := hd.echo (h ++ [.write (line (ascii "ATZ")) true, .read (some b1)])
  have hne : r2 ≠ [] := by rintro rfl; obtain ⟨l, hl, _⟩ := hok; cases hl
  obtain ⟨b2, h2⟩ := send_says hd.sturdy.writes hp hr2 (Or.inl hne) (d := false)
  obtain ⟨b3, h3⟩ := send_says hd.sturdy.writes hp (hd.headers _) (Or.inl (by simp)) (d := false)
    (h := h ++ [.write (line (ascii "ATZ")) true, .read (some b1)] ++ [.write (line (ascii "ATE0")) true, .read (some b2)])
  obtain ⟨b4, h4⟩ := send_says hd.sturdy.writes hp (hd.feeds _) (Or.inl (by simp)) (d := false)
    (h := h ++ [.write (line (ascii "ATZ")) true, .read (some b1)] ++ [.write (line (ascii "ATE0")) true, .read (some b2)] ++
      [.write (line (ascii "ATH1")) true, .read (some b3)])
  have ok2 : EW.isOk r2 true = true := by
    unfold EW.isOk
    rw [if_neg (by simpa using hne), if_pos rfl]
    exact (hasMessage_iff _ _).2 hok
  unfold initAt
  rw [PyM.bind_ok h1, PyM.bind_ok h2, if_neg (by simp [ok2]), PyM.bind_ok h3, if_neg (by decide), PyM.bind_ok h4, if_neg (by decide),
    PyM.bind_ok (show modifyElm _ _ = (.ok (), _) from rfl)]
  exact initVoltage_works hd fl { e with status := .elmConnected } _ hp pr out rfl cv x hv ha

theorem construct_works (hd : Elm327 dev volt number car) (fl : FloatFn) (port : Str) (cfg : Config) (hist : History) (out : Option Str)
    (x : PyFloat) (hv : cfg.checkVoltage = true → volt ≠ [] ∧ voltageRead fl volt = some x) (ha : Agreed number car cfg.protocol out) :
    Ended (expected cfg.checkVoltage (below6 x) out).1 (expected cfg.checkVoltage (below6 x) out).2 (construct dev fl port cfg hist) := by
  have main : ∀ (e : Elm) (h : History), e.port ≠ none →
      Ended (expected cfg.checkVoltage (below6 x) out).1 (expected cfg.checkVoltage (below6 x) out).2 ((do
      if ¬ (← setBaudrate dev cfg.baudrate) then error dev
      else initAt dev fl cfg.protocol cfg.checkVoltage : ElmM Unit) ⟨e, h⟩) := by
    intro e h hp
    obtain ⟨e', h', h1, h2, h3, h4⟩ := setBaudrate_ok hd.sturdy hd.prompts cfg.baudrate e h hp
    rw [PyM.bind_ok h1, if_neg (by simp)]
    exact initAt_works hd fl e' h' h4 cfg.protocol out cfg.checkVoltage x hv ha
  unfold construct init
  simp only [hd.opens]
  rw [PyM.bind_ok (show modifyElm _ _ = (.ok (), _) from rfl)]
  split
  · have hwr : ∀ (e : Elm) (h : History), e.port ≠ none → write dev (ascii " ") ⟨e, h⟩ = (.ok (), ⟨e, h ++ [.write (line (ascii " ")) true]⟩) := by
      intro e h hp
      obtain ⟨p, hp⟩ := Option.ne_none_iff_exists'.1 hp
      unfold write EW.write
      simp only [hp, hd.sturdy.writes]
      rfl
    rw [PyM.bind_ok (hwr _ _ (by simp))]
    exact main _ _ (by simp)
  · exact main _ _ (by simp)

/-! ## an adapter that stays -/

theorem readLoop_stays (m : Bytes) (buf : Bytes) (l : List (Option Bytes)) (h : none ∉ l) : ∃ b, readLoop m buf l = some b := by
  induction l generalizing buf with
  | nil => exact ⟨buf, rfl⟩
  | cons x l ih =>
    cases x with
    | none => exact absurd (List.mem_cons_self ..) h
    | some d =>
      unfold readLoop
      split
      · exact ⟨_, rfl⟩
      · split
        · exact ⟨_, rfl⟩
        · exact ih _ (fun h' => h (List.mem_cons_of_mem _ h'))

theorem read_stays (hs : Sturdy dev) (m : Bytes) (w : EW) : (EW.read dev m w).2.elm = w.elm := by
  unfold EW.read
  split
  · rfl
  · obtain ⟨b, hb⟩ := readLoop_stays m [] (dev.read w.hist) (hs.reads w.hist)
    simp only [hb]

theorem retry_stays (hs : Sturdy dev) (m : Bytes) (n : Nat) (r : List Str × EW) : (EW.retry dev m n r).2.elm = r.2.elm := by
  induction n generalizing r with
  | zero => rfl
  | succ n ih =>
    unfold EW.retry
    split
    · rw [ih, read_stays hs]
    · rfl

theorem send_stays (hs : Sturdy dev) (e0 : Elm) (cmd : Bytes) (d : Bool) (m : Bytes) :
    Kept (fun w => w.elm.status = e0.status ∧ w.elm.protocol = e0.protocol ∧ w.elm.port = e0.port) (send dev cmd d m) := by
  intro w hw
  have h1 : (EW.write dev cmd w).elm = w.elm := by
    unfold EW.write
    split
    · rfl
    · simp only [hs.writes, if_true]
  have h2 : (send dev cmd d m w).2.elm = w.elm := by
    unfold send PyM.lift EW.send
    show (EW.retry dev m _ (EW.read dev m (EW.write dev cmd w))).2.elm = w.elm
    rw [retry_stays hs, read_stays hs, h1]
  rw [h2]
  exact hw

end ElmM

namespace ObdM
variable {dev : Device}

/-- The connection is that of `e0`. -/
def Stays (e0 : Elm) (s : OW) : Prop := ∃ e, s.interface = some e ∧ e.status = e0.status ∧ e.protocol = e0.protocol ∧ e.port = e0.port

theorem stays_on {α : Type} {m : ElmM α} {e0 : Elm}
    (hm : Kept (fun w => w.elm.status = e0.status ∧ w.elm.protocol = e0.protocol ∧ w.elm.port = e0.port) m) : Kept (Stays e0) (onInterface m) := by
  rintro s ⟨e, he, h1⟩
  unfold onInterface
  rw [he]
  exact ⟨_, rfl, hm ⟨e, s.hist⟩ h1⟩

theorem ostable_stays (hs : Sturdy dev) (e0 : Elm) : OStable dev (Stays e0) where
  send := fun cmd _ => stays_on (ElmM.kept_sendAndParse (C := fun _ => True) (fun c d m _ => ElmM.send_stays hs e0 c d m) cmd trivial trivial (fun _ h => h))
  attrs := fun _ _ _ _ h => h
  sup := fun _ _ h => h

theorem stays_call (hs : Sturdy dev) (fl : ElmM.FloatFn) (e0 : Elm) (c : Call) (hc : c ≠ .close) (s : OW) (h : Stays e0 s) :
    Stays e0 (c.after dev fl s) := by
  cases c with
  | query c force => exact kept_query (ostable_stays hs e0) fl c force s h
  | lowPower =>
    refine (?_ : Kept (Stays e0) (lowPower dev)) s h
    unfold lowPower
    refine Kept.bind Kept.get (fun s => ?_)
    split
    · exact Kept.pure _
    · exact stays_on (ElmM.kept_lowPower (C := fun _ => True) (fun c d m _ => ElmM.send_stays hs e0 c d m) trivial (fun _ h => h))
  | normalPower =>
    refine (?_ : Kept (Stays e0) (normalPower dev)) s h
    unfold normalPower
    refine Kept.bind Kept.get (fun s => ?_)
    split
    · exact Kept.pure _
    · exact stays_on (ElmM.kept_normalPower (C := fun _ => True) (fun c d m _ => ElmM.send_stays hs e0 c d m) trivial (fun _ h => h))
  | close => exact absurd rfl hc

theorem stays_session (hs : Sturdy dev) (fl : ElmM.FloatFn) (e0 : Elm) (cs : List Call) (hc : .close ∉ cs) (s : OW) (h : Stays e0 s) :
    Stays e0 (session dev fl cs s) := by
  induction cs generalizing s with
  | nil => exact h
  | cons c cs ih => exact ih (fun h => hc (by simp [h])) _ (stays_call hs fl e0 c (fun h => hc (by simp [h])) s h)

theorem tryPorts_all {G : OW → Prop} {fl : ElmM.FloatFn} {cfg : ElmM.Config}
    (hG : ∀ port s s', openInterface dev fl port cfg s = (.ok (), s') → G s') (ports : List Str) (hne : ports ≠ []) {s s' : OW}
    (h : tryPorts dev fl cfg ports s = (.ok (), s')) : G s' := by
  induction ports generalizing s with
  | nil => exact absurd rfl hne
  | cons p ports ih =>
    unfold tryPorts at h
    obtain ⟨_, s1, h1, h⟩ := bind_inv h
    obtain ⟨s2, s3, h2, h⟩ := bind_inv h
    cases h2
    split at h
    · cases h; exact hG _ _ _ h1
    · by_cases hp : ports = []
      · subst hp; cases h; exact hG _ _ _ h1
      · exact ih hp h

theorem constructed_all {G : OW → Prop} {fl : ElmM.FloatFn} {a : Args} {s : OW}
    (hG : ∀ port s s', openInterface dev fl port a.cfg s = (.ok (), s') → G s') (hst : ∀ s, G s → status s ≠ .notConnected)
    (hl : Kept G (loadCommands dev fl)) (hp : a.portstr ≠ none ∨ a.ports ≠ []) (h : Constructed dev fl a s) : G s := by
  unfold Constructed construct at h
  obtain ⟨_, s1, h1, h2⟩ := bind_inv h
  have key : ∀ s t : OW, G s → closeIfFailed dev s = (.ok (), t) → t = s := by
    intro s t hg hc
    unfold closeIfFailed at hc
    rw [PyM.bind_ok (show PyM.get s = (.ok s, s) from rfl), if_neg (hst s hg)] at hc
    cases hc; rfl
  have hg1 : G s1 := by
    unfold connect at h1
    cases hps : a.portstr with
    | none =>
      rw [hps] at h1
      have hne : a.ports ≠ [] := hp.resolve_left (fun h => h hps)
      simp only at h1
      rw [if_neg (by simpa using hne)] at h1
      obtain ⟨_, s2, h3, h4⟩ := bind_inv h1
      have hg := tryPorts_all hG a.ports hne h3
      rw [key _ _ hg h4]; exact hg
    | some p =>
      rw [hps] at h1
      obtain ⟨_, s2, h3, h4⟩ := bind_inv h1
      have hg := hG _ _ _ h3
      rw [key _ _ hg h4]; exact hg
  have := hl s1 hg1
  rw [h2] at this
  exact this

theorem construct_returns {G : OW → Prop} {fl : ElmM.FloatFn} {a : Args}
    (hG : ∀ port s, ∃ s', openInterface dev fl port a.cfg s = (.ok (), s') ∧ G s')
    (hst : ∀ s, G s → status s ≠ .notConnected ∧ status s ≠ .carConnected) : ∃ s, Constructed dev fl a s := by
  have hfin : ∀ s, G s → closeIfFailed dev s = (.ok (), s) := by
    intro s hg
    unfold closeIfFailed
    rw [PyM.bind_ok (show PyM.get s = (.ok s, s) from rfl), if_neg (hst s hg).1]
    rfl
  have hload : ∀ s, status s ≠ .carConnected → loadCommands dev fl s = (.ok (), s) := by
    intro s hg
    unfold loadCommands
    rw [PyM.bind_ok (show PyM.get s = (.ok s, s) from rfl), if_pos hg]
    rfl
  have htry : ∀ (ports : List Str) (s : OW), G s → ∃ s', tryPorts dev fl a.cfg ports s = (.ok (), s') ∧ G s' := by
    intro ports
    induction ports with
    | nil => intro s hg; exact ⟨s, rfl, hg⟩
    | cons p ports ih =>
      intro s _
      obtain ⟨s1, h1, hg1⟩ := hG p s
      unfold tryPorts
      rw [PyM.bind_ok h1, PyM.bind_ok (show PyM.get s1 = (.ok s1, s1) from rfl)]
      split
      · exact ⟨s1, rfl, hg1⟩
      · exact ih s1 hg1
  have hone : ∀ (p : Str) (ports : List Str) (s : OW), ∃ s', tryPorts dev fl a.cfg (p :: ports) s = (.ok (), s') ∧ G s' := by
    intro p ports s
    obtain ⟨s1, h1, hg1⟩ := hG p s
    unfold tryPorts
    rw [PyM.bind_ok h1, PyM.bind_ok (show PyM.get s1 = (.ok s1, s1) from rfl)]
    split
    · exact ⟨s1, rfl, hg1⟩
    · exact htry ports s1 hg1
  unfold Constructed construct connect
  cases a.portstr with
  | some p =>
    obtain ⟨s1, h1, hg1⟩ := hG p { supported := baseCommands, fast := a.fast }
    refine ⟨s1, ?_⟩
    rw [PyM.bind_ok (show (do openInterface dev fl p a.cfg; closeIfFailed dev : ObdM Unit) _ = (.ok (), s1) by rw [PyM.bind_ok h1, hfin _ hg1]),
      hload _ (hst _ hg1).2]
  | none =>
    cases a.ports with
    | nil => exact ⟨{ supported := baseCommands, fast := a.fast }, hload { supported := baseCommands, fast := a.fast } (by simp [status])⟩
    | cons p ports =>
      obtain ⟨s1, h1, hg1⟩ := hone p ports { supported := baseCommands, fast := a.fast }
      refine ⟨s1, ?_⟩
      simp only [List.isEmpty_cons, Bool.false_eq_true, if_false]
      rw [PyM.bind_ok (show (do tryPorts dev fl a.cfg (p :: ports); closeIfFailed dev : ObdM Unit) _ = (.ok (), s1) by rw [PyM.bind_ok h1, hfin _ hg1]),
        hload _ (hst _ hg1).2]

end ObdM
end Model

namespace Props
open Py Model Spec ObdM

/-- C98: the status of a connection to a working adapter, for every car behind it.  With the ignition off (and the voltage
checked) it is ELM_CONNECTED.  Otherwise, if the library and the car must agree on a protocol, it is CAR_CONNECTED with
that protocol; if not, OBD_CONNECTED, or ELM_CONNECTED if the voltage was not checked. -/
theorem C98_status (dev : Device) (fl : Str → Option PyFloat) (volt number : Str) (car : Option Str → List Str)
    (hd : Elm327 dev volt number car) (a : Args) (s : OW) (hc : Constructed dev fl a s) (hp : a.portstr ≠ none ∨ a.ports ≠ [])
    (x : PyFloat) (hv : a.cfg.checkVoltage = true → volt ≠ [] ∧ voltageRead fl volt = some x)
    (out : Option Str) (ha : Agreed number car a.cfg.protocol out) :
    (a.cfg.checkVoltage = true ∧ Low x → status s = .elmConnected) ∧
    (¬ (a.cfg.checkVoltage = true ∧ Low x) →
      (∀ id, out = some id → status s = .carConnected ∧ protocolId s = .ok id) ∧
      (out = none → status s = if a.cfg.checkVoltage then .obdConnected else .elmConnected)) := by
  have hlow : ElmM.below6 x = true ↔ Low x := by
    cases x <;> simp [ElmM.below6, Low]
  let st := (ElmM.expected a.cfg.checkVoltage (ElmM.below6 x) out).1
  let o' := (ElmM.expected a.cfg.checkVoltage (ElmM.below6 x) out).2
  let G : OW → Prop := fun s => ∃ e, s.interface = some e ∧ (match o' with
    | none => e.status = st
    | some id => e.status = .carConnected ∧ ∃ o, e.protocol = some o ∧ o.cls.elmId = id)
  have hst : st ≠ .notConnected := by
    show (ElmM.expected _ _ _).1 ≠ _
    unfold ElmM.expected
    split
    · split <;> simp
    · simp
  have hG : G s := by
    refine constructed_all (G := G) ?_ ?_ ?_ hp hc
    · intro port s s' h
      have hw := ElmM.construct_works hd fl port a.cfg s.hist out x hv ha
      obtain ⟨w, h1, h2⟩ := openInterface_ok h
      rw [h1] at hw
      refine ⟨w.elm, by rw [h2], ?_⟩
      show match o' with
        | none => w.elm.status = st
        | some id => w.elm.status = .carConnected ∧ ∃ o, w.elm.protocol = some o ∧ o.cls.elmId = id
      change ElmM.Ended st o' _ at hw
      cases ho : o' with
      | none =>
        rw [ho] at hw
        obtain ⟨w', h3, h4, _⟩ := hw
        cases h3
        exact h4
      | some id =>
        rw [ho] at hw
        rcases hw with ⟨x, w', h3⟩ | ⟨w', o, h3, h4, _, h5, h6⟩
        · cases h3
        · cases h3
          exact ⟨h4, o, h5, h6⟩
    · rintro s ⟨e, he, h⟩ hn
      unfold status at hn
      rw [he] at hn
      simp only at hn
      cases ho : o' with
      | none => rw [ho] at h; exact hst (h.symm.trans hn)
      | some id => rw [ho] at h; rw [h.1] at hn; cases hn
    · intro s hg
      obtain ⟨e, he, h⟩ := hg
      obtain ⟨e', h1, h2, h3, h4⟩ := kept_loadCommands (ostable_stays hd.sturdy e) fl s ⟨e, he, rfl, rfl, rfl⟩
      refine ⟨e', h1, ?_⟩
      rw [h2, h3]
      exact h
  obtain ⟨e, he, h⟩ := hG
  have hs : status s = e.status := by simp [status, he]
  rw [hs]
  have hpid : ∀ o id, e.protocol = some o → o.cls.elmId = id → protocolId s = .ok id := by
    intro o id h1 h2
    simp [protocolId, he, Elm.protocolId, h1, h2]
  constructor
  · rintro ⟨h1, h2⟩
    have : ElmM.expected a.cfg.checkVoltage (ElmM.below6 x) out = (.elmConnected, none) := by
      unfold ElmM.expected
      rw [if_pos h1, if_pos (hlow.2 h2)]
    have ho : o' = none := congrArg Prod.snd this
    have hs' : st = .elmConnected := congrArg Prod.fst this
    rw [ho] at h
    exact h.trans hs'
  · intro hn
    have : ElmM.expected a.cfg.checkVoltage (ElmM.below6 x) out = (if a.cfg.checkVoltage then .obdConnected else .elmConnected, out) := by
      unfold ElmM.expected
      by_cases h1 : a.cfg.checkVoltage = true
      · rw [if_pos h1, if_neg (fun h => hn ⟨h1, hlow.1 h⟩), if_pos h1]
      · rw [if_neg h1, if_neg h1]
    have ho : o' = out := congrArg Prod.snd this
    have hs' : st = _ := congrArg Prod.fst this
    rw [ho] at h
    refine ⟨?_, ?_⟩
    · rintro id rfl
      obtain ⟨h1, o, h2, h3⟩ := h
      exact ⟨h1, hpid o id h2 h3⟩
    · rintro rfl
      exact h.trans hs'

/-- C98: without a car (or with the ignition off), creating the connection does not raise. -/
theorem C98_returns (dev : Device) (fl : Str → Option PyFloat) (volt number : Str) (car : Option Str → List Str)
    (hd : Elm327 dev volt number car) (a : Args) (x : PyFloat) (hv : a.cfg.checkVoltage = true → volt ≠ [] ∧ voltageRead fl volt = some x)
    (out : Option Str) (ha : Agreed number car a.cfg.protocol out) (hno : out = none ∨ a.cfg.checkVoltage = true ∧ Low x) :
    ∃ s, Constructed dev fl a s := by
  have hlow : ElmM.below6 x = true ↔ Low x := by
    cases x <;> simp [ElmM.below6, Low]
  have ho : (ElmM.expected a.cfg.checkVoltage (ElmM.below6 x) out).2 = none := by
    unfold ElmM.expected
    rcases hno with rfl | ⟨h1, h2⟩
    · split
      · split <;> rfl
      · rfl
    · rw [if_pos h1, if_pos (hlow.2 h2)]
  refine construct_returns (G := fun s => status s = (ElmM.expected a.cfg.checkVoltage (ElmM.below6 x) out).1) ?_ ?_
  · intro port s
    have hw := ElmM.construct_works hd fl port a.cfg s.hist out x hv ha
    rw [ho] at hw
    obtain ⟨w, h1, h2, _⟩ := hw
    refine ⟨{ s with interface := some w.elm, hist := w.hist }, ?_, h2⟩
    unfold openInterface
    rw [h1]
  · intro s hs
    rw [hs]
    unfold ElmM.expected
    split
    · split <;> simp
    · simp

/-- C98: a connection to an adapter that does not fail is not lost: its status stays until `close()` is called. -/
theorem C98_stays (dev : Device) (fl : Str → Option PyFloat) (hd : Sturdy dev) (s0 : OW) (calls : List Call) (hc : .close ∉ calls)
    (hs : status s0 ≠ .notConnected) :
    status (session dev fl calls s0) = status s0 ∧ portName (session dev fl calls s0) = portName s0 ∧
      protocolId (session dev fl calls s0) = protocolId s0 := by
  cases hi : s0.interface with
  | none => simp [status, hi] at hs
  | some e0 =>
    obtain ⟨e, h1, h2, h3, h4⟩ := stays_session hd fl e0 calls hc s0 ⟨e0, hi, rfl, rfl, rfl⟩
    simp [status, portName, protocolId, h1, hi, h2, Elm.protocolId, Elm.portName, h3, h4]

/-- The replies of a car that is reached with protocol 8 only, behind an adapter that announces protocol 0. -/
def shyCar (p : Option Str) : String :=
  if p = none then "SEARCHING..." else if p = some "8".toList then "7E8 06 41 00 00 10 00 00" else "UNABLE TO CONNECT"

/-- What the adapter with the shy car prints. -/
def shyReply (h : History) : String :=
  if lastWrite h = line (ascii "0100") then shyCar (selected h)
  else match [("ATZ", "ELM327 v1.5"), ("ATE0", "ATE0\rOK"), ("AT RV", "12.5V"), ("ATDPN", "A0")].find? (fun e => line (ascii e.1) == lastWrite h) with
    | some e => e.2
    | none => "OK"

/-- An adapter with the shy car. -/
def shy : Device where
  openPort := fun _ _ => none
  setBaud := fun _ _ => none
  probe := fun _ b => .ok (if b = 9600 then ascii "ELM327 v1.5\r\r>" else [])
  write := fun _ _ => true
  read := fun h => [some (ascii (shyReply h) ++ ascii "\r\r>")]

/-- The lines of `text`, if it is printed. -/
def printed (text : String) : List Str := cleanLines (ascii text ++ ascii "\r\r>")

theorem replies_shy (h : History) (cmd : Bytes) (text : String) (ht : shyReply (h ++ [.write (line cmd) true]) = text)
    (hn : (0x3E : UInt8) ∉ ascii text ++ ascii "\r\r") : Replies shy h cmd (printed text) := by
  have hr : shy.read (h ++ [.write (line cmd) true]) = [some (ascii text ++ ascii "\r\r>")] := by
    rw [← ht]
    rfl
  have he : ascii text ++ ascii "\r\r>" = ascii text ++ ascii "\r\r" ++ [0x3E] := by
    rw [show ascii "\r\r>" = ascii "\r\r" ++ [0x3E] by decide, List.append_assoc]
  unfold Replies printed
  rw [hr, he]
  generalize ascii text ++ ascii "\r\r" = body at hn
  exact ⟨body, ⟨hn, [body ++ [0x3E]], [], ⟨by simp, by simp⟩, rfl⟩, cleanLines_spec _⟩

theorem lastWrite_append (h : History) (b : Bytes) : lastWrite (h ++ [.write b true]) = b := by
  unfold lastWrite
  simp

theorem shyReply_other (h : History) (cmd : Bytes) (hc : line cmd ≠ line (ascii "0100")) :
    shyReply (h ++ [.write (line cmd) true]) = shyReply [.write (line cmd) true] := by
  unfold shyReply
  have h1 := lastWrite_append h (line cmd)
  have h2 := lastWrite_append [] (line cmd)
  simp only [List.nil_append] at h2
  rw [h1, h2, if_neg hc, if_neg hc]

theorem shyReply_car (h : History) : shyReply (h ++ [.write (line (ascii "0100")) true]) = shyCar (selected h) := by
  unfold shyReply
  rw [lastWrite_append, if_pos rfl]
  have hsel : selection (line (ascii "0100")) = none := by decide
  unfold selected
  have : written (h ++ [.write (line (ascii "0100")) true]) = written h ++ [line (ascii "0100")] := by
    unfold written
    rw [List.filterMap_append]
    rfl
  rw [this, List.filterMap_append]
  simp [hsel]

theorem shyCar_cases (p : Option Str) : shyCar p ∈ ["SEARCHING...", "7E8 06 41 00 00 10 00 00", "UNABLE TO CONNECT"] := by
  unfold shyCar
  split
  · simp
  · split <;> simp

/-- The hypotheses of C98 can be met: the adapter with the shy car works. -/
theorem shy_works : Elm327 shy "12.5V".toList "A0".toList (fun p => printed (shyCar p)) where
  sturdy := ⟨by simp [shy], by simp [shy], fun h b => ⟨_, rfl⟩, by simp [shy], by simp [shy]⟩
  opens := fun _ _ => rfl
  prompts := ⟨9600, by decide, fun h => ⟨_, rfl, ascii "ELM327 v1.5\r\r", by decide⟩⟩
  reset := fun h => ⟨_, replies_shy h _ _ (shyReply_other h _ (by decide)) (by decide +kernel)⟩
  echo := fun h => ⟨_, replies_shy h _ _ (shyReply_other h _ (by decide)) (by decide +kernel), "OK".toList, by decide +kernel, [], [], rfl⟩
  headers := fun h => by
    have := replies_shy h _ _ (shyReply_other h (ascii "ATH1") (by decide)) (by decide +kernel)
    rwa [show printed _ = ["OK".toList] by decide +kernel] at this
  feeds := fun h => by
    have := replies_shy h _ _ (shyReply_other h (ascii "ATL0") (by decide)) (by decide +kernel)
    rwa [show printed _ = ["OK".toList] by decide +kernel] at this
  voltage := fun h => by
    have := replies_shy h _ _ (shyReply_other h (ascii "AT RV") (by decide)) (by decide +kernel)
    rwa [show printed _ = ["12.5V".toList] by decide +kernel] at this
  automatic := fun h => ⟨_, replies_shy h _ _ (shyReply_other h _ (by decide)) (by decide +kernel)⟩
  manual := fun h id hk => by
    refine ⟨_, ?_, replies_shy h _ _ (shyReply_other h _ ?_) ?_⟩
    all_goals (revert id; decide +kernel)
  request := fun h => replies_shy h _ _ (shyReply_car h) (by
    have := shyCar_cases (selected h)
    revert this
    generalize shyCar (selected h) = t
    revert t
    decide +kernel)
  speaks := fun p => by
    have := shyCar_cases p
    revert this
    show shyCar p ∈ _ → printed (shyCar p) ≠ []
    generalize shyCar p = t
    revert t
    decide +kernel
  tells := fun h => by
    have := replies_shy h _ _ (shyReply_other h (ascii "ATDPN") (by decide)) (by decide +kernel)
    rwa [show printed _ = ["A0".toList] by decide +kernel] at this

/-- The library must find protocol 8, after 6 failed; asking for protocol 6 must give OBD_CONNECTED. -/
theorem shy_agreed : Agreed "A0".toList (fun p => printed (shyCar p)) none (some "8".toList) ∧
    Agreed "A0".toList (fun p => printed (shyCar p)) (some "6".toList) none := by
  refine ⟨.tried "0".toList "8".toList ["6".toList] (tryOrder.drop 2) ?_ (Or.inr ⟨rfl, by simp⟩) (by decide) rfl ?_ ?_, .refused _ (Or.inr ?_)⟩
  · rw [← unable_iff]; decide +kernel
  · intro x hx
    rw [List.mem_singleton.1 hx, ← unable_iff]; decide +kernel
  · rw [← unable_iff]; decide +kernel
  · rw [← unable_iff]; decide +kernel

/-- What the constructor gives with the shy car. -/
def shyObd (protocol : Option Str) : OW := (ObdM.construct shy fl0 [] (some "COM1".toList) true { protocol := protocol }).2

example : Constructed shy fl0 { portstr := some "COM1".toList } (shyObd none) ∧ voltageRead fl0 "12.5V".toList = some (.fin 12.5) ∧ ¬ Low (.fin 12.5) ∧
    status (shyObd none) = .carConnected ∧ status (shyObd (some "6".toList)) = .obdConnected := by
  refine ⟨constructed_of (by decide +kernel), by decide +kernel, ?_, by decide +kernel, by decide +kernel⟩
  show ¬ ((12.5 : Rat) < 6)
  decide +kernel

end Props
