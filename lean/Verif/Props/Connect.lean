import Verif.Lemmas.Construct
import Verif.Spec.Demo
/-!
# Connections (C40–C43)
-/
namespace Props
open Py Model Spec ObdM

/-! ## C40: a lost device is noticed once and for all -/

/-- Whatever the calls, from any object the user may hold: if one of the reads or writes
made by these calls fails, the port is closed at once, this is the last I/O of the history,
and the status is NOT_CONNECTED. -/
theorem C40_lost (dev : Device) (fl : Str → Option PyFloat) (s : OW) (hs : Reachable dev fl s) (calls : List Call) :
    ∃ evs, (session dev fl calls s).hist = s.hist ++ evs ∧
      ∀ pre e post, evs = pre ++ e :: post → Failed e →
        post = [.close] ∧ status (session dev fl calls s) = .notConnected := by
  obtain ⟨evs, he, hn⟩ := ext_session dev fl calls s
  refine ⟨evs, he, ?_⟩
  intro pre e post h hf
  have hsound := osound_session dev fl calls s (reachable_sound hs)
  have hh : (session dev fl calls s).hist = (s.hist ++ pre) ++ e :: post := by rw [he, h]; simp
  obtain ⟨post', hp, h1⟩ := hsound.1 _ _ _ hh hf
  rcases h1 with rfl | ⟨p, r, t, rfl⟩
  · refine ⟨hp, ?_⟩
    cases hi : (session dev fl calls s).interface with
    | none => simp [status, hi]
    | some x =>
      have := (hsound.2 x hi).2.1.2 ((hsound.2 x hi).1.2 ⟨s.hist ++ pre, e, hf, by rw [hh, hp]⟩)
      simpa [status, hi] using this
  · exact absurd rfl (hn (.open_ p r) (by rw [h, hp]; simp) p r)

/-- The same during construction (where another port may be tried afterwards): a failed read
or write is followed by closing the port, and then by nothing or by opening a port; in the
first case the object is NOT_CONNECTED. -/
theorem C40_construct (dev : Device) (fl : Str → Option PyFloat) (s : OW) (hs : Reachable dev fl s)
    (pre : History) (e : Event) (post : History) (h : s.hist = pre ++ e :: post) (hf : Failed e) :
    post = [.close] ∧ status s = .notConnected ∨ ∃ p r t, post = .close :: .open_ p r :: t := by
  have hsound := reachable_sound hs
  obtain ⟨post', hp, h1⟩ := hsound.1 _ _ _ h hf
  rcases h1 with rfl | ⟨p, r, t, rfl⟩
  · left
    refine ⟨hp, ?_⟩
    cases hi : s.interface with
    | none => simp [status, hi]
    | some x =>
      have := (hsound.2 x hi).2.1.2 ((hsound.2 x hi).1.2 ⟨pre, e, hf, by rw [h, hp]⟩)
      simpa [status, hi] using this
  · exact Or.inr ⟨p, r, t, hp⟩

/-- The adapter is pulled while connecting: the last events are the failure and the closing of the port. -/
example : (match (ObdM.construct (demo table ["0100"]) fl0 ["COM1".toList] none true {}).2.hist.reverse with
    | .close :: e :: _ => (match e with | .write _ false => true | .read none => true | _ => false)
    | _ => false) = true ∧ status (ObdM.construct (demo table ["0100"]) fl0 ["COM1".toList] none true {}).2 = .notConnected := by
  constructor <;> decide +kernel

/-- Once NOT_CONNECTED: no call does any I/O, and the status stays NOT_CONNECTED. -/
theorem C40_stays (dev : Device) (fl : Str → Option PyFloat) (s : OW) (hs : Reachable dev fl s)
    (h : status s = .notConnected) (calls : List Call) :
    (session dev fl calls s).hist = s.hist ∧ status (session dev fl calls s) = .notConnected :=
  session_nc dev fl calls (reachable_sound hs) h

/-- Once NOT_CONNECTED: every query returns a null response. -/
theorem C40_null (dev : Device) (fl : Str → Option PyFloat) (s : OW) (h : status s = .notConnected)
    (c : OBDCommand) (force : Bool) : ∃ r, (query dev fl c force s).1 = .ok r ∧ r.isNull = true := by
  refine ⟨{}, ?_, by simp [Response.isNull]⟩
  rw [query_nc h]

/-- A connected object has its port open (so nothing failed). -/
theorem C40_open (dev : Device) (fl : Str → Option PyFloat) (s : OW) (hs : Reachable dev fl s)
    (h : status s ≠ .notConnected) : ∃ e p, s.interface = some e ∧ e.port = some p := by
  cases hi : s.interface with
  | none => simp [status, hi] at h
  | some e =>
    have h1 : e.status ≠ .notConnected := by simpa [status, hi] using h
    cases hp : e.port with
    | none => exact absurd (((reachable_sound hs).2 e hi).2.1.2 hp) h1
    | some p => exact ⟨e, p, rfl, hp⟩

/-- The demo car, unplugged when the engine speed is queried. -/
def unplugged : Device := demo table ["010C"]
def rpm : OBDCommand := { name := "RPM", desc := "", command := ascii "010C", bytes := 4, decode := .uas 7, ecu := 2, fast := true }
def demoArgs : Args := { ports := ["COM1".toList] }

example : Constructed unplugged fl0 demoArgs (ObdM.construct unplugged fl0 demoArgs.ports none true {}).2 ∧
    status (ObdM.construct unplugged fl0 demoArgs.ports none true {}).2 = .carConnected ∧
    status (session unplugged fl0 [.query rpm false, .query rpm true] (ObdM.construct unplugged fl0 demoArgs.ports none true {}).2) = .notConnected := by
  refine ⟨?_, ?_, ?_⟩
  · have : (ObdM.construct unplugged fl0 demoArgs.ports none true {}).1 = .ok () := by decide +kernel
    exact Prod.ext this rfl
  · decide +kernel
  · decide +kernel

/-! ## C41: CAR_CONNECTED means the car answered -/

/-- The full claim: a CAR_CONNECTED object was set up by a dialogue in which the adapter
acknowledged echo off, headers on and linefeeds off, the voltage passed the check, and the
car answered the `0100` request under the protocol in use with at least one line of data. -/
def C41_full : Prop :=
  ∀ (dev : Device) (fl : Str → Option PyFloat) (a : Args) (s : OW), Constructed dev fl a s → status s = .carConnected →
    ∃ pre evs later rate xs id r, s.hist = pre ++ evs ++ later ∧ NoOpen later ∧
      Connects fl (portName s) a.cfg evs rate xs id r ∧ protocolId s = .ok id ∧
      ∃ l ∈ r, l ≠ [] ∧ ∀ c ∈ l, c = ' ' ∨ c ∈ "0123456789ABCDEF".toList

theorem _root_.Spec.Negotiated.not_unable {pr : Option Str} {ys : List (Bytes × List Str)} {id : Str} {r : List Str}
    (h : Negotiated pr ys id r) : ¬ Unable r := by
  cases h with
  | requested => assumption
  | announced => assumption
  | tried => assumption

theorem _root_.Spec.Negotiated.mem {pr : Option Str} {ys : List (Bytes × List Str)} {id : Str} {r : List Str}
    (h : Negotiated pr ys id r) : (ascii "0100", r) ∈ ys := by
  cases h <;> simp

theorem dialogue_mem {evs : History} {xs : List (Bytes × List Str)} (h : Dialogue evs xs) {cmd : Bytes} {r : List Str}
    (hm : (cmd, r) ∈ xs) : ∃ b, Event.read (some b) ∈ evs ∧ LinesOf b r := by
  induction h with
  | nil => cases hm
  | cons hl hbs _ ih =>
    rcases List.mem_cons.1 hm with h | h
    · cases h; exact ⟨_, by simp, hl⟩
    · obtain ⟨b, hb, hr⟩ := ih h
      exact ⟨b, by simp [hb], hr⟩

/-- What holds: all of it except that the reply may contain no data (`NO DATA`, nothing at
all, ...): anything but UNABLE TO CONNECT passes. -/
theorem C41_partial (dev : Device) (fl : Str → Option PyFloat) (a : Args) (s : OW) (hc : Constructed dev fl a s)
    (hs : status s = .carConnected) :
    ∃ pre evs later rate xs id r, s.hist = pre ++ evs ++ later ∧ NoOpen later ∧
      Connects fl (portName s) a.cfg evs rate xs id r ∧ protocolId s = .ok id ∧ ¬ Unable r := by
  obtain ⟨pre, evs, later, port, rate, xs, id, r, obj, e, h1, h2, h3, h4, h5, h6, h7, h8, h9⟩ := constructed_car hc hs
  have hn : portName s = port := by simp [portName, h5, Elm.portName, h6]
  have hid : protocolId s = .ok id := by simp [protocolId, h5, Elm.protocolId, h7, h8]
  refine ⟨pre, evs, later, rate, xs, id, r, h1, h2, by rw [hn]; exact h4, hid, ?_⟩
  obtain ⟨-, -, -, -, -, -, -, -, ys, -, -, -, hneg⟩ := h4
  exact hneg.not_unable

/-- The port of a CAR_CONNECTED object is the one that was asked for, or one of those found. -/
theorem C41_port (dev : Device) (fl : Str → Option PyFloat) (a : Args) (s : OW) (hc : Constructed dev fl a s)
    (hs : status s = .carConnected) : a.portstr = some (portName s) ∨ a.portstr = none ∧ portName s ∈ a.ports := by
  obtain ⟨pre, evs, later, port, rate, xs, id, r, obj, e, h1, h2, h3, h4, h5, h6, h7, h8, h9⟩ := constructed_car hc hs
  have hn : portName s = port := by simp [portName, h5, Elm.portName, h6]
  rw [hn]
  rcases h3 with h | h
  · exact Or.inl h.1
  · exact Or.inr h

/-- The car never answers, but the object is CAR_CONNECTED. -/
def deadCar : Device := demo (("0100", "NO DATA") :: table)
def deadArgs : Args := { portstr := some "COM1".toList, cfg := { protocol := some "6".toList } }
def deadObd : OW := (ObdM.construct deadCar fl0 [] deadArgs.portstr true deadArgs.cfg).2

theorem C41_refuted : ¬ C41_full := by
  intro h
  have hc : Constructed deadCar fl0 deadArgs deadObd := by
    have : (ObdM.construct deadCar fl0 [] deadArgs.portstr true deadArgs.cfg).1 = .ok () := by decide +kernel
    exact Prod.ext this rfl
  have hs : status deadObd = .carConnected := by decide +kernel
  obtain ⟨pre, evs, later, rate, xs, id, r, h1, h2, h3, h4, l, hl, hne, hhex⟩ := h _ _ _ _ hc hs
  obtain ⟨e1, e2, hev, -, hd, r1, r2, volt, ys, hxs, -, -, hneg⟩ := h3
  obtain ⟨b, hb, hlines⟩ := dialogue_mem hd (show (ascii "0100", r) ∈ xs by rw [hxs]; simp [hneg.mem])
  have hb' : Event.read (some b) ∈ deadObd.hist := by rw [h1, hev]; simp [hb]
  have hr : r = cleanLines b := linesOf_unique hlines
  have hall : deadObd.hist.all (fun e => match e with
      | .read (some b) => (cleanLines b).all (fun l => l.isEmpty || l.any (fun c => !(c == ' ' || "0123456789ABCDEF".toList.contains c)))
      | _ => true) = true := by decide +kernel
  have h5 := List.all_eq_true.1 hall _ hb'
  have h6 := List.all_eq_true.1 h5 l (by rw [← hr]; exact hl)
  rw [Bool.or_eq_true] at h6
  rcases h6 with h6 | h6
  · exact hne (List.isEmpty_iff.1 h6)
  · obtain ⟨c, hc, hx⟩ := List.any_eq_true.1 h6
    have := hhex c hc
    simp only [Bool.not_eq_true', Bool.or_eq_false_iff, beq_eq_false_iff_ne, ne_eq, List.contains_eq_mem, decide_eq_false_iff_not] at hx
    rcases this with h | h
    · exact hx.1 h
    · exact hx.2 h

/-! ## C42: the protocol in use is the one requested or announced -/

/-- With an explicit protocol, a CAR_CONNECTED object uses that protocol (and it is one of
the supported ones). -/
theorem C42_requested (dev : Device) (fl : Str → Option PyFloat) (a : Args) (s : OW) (hc : Constructed dev fl a s)
    (hs : status s = .carConnected) (id : Str) (hid : a.cfg.protocol = some id) :
    protocolId s = .ok id ∧ id ∈ knownIds ∧ line (selects id) ∈ written s.hist := by
  obtain ⟨pre, evs, later, rate, xs, id', r, h1, h2, h3, h4, -⟩ := C41_partial dev fl a s hc hs
  obtain ⟨e1, e2, hev, -, hd, r1, r2, volt, ys, hxs, -, -, hneg⟩ := h3
  rw [hid] at hneg
  cases hneg with
  | requested _ q q' hk hu =>
    refine ⟨h4, hk, ?_⟩
    have hm : ∀ {evs xs cmd r}, Dialogue evs xs → (cmd, r) ∈ xs → Event.write (line cmd) true ∈ evs := by
      intro evs xs cmd r h hm
      induction h with
      | nil => cases hm
      | cons hl hbs _ ih =>
        rcases List.mem_cons.1 hm with h | h
        · cases h; simp
        · have := ih h; simp [this]
    have := hm hd (show (selects id, q) ∈ xs by rw [hxs]; simp)
    unfold written
    rw [List.mem_filterMap]
    refine ⟨.write (line (selects id)) true, ?_, rfl⟩
    rw [h1, hev]; simp [this]

/-- The lines that may be written without a valid protocol. -/
def setupLines : List Bytes := [ascii " ", ascii "ATZ", ascii "ATE0", ascii "ATH1", ascii "ATL0", ascii "AT RV"].map line

/-- An unknown protocol ID is rejected without talking to the car: only the adapter's
set-up commands are ever written, and the car is not connected. -/
theorem C42_unknown (dev : Device) (fl : Str → Option PyFloat) (a : Args) (s : OW) (hc : Constructed dev fl a s)
    (id : Str) (hid : a.cfg.protocol = some id) (hu : id ∉ knownIds) :
    status s ≠ .carConnected ∧ ∀ b ok, Event.write b ok ∈ s.hist → b ∈ setupLines := by
  have hs : status s ≠ .carConnected := fun hs => hu (C42_requested dev fl a s hc hs id hid).2.1
  refine ⟨hs, ?_⟩
  have hset : Kept (fun w => Writes (· ∈ setupLines) w.hist) (ElmM.setProtocol dev a.cfg.protocol) := by
    rw [hid]
    unfold ElmM.setProtocol
    simp only
    cases hg : supportedProtocols.get? id with
    | none => exact Kept.pure _
    | some p => exact absurd ((ElmM.known_iff id).2 ⟨p, hg⟩) hu
  refine connected_hist hc (R := Writes (· ∈ setupLines)) ?_ (by intro b ok h; simp at h) hs ?_
  · intro port hist hh
    refine ElmM.kept_construct (steps_writes dev a.cfg.protocol ?_ hset) fl port hist ?_
    · decide
    · intro e err
      exact writes_append hh (by intro b ok h; simp at h)
  · intro s1 h1 hcar
    obtain ⟨port, t, -, -, -, -, -, -, ho⟩ := connect_opened h1 rfl (by rw [hcar]; simp)
    obtain ⟨w, hw, rfl⟩ := openInterface_ok ho
    obtain ⟨evs, rate, xs, id', r, obj, -, ⟨e1, e2, -, -, -, r1, r2, volt, ys, -, -, -, hneg⟩, -⟩ :=
      ElmM.construct_car hw (by simpa [status] using hcar)
    rw [hid] at hneg
    cases hneg with
    | requested _ q q' hk hu' => exact hu hk

/-- In automatic mode, a CAR_CONNECTED object uses the protocol that the adapter announced,
if it is supported; otherwise the first one in the documented order that did not report
UNABLE TO CONNECT.  (The dialogue of the set-up is described by `SetUp` and `Negotiated`.) -/
theorem C42_automatic (dev : Device) (fl : Str → Option PyFloat) (a : Args) (s : OW) (hc : Constructed dev fl a s)
    (hs : status s = .carConnected) (hauto : a.cfg.protocol = none) :
    ∃ pre evs later xs ys zs id r l q q' id', s.hist = pre ++ evs ++ later ∧ NoOpen later ∧ Dialogue evs (xs ++ ys ++ zs) ∧
      ys = [(ascii "ATSP0", q), (ascii "0100", q'), (ascii "ATDPN", [l])] ∧ Announces l id' ∧
      protocolId s = .ok id ∧
      (id' ∈ knownIds ∧ id = id' ∧ zs = [] ∨
        id' ∉ knownIds ∧ ∃ before after ts p, tryOrder = before ++ id :: after ∧ Tried before ts ∧ ¬ Unable r ∧
          zs = ts ++ [(selects id, p), (ascii "0100", r)]) := by
  obtain ⟨pre, evs, later, rate, xs, id, r, h1, h2, h3, h4, -⟩ := C41_partial dev fl a s hc hs
  obtain ⟨e1, e2, hev, -, hd, r1, r2, volt, ys, hxs, -, -, hneg⟩ := h3
  have hsplit : s.hist = (pre ++ (.open_ (portName s) none :: ((if a.cfg.startLowPower then [.write (line (ascii " ")) true] else []) ++ e1))) ++ e2 ++ later := by
    rw [h1, hev]; simp
  rw [hauto] at hneg
  cases hneg with
  | announced l id q q' ha hk hu =>
    exact ⟨_, e2, later, (ascii "ATZ", r1) :: (ascii "ATE0", r2) :: (ascii "ATH1", ["OK".toList]) :: (ascii "ATL0", ["OK".toList]) :: volt,
      _, [], id, r, l, q, r, id, hsplit, h2, by rw [hxs] at hd; simpa using hd, rfl, ha, h4, Or.inl ⟨hk, rfl, rfl⟩⟩
  | tried l id' id before after q q' q'' r3 ts ha hn hu ho ht hu3 =>
    exact ⟨_, e2, later, (ascii "ATZ", r1) :: (ascii "ATE0", r2) :: (ascii "ATH1", ["OK".toList]) :: (ascii "ATL0", ["OK".toList]) :: volt,
      _, _, id, r, l, q, q', id', hsplit, h2, by rw [hxs] at hd; simpa using hd, rfl, ha, h4,
      Or.inr ⟨hn, before, after, ts, q'', ho, ht, hu3, rfl⟩⟩

/-- The demo car: CAR_CONNECTED in automatic mode, under the announced protocol. -/
example : ∃ s, Constructed (demo table) fl0 demoArgs s ∧ status s = .carConnected ∧ protocolId s = .ok "6".toList := by
  refine ⟨(ObdM.construct (demo table) fl0 demoArgs.ports none true {}).2, ?_, ?_, ?_⟩
  · have : (ObdM.construct (demo table) fl0 demoArgs.ports none true {}).1 = .ok () := by decide +kernel
    exact Prod.ext this rfl
  · decide +kernel
  · decide +kernel

/-- An adapter that announces protocol 0; under protocol 6 the car cannot be reached. -/
def fallbackCar : Device where
  openPort := fun _ _ => none
  setBaud := fun _ _ => none
  probe := fun _ _ => .ok (ascii ">")
  write := fun _ _ => true
  read := fun h => [some (if lastWrite h = ascii "0100\r" then
      (if (written h).contains (line (selects "6".toList)) && !(written h).contains (line (selects "8".toList)) then ascii "UNABLE TO CONNECT\r>" else ascii "NO DATA\r>")
      else reply (("ATDPN", "A0") :: ("ATTP8", "OK") :: table) "?" (lastWrite h))]

example : ∃ s, Constructed fallbackCar fl0 demoArgs s ∧ status s = .carConnected ∧ protocolId s = .ok "8".toList := by
  refine ⟨(ObdM.construct fallbackCar fl0 demoArgs.ports none true {}).2, ?_, ?_, ?_⟩
  · have : (ObdM.construct fallbackCar fl0 demoArgs.ports none true {}).1 = .ok () := by decide +kernel
    exact Prod.ext this rfl
  · decide +kernel
  · decide +kernel

/-- An unknown ID: the object is connected to the adapter and the socket only. -/
example : ∃ s, Constructed (demo table) fl0 { demoArgs with cfg := { protocol := some "B".toList } } s ∧ status s = .obdConnected := by
  refine ⟨(ObdM.construct (demo table) fl0 demoArgs.ports none true { protocol := some "B".toList }).2, ?_, ?_⟩
  · have : (ObdM.construct (demo table) fl0 demoArgs.ports none true { protocol := some "B".toList }).1 = .ok () := by decide +kernel
    exact Prod.ext this rfl
  · decide +kernel

/-! ## C43: baud detection picks the first responsive rate -/

/-- Automatic detection on an open port that is not a pseudo terminal.  Either it finds the
first rate that answers a probe with the prompt, and leaves the port at that rate with its
timeout; or it reports failure, and no rate answered; or a probe raised. -/
theorem C43_detection (dev : Device) (w : EW) (p : Port) (hp : w.elm.port = some p)
    (hn : ¬ ∃ t, p.name = "/dev/pts".toList ++ t) :
    (∃ before rate after evs b, rates = before ++ rate :: after ∧ Silent before evs ∧ Prompted b ∧
      ElmM.setBaudrate dev none w = (.ok true,
        { elm := { w.elm with port := some { p with baud := rate } }, hist := w.hist ++ (evs ++ [.probe rate (.ok b)]) })) ∨
    (∃ evs rate, Silent rates evs ∧
      ElmM.setBaudrate dev none w = (.ok false,
        { elm := { w.elm with port := some { p with baud := rate } }, hist := w.hist ++ evs })) ∨
    (∃ before rate after evs e w', rates = before ++ rate :: after ∧ Silent before evs ∧
      ElmM.setBaudrate dev none w = (.error e, w') ∧ w'.hist = w.hist ++ (evs ++ [.probe rate (.error e)])) := by
  have hset : ElmM.setBaudrate dev none w = ElmM.autoBaudrate dev w := by
    unfold ElmM.setBaudrate
    rw [PyM.bind_ok (show ElmM.getElm w = (.ok w.elm, w) from rfl)]
    simp only
    rw [if_neg]
    have : w.elm.portName = p.name := by simp [Elm.portName, hp]
    rw [this, List.isPrefixOf_iff_prefix]
    rintro ⟨t, ht⟩
    exact hn ⟨t, ht.symm⟩
  rw [hset, ElmM.autoBaudrate_eq dev w p hp]
  rcases ElmM.tryRates_spec dev p.timeout tryBauds
    { w with elm := { w.elm with port := some { p with timeout := w.elm.timeout } } } _ rfl with
    ⟨before, after, rate, b, evs, q, hl, hs, hpr, hq, he⟩ | ⟨evs, rate, q, hs, hq, he⟩ | ⟨before, after, rate, e, evs, q, hl, hs, he⟩
  · left
    exact ⟨before, rate, after, evs, b, hl, hs, hpr, by rw [he, hq]⟩
  · right; left
    exact ⟨evs, rate, hs, by rw [he, hq]⟩
  · right; right
    exact ⟨before, rate, after, evs, e, _, hl, hs, he, rfl⟩

/-- If the port works and some rate is always answered with the prompt, detection succeeds. -/
theorem C43_found (dev : Device) (w : EW) (p : Port) (hp : w.elm.port = some p)
    (hn : ¬ ∃ t, p.name = "/dev/pts".toList ++ t) (hok : ∀ h r, ∃ b, dev.probe h r = .ok b)
    (rate : Nat) (hr : rate ∈ rates) (ha : ∀ h b, dev.probe h rate = .ok b → Prompted b) :
    (ElmM.setBaudrate dev none w).1 = .ok true := by
  have hset : ElmM.setBaudrate dev none w = ElmM.autoBaudrate dev w := by
    unfold ElmM.setBaudrate
    rw [PyM.bind_ok (show ElmM.getElm w = (.ok w.elm, w) from rfl)]
    simp only
    rw [if_neg]
    have : w.elm.portName = p.name := by simp [Elm.portName, hp]
    rw [this, List.isPrefixOf_iff_prefix]
    rintro ⟨t, ht⟩
    exact hn ⟨t, ht.symm⟩
  rw [hset, ElmM.autoBaudrate_eq dev w p hp]
  have key : ∀ l : List Nat, rate ∈ l → ∀ t w, (ElmM.tryRates dev t l w).1 = .ok true := by
    intro l
    induction l with
    | nil => intro h; cases h
    | cons r l ih =>
      intro hm t w
      obtain ⟨b, hb⟩ := hok w.hist r
      rw [ElmM.tryRates, PyM.bind_ok (show ElmM.probe dev r w = (.ok b, _) by unfold ElmM.probe; rw [hb])]
      by_cases hbp : b.getLast? = some 0x3E
      · rw [if_pos hbp]; rfl
      · rw [if_neg hbp]
        rcases List.mem_cons.1 hm with rfl | hm
        · exact absurd ((ElmM.prompted_iff b).2 (ha _ _ hb)) hbp
        · exact ih hm _ _
  exact key _ hr _ _

/-- For a CAR_CONNECTED object with automatic baud rate: the port is at the first rate that
answered, with the timeout of 10 s it was opened with. -/
theorem C43_connected (dev : Device) (fl : Str → Option PyFloat) (a : Args) (s : OW) (hc : Constructed dev fl a s)
    (hs : status s = .carConnected) (hb : a.cfg.baudrate = none) (hn : ¬ ∃ t, portName s = "/dev/pts".toList ++ t) :
    ∃ before rate after evs b e, rates = before ++ rate :: after ∧ Silent before evs ∧ Prompted b ∧
      (∀ x ∈ evs ++ [Event.probe rate (.ok b)], x ∈ s.hist) ∧ s.interface = some e ∧
      e.port = some { name := portName s, baud := rate, timeout := 10 } := by
  obtain ⟨pre, evs, later, port, rate, xs, id, r, obj, e, h1, h2, h3, h4, h5, h6, h7, h8, h9⟩ := constructed_car hc hs
  have hname : portName s = port := by simp [portName, h5, Elm.portName, h6]
  rw [hname] at hn ⊢
  obtain ⟨e1, e2, hev, hf, -⟩ := h4
  rw [hb] at hf
  cases hf with
  | pseudo h => exact absurd h hn
  | detected before after _ b evs' hr hsil hpr =>
    refine ⟨before, rate, after, evs', b, e, hr, hsil, hpr, ?_, h5, h6⟩
    intro x hx
    rw [h1, hev]
    exact List.mem_append_left _ (List.mem_append_right _ (List.mem_cons_of_mem _ (List.mem_append_left _ (List.mem_append_right _ hx))))

/-- The demo adapter answers at 9600 only: it is found after 38400 was silent. -/
example : ∃ s e p, Constructed (demo table) fl0 demoArgs s ∧ status s = .carConnected ∧ s.interface = some e ∧ e.port = some p ∧ p.baud = 9600 := by
  have h : ((ObdM.construct (demo table) fl0 demoArgs.ports none true {}).2.interface.bind (fun e => e.port)).map (fun p => p.baud) = some 9600 := by decide +kernel
  cases hi : (ObdM.construct (demo table) fl0 demoArgs.ports none true {}).2.interface with
  | none => rw [hi] at h; cases h
  | some e =>
    rw [hi] at h
    cases hp : e.port with
    | none => simp [hp] at h
    | some p =>
      refine ⟨(ObdM.construct (demo table) fl0 demoArgs.ports none true {}).2, e, p, ?_, ?_, hi, hp, ?_⟩
      · have : (ObdM.construct (demo table) fl0 demoArgs.ports none true {}).1 = .ok () := by decide +kernel
        exact Prod.ext this rfl
      · decide +kernel
      · simpa [hp] using h

end Props
