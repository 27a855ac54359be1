import Verif.Lemmas.EndToEnd
import Verif.Props.Connect
/-!
# Queries on a connection to a car
-/
namespace Props
open Py Model Spec ObdM

/-- A connected object has a protocol object, which stays; a query that ends with the reply to its
command gives what the command makes of the messages in the reply. -/
theorem connected_query {dev : Device} {fl : Str → Option PyFloat} {a : Args} {s0 : OW} (hc : Constructed dev fl a s0)
    (hs : status s0 = .carConnected) :
    ∃ (r : List Str) (o : ProtoObj), ConnectedTo fl a s0 o.cls r ∧ o.cls ≠ .unknown ∧ o.cls.init r = .ok o ∧
      ∀ (calls : List Call) (c : OBDCommand) (force : Bool) (out : Except Exc Response) (s' : OW) (evs : History) (cmd : Bytes)
        (lines : List Str), query dev fl c force (session dev fl calls s0) = (out, s') → s'.hist = (session dev fl calls s0).hist ++ evs →
        Ends evs cmd lines → cmd ≠ headerLine c.header →
        out = (match o.call lines with
          | .error x => .error x
          | .ok ms => if ms = [] then .ok {} else c.call fl ms) := by
  obtain ⟨pre, ev, later, port, rate, xs, id, r, o, e, h1, h2, h3, h4, h5, h6, h7, h8, h9⟩ := constructed_car hc hs
  have hcls : o.cls.elmId ∈ knownIds := by
    obtain ⟨e1, e2, -, -, -, r1, r2, volt, ys, -, -, -, hneg⟩ := h4
    rw [h8]
    generalize a.cfg.protocol = pr at hneg
    cases hneg with
    | requested => assumption
    | announced => assumption
    | tried l id' id before after r r' r'' r3 xs ha hn hu ho ht hu3 =>
      have : id ∈ tryOrder := by rw [ho]; simp
      revert this
      exact (by decide : ∀ id ∈ tryOrder, id ∈ knownIds) id
  have hunk : o.cls ≠ .unknown := by
    intro hu; rw [hu] at hcls; revert hcls; decide
  have hport : portName s0 = port := by simp [portName, h5, Elm.portName, h6]
  have hcon : ConnectedTo fl a s0 o.cls r :=
    ⟨pre, ev, later, rate, xs, h1, h2, by rw [hport, h8]; exact h4, by simp [protocolOf, h5, h7]⟩
  refine ⟨r, o, hcon, hunk, h9, ?_⟩
  intro calls c force out s' evs cmd lines hq hh he hcmd
  have hsnd := osound_session dev fl calls s0 (constructed_sound hc)
  have hsame := sameProto_session dev fl o calls s0 (fun e' he' => by rw [h5] at he'; cases he'; exact Or.inl h7)
  have hst : status (session dev fl calls s0) ≠ .notConnected := by
    intro hst
    rw [query_nc hst] at hq
    cases hq
    have : evs = [] := by simpa using hh
    obtain ⟨pre, bs, b, hx, -⟩ := he
    rw [this] at hx; simp at hx
  obtain ⟨e', o', hl⟩ := live_of_sound hsnd hst
  have : o' = o := by
    rcases hsame e' hl.iface with h | h
    · rw [hl.proto] at h; cases h; rfl
    · exact absurd h hl.status
  subst this
  exact query_final hl hq hh he hcmd

/-- Whatever its transmitter, a message is accepted by the filter ALL. -/
theorem tag_all {o : ProtoObj} {r : List Str} (h : o.cls.init r = .ok o) (t : Nat) : Overlap ECU.all (o.tag t) := by
  have hst : ∀ t, Overlap ECU.all (standardTag o.cls t) := by
    intro t
    unfold standardTag
    split
    · decide
    · split <;> decide
  cases hms : o.cls.call o.cls.defaultMap r with
  | error x =>
    unfold Proto.init at h
    simp only [bind, Except.bind, hms] at h
    cases h
  | ok ms =>
    by_cases ha : ∃ t d, Answered ms t d
    · obtain ⟨t', g1, g2, g3⟩ := C20_engine_partial o.cls r o h ms hms ha
      by_cases ht : t = t'
      · subst ht; rw [g2]; decide
      · rw [g3 t ht]; exact hst t
    · obtain ⟨o', g1, g2⟩ := C20_no_answer o.cls r ms hms (fun t d h' => ha ⟨t, d, h'⟩)
      rw [h] at g1
      cases g1
      rw [g2]; exact hst t

theorem message_all {o : ProtoObj} {r : List Str} (h : o.cls.init r = .ok o) {lines : List Str} {ms : List Message} (hms : o.call lines = .ok ms)
    (m : Message) (hm : m ∈ ms) : Overlap ECU.all m.ecu := by
  rw [C21_tags o.cls r o h lines ms hms m hm]
  cases m.txId with
  | none => show Overlap ECU.all ECU.unknown; decide
  | some t => exact tag_all h t

/-- What a command listening to all ECUs, of no fixed size, makes of messages. -/
theorem call_all {o : ProtoObj} {r : List Str} (h : o.cls.init r = .ok o) {lines : List Str} {ms : List Message} (hms : o.call lines = .ok ms)
    (fl : Str → Option PyFloat) (c : OBDCommand) (hecu : c.ecu = ECU.all) (hb : c.bytes = 0) (hne : ms ≠ []) :
    c.call fl ms = (match c.decode.run fl ms with
        | .ok v => .ok { command := some c, messages := ms, value := v }
        | .error e => .error e) := by
  have h1 : ms.filter (fun m => decide (Overlap c.ecu m.ecu)) = ms := by
    rw [List.filter_eq_self]
    intro m hm
    rw [hecu]
    simpa using message_all h hms m hm
  have h2 : ms.map (fun m => { m with data := fit c.bytes m.data }) = ms := by
    conv => rhs; rw [← List.map_id ms]
    apply List.map_congr_left
    intro m _
    rw [hb]; rfl
  rw [call_eq]
  simp only [h1, h2, if_neg hne]
  cases c.decode.run fl ms <;> rfl

theorem flatMap_by_sender {α : Type} (g : Message → List α) : ∀ (ms : List Message), (∀ m ∈ ms, m.txId = none → g m = []) →
    (ms.filterMap Message.txId).Pairwise (· < ·) →
    ms.flatMap g = (ms.filterMap Message.txId).flatMap (fun t => (ms.filter (fun m => m.txId == some t)).flatMap g)
  | [], _, _ => rfl
  | m :: ms, hn, hp => by
    cases ht : m.txId with
    | none =>
      have hp' : (ms.filterMap Message.txId).Pairwise (· < ·) := by simpa [ht] using hp
      rw [List.flatMap_cons, hn m (by simp) ht, List.nil_append, flatMap_by_sender g ms (fun m' h => hn m' (List.mem_cons_of_mem _ h)) hp',
        List.filterMap_cons_none ht]
      congr 1
      funext t
      rw [List.filter_cons_of_neg (by simp [ht])]
    | some t =>
      rw [List.filterMap_cons_some ht] at hp ⊢
      rw [List.pairwise_cons] at hp
      rw [List.flatMap_cons, List.flatMap_cons, flatMap_by_sender g ms (fun m' h => hn m' (List.mem_cons_of_mem _ h)) hp.2]
      have h0 : ms.filter (fun m => m.txId == some t) = [] := by
        rw [List.filter_eq_nil_iff]
        intro m' hm' hx
        have hx : m'.txId = some t := by simpa using hx
        have := hp.1 t (List.mem_filterMap.2 ⟨m', hm', hx⟩)
        omega
      rw [List.filter_cons_of_pos (by simp [ht]), h0]
      have : List.flatMap (fun t => (ms.filter (fun m => m.txId == some t)).flatMap g) (ms.filterMap Message.txId) =
          List.flatMap (fun t => ((m :: ms).filter (fun m => m.txId == some t)).flatMap g) (ms.filterMap Message.txId) := by
        apply List.flatMap_congr
        intro t' ht'
        have := hp.1 t' ht'
        rw [List.filter_cons_of_neg]
        simp [ht]; omega
      rw [this]
      simp

/-- Where a response comes from: it is the empty one, or what the command makes of the messages in the
reply to this query. -/
theorem query_answer {dev : Device} {fl : Str → Option PyFloat} {s : OW} (hr : Reachable dev fl s) {c : OBDCommand} {force : Bool}
    {r : Response} {s' : OW} (hq : query dev fl c force s = (.ok r, s')) :
    r = {} ∨ ∃ e o evs cmd lines ms, s.interface = some e ∧ e.protocol = some o ∧ s'.hist = s.hist ++ evs ∧ Ends evs cmd lines ∧
      (cmd = [] ∨ CommandString c cmd) ∧ o.call lines = .ok ms ∧ ms ≠ [] ∧ c.call fl ms = .ok r := by
  have hsnd := reachable_sound hr
  have main : ∀ (s1 : OW) (e1 : Elm) (o : ProtoObj) (ev : History), Live s1 e1 o → s1.hist = s.hist ++ ev → body dev fl c s1 = (.ok r, s') →
      r = {} ∨ ∃ evs cmd lines ms, s'.hist = s.hist ++ evs ∧ Ends evs cmd lines ∧
      (cmd = [] ∨ CommandString c cmd) ∧ o.call lines = .ok ms ∧ ms ≠ [] ∧ c.call fl ms = .ok r := by
    intro s1 e1 o ev hl1 hh1 hb
    rcases body_cases (dev := dev) (fl := fl) (c := c) hl1 with ⟨pre, l1, ev1, x, h1, h2, h3, h4⟩ | ⟨pre, l1, ev1, ms, h1, h2, h3, h4⟩ | ⟨ev1, h1, h4⟩
    · rw [h4] at hb; cases hb
    · rw [h4] at hb
      have h5 : s1.hist ++ ev1 = s'.hist := congrArg (fun x : Except Exc Response × OW => x.2.hist) hb
      have h6 := congrArg Prod.fst hb
      simp only at h6
      by_cases hms : ms = []
      · rw [if_pos hms] at h6; cases h6; exact Or.inl rfl
      · rw [if_neg hms] at h6
        exact Or.inr ⟨ev ++ ev1, buildCommand s1 c, l1, ms, by rw [← h5, hh1, List.append_assoc], dialogue_ends h2, build_string s1 c, h3, hms, h6⟩
    · rw [h4] at hb
      have h6 := congrArg Prod.fst hb
      cases h6
      exact Or.inl rfl
  rcases query_cases dev fl c force s with ⟨h1, -⟩ | ⟨x, h1, -⟩ | ⟨h1, hst, -⟩
  · rw [h1] at hq; cases hq; exact Or.inl rfl
  · rw [h1] at hq; cases hq
  · obtain ⟨e, o, hl⟩ := live_of_sound hsnd hst
    suffices h : r = {} ∨ ∃ evs cmd lines ms, s'.hist = s.hist ++ evs ∧ Ends evs cmd lines ∧
        (cmd = [] ∨ CommandString c cmd) ∧ o.call lines = .ok ms ∧ ms ≠ [] ∧ c.call fl ms = .ok r by
      rcases h with h | ⟨evs, cmd, lines, ms, h⟩
      · exact Or.inl h
      · exact Or.inr ⟨e, o, evs, cmd, lines, ms, hl.iface, hl.proto, h⟩
    rw [h1, exchange_eq] at hq
    by_cases hd : c.header = s.lastHeader
    · rw [PyM.bind_ok (setHeader_same hd)] at hq
      exact main s e o [] hl (by simp) hq
    · rcases setHeader_cases (dev := dev) hl hd with ⟨pre, l1, ev1, x, h2, h3, h4, h5⟩ | ⟨pre, l1, ev1, ms, h2, h3, h4, h5⟩ | ⟨ev1, h2, h5⟩
      · rw [PyM.bind_apply, h5] at hq; cases hq
      · rw [PyM.bind_ok h5] at hq
        exact main _ { e with lowPower := false } o ev1 ⟨rfl, hl.status, hl.port, hl.proto⟩ rfl hq
      · rw [PyM.bind_ok h5, body_nc (e := lost { e with lowPower := false }) rfl rfl] at hq
        have h6 := congrArg Prod.fst hq
        simp only at h6
        split at h6
        · cases h6; exact Or.inl rfl
        · cases h6

/-- Without a known protocol there is no data. -/
theorem unknown_data {o : ProtoObj} (hu : o.cls = .unknown) {lines : List Str} {ms : List Message} (hms : o.call lines = .ok ms) :
    ∀ m ∈ ms, m.data = [] := by
  obtain ⟨-, rfl⟩ := (call_ok_iff o.cls o.ecuMap lines ms).1 hms
  intro m hm
  rcases List.mem_append.1 hm with hm | hm
  · unfold ecuMessages at hm
    obtain ⟨t, -, hm⟩ := List.mem_filterMap.1 hm
    rw [hu] at hm
    simp only [Proto.parseMessage, Proto.family] at hm
    injection hm with hm
    rw [← hm]; rfl
  · obtain ⟨l, -, rfl⟩ := List.mem_map.1 hm
    rfl

end Props
