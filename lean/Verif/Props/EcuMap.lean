import Verif.Lemmas.EcuMap
import Verif.Props.Lines
/-!
# C20, C21: the engine is found, messages are tagged
-/
namespace Props
open Py Model Spec

/-! ## C20 -/

/-- C20 in full: when the 0100 lines can be parsed and somebody answered with data, the
connection knows an engine. -/
def C20_full : Prop := ∀ (p : Proto) (lines : List Str) (ms : List Message),
  p.call p.defaultMap lines = .ok ms → (∃ t d, Answered ms t d) →
  ∃ o t, p.init lines = .ok o ∧ IsEngine p ms t ∧ o.tag t = ECU.engine

/-- C20, provided the constructor of the protocol does not raise: there is a right choice `t`
such that `t` is tagged ENGINE, and all other addresses have their standard tags.  Missing:
C20_raises says exactly when the constructor raises. -/
theorem C20_engine_partial (p : Proto) (lines : List Str) (o : ProtoObj) (h : p.init lines = .ok o)
    (ms : List Message) (hms : p.call p.defaultMap lines = .ok ms) (hans : ∃ t d, Answered ms t d) :
    ∃ t, IsEngine p ms t ∧ o.tag t = ECU.engine ∧ ∀ t', t' ≠ t → o.tag t' = standardTag p t' := by
  unfold Proto.init at h
  simp only [bind, Except.bind, hms, pure, Except.pure] at h
  split at h
  · next hk =>
    rw [keys_all_some] at hk
    injection h with h
    subst h
    rcases populate_spec p ms (fun m hm => call_txId hms m hm) with ⟨h1, _⟩ | ⟨t, h1, _, h3⟩ | ⟨_, _, _, h4⟩
    · obtain ⟨t, d, h⟩ := hans; exact absurd h (h1 t d)
    · exact ⟨t, h1, by unfold ProtoObj.tag; rw [h3, if_pos rfl],
        fun t' h => by unfold ProtoObj.tag; rw [h3, if_neg h]⟩
    · exact absurd hk h4
  · simp at h

/-- C20: with no answer carrying data, all addresses have their standard tags. -/
theorem C20_no_answer (p : Proto) (lines : List Str) (ms : List Message)
    (hms : p.call p.defaultMap lines = .ok ms) (hans : ∀ t d, ¬ Answered ms t d) :
    ∃ o, p.init lines = .ok o ∧ ∀ t, o.tag t = standardTag p t := by
  rcases populate_spec p ms (fun m hm => call_txId hms m hm) with ⟨_, h2⟩ | ⟨t, h1, _, h3⟩ | ⟨h0, _, _, h4⟩
  · refine ⟨⟨p, p.defaultMap⟩, ?_, defaultMap_tag p⟩
    unfold Proto.init
    simp only [bind, Except.bind, hms, pure, Except.pure, h2]
    rw [if_pos]
    rw [keys_all_some, defaultMap_get]; rfl
  · obtain ⟨d, hd⟩ := h1.answered; exact absurd hd (hans t d)
  · have : ms.filter Message.parsed ≠ [] := by intro h; rw [h] at h0; simp at h0
    obtain ⟨m, hm⟩ := List.exists_mem_of_ne_nil _ this
    obtain ⟨h5, h6⟩ := List.mem_filter.1 hm
    have hd : m.data ≠ [] := by simpa [Message.parsed] using h6
    obtain ⟨t, ht⟩ := call_txId hms m h5 hd
    exact absurd ⟨m, h5, ht, rfl, hd⟩ (hans t m.data)

/-- C20: exactly when connecting raises although the lines can be parsed: two or more ECUs
answered, none of them with the standard engine address, and nobody announced a single PID. -/
theorem C20_raises (p : Proto) (lines : List Str) (ms : List Message)
    (hms : p.call p.defaultMap lines = .ok ms) :
    (∃ e, p.init lines = .error e) ↔
      (∃ t t' d d', t ≠ t' ∧ Answered ms t d ∧ Answered ms t' d') ∧
      (∀ e d, standardEngine p = some e → ¬ Answered ms e d) ∧
      (∀ t d, Answered ms t d → popcount d = 0) := by
  have hinit : (∃ e, p.init lines = .error e) ↔ (populateEcuMap p p.defaultMap ms).get? none ≠ none := by
    unfold Proto.init
    simp only [bind, Except.bind, hms, pure, Except.pure]
    have hk := keys_all_some (populateEcuMap p p.defaultMap ms)
    split
    · next h => simp [hk.1 h]
    · next h => simp only [Except.error.injEq, exists_eq', true_iff]; exact fun h' => h (hk.2 h')
  rw [hinit]
  -- two data-carrying messages have different transmitters
  have htwo : 2 ≤ (ms.filter Message.parsed).length ↔
      ∃ t t' d d', t ≠ t' ∧ Answered ms t d ∧ Answered ms t' d' := by
    have hord := C11_order p p.defaultMap lines ms hms
    constructor
    · intro h
      match hl : ms.filter Message.parsed, h with
      | m1 :: m2 :: rest, _ =>
        have h1 : m1 ∈ ms.filter Message.parsed := by rw [hl]; simp
        have h2 : m2 ∈ ms.filter Message.parsed := by rw [hl]; simp
        have hs : List.Sublist [m1, m2] ms := by
          refine List.Sublist.trans ?_ (List.filter_sublist (p := Message.parsed))
          rw [hl]; simp
        obtain ⟨h1, h1'⟩ := List.mem_filter.1 h1
        obtain ⟨h2, h2'⟩ := List.mem_filter.1 h2
        have d1 : m1.data ≠ [] := by simpa [Message.parsed] using h1'
        have d2 : m2.data ≠ [] := by simpa [Message.parsed] using h2'
        obtain ⟨t1, ht1⟩ := call_txId hms m1 h1 d1
        obtain ⟨t2, ht2⟩ := call_txId hms m2 h2 d2
        refine ⟨t1, t2, _, _, ?_, ⟨m1, h1, ht1, rfl, d1⟩, ⟨m2, h2, ht2, rfl, d2⟩⟩
        have := (hs.filterMap Message.txId)
        simp only [List.filterMap_cons, ht1, ht2, List.filterMap_nil] at this
        have := hord.sublist this
        simp at this
        omega
    · rintro ⟨t, t', d, d', hne, ⟨m, hm, h1, rfl, h2⟩, ⟨m', hm', h1', rfl, h2'⟩⟩
      have hp : m ∈ ms.filter Message.parsed := List.mem_filter.2 ⟨hm, by simpa [Message.parsed] using h2⟩
      have hp' : m' ∈ ms.filter Message.parsed := List.mem_filter.2 ⟨hm', by simpa [Message.parsed] using h2'⟩
      match hl : ms.filter Message.parsed with
      | [] => rw [hl] at hp; simp at hp
      | [x] =>
        rw [hl, List.mem_singleton] at hp hp'
        rw [hp] at h1; rw [hp', h1] at h1'
        injection h1' with h1'; exact absurd h1' hne
      | _ :: _ :: _ => simp
  rw [← htwo]
  rcases populate_spec p ms (fun m hm => call_txId hms m hm) with ⟨h1, h2⟩ | ⟨t, h1, h2, h3⟩ | ⟨h1, h2, h3, h4⟩
  · constructor
    · rw [h2, defaultMap_get]; simp
    · rintro ⟨h, _, _⟩
      obtain ⟨t, _, d, _, _, h, _⟩ := htwo.1 h
      exact absurd h (h1 t d)
  · constructor
    · intro h; exact absurd h2 h
    · rintro ⟨hlen, hno, hz⟩
      exfalso
      -- the best candidate would be `None`
      rw [populate_two p _ ms hlen] at h2
      obtain ⟨e1, e2⟩ := exactMatches_spec p (ms.filter Message.parsed) p.defaultMap false (fun _ => rfl)
      change (exactMatches p (ms.filter Message.parsed) p.defaultMap).2 = true ↔ _ at e2
      have hf : ¬ (exactMatches p (ms.filter Message.parsed) p.defaultMap).2 = true := by
        rw [e2]
        rintro (h | ⟨x, hx, hn, he⟩)
        · simp at h
        · obtain ⟨hx, hx'⟩ := List.mem_filter.1 hx
          rw [txEngine_eq] at he
          cases ht : x.txId with
          | none => exact hn ht
          | some e =>
            exact hno e x.data (by rw [← he, ht]) ⟨x, hx, ht, rfl, by simpa [Message.parsed] using hx'⟩
      rw [if_neg hf] at h2
      have hb := bestBits_spec (ms.filter Message.parsed) 0 none (bestBits (ms.filter Message.parsed)) rfl
      rcases hb with ⟨hb, _⟩ | ⟨m, hm, _, hgt, _⟩
      · rw [fillUnknown_get, Dict.get?_set, hb] at h2
        simp at h2
      · obtain ⟨hm, hm'⟩ := List.mem_filter.1 hm
        have hd : m.data ≠ [] := by simpa [Message.parsed] using hm'
        obtain ⟨t, ht⟩ := call_txId hms m hm hd
        have := hz t m.data ⟨m, hm, ht, rfl, hd⟩
        omega
  · exact ⟨fun _ => ⟨h1, h2, h3⟩, fun _ => h4⟩

/-- C20 is false of the code: two ECUs without the standard address announcing nothing. -/
theorem C20_refuted : ¬ C20_full := by
  intro h
  have hc : ∃ ms, Proto.can29_500.call Proto.can29_500.defaultMap
      ["18 DA F1 11 02 00 00".toList, "18 DA F1 12 02 00 00".toList] = .ok ms ∧
      (∃ t d, Answered ms t d) := by
    refine ⟨_, by rfl, 0x11, [0, 0], ?_⟩
    refine ⟨_, List.mem_cons_self .., by decide +kernel, by decide +kernel, by decide⟩
  obtain ⟨ms, h1, h2⟩ := hc
  obtain ⟨o, t, h3, _⟩ := h _ _ _ h1 h2
  have : Proto.can29_500.init ["18 DA F1 11 02 00 00".toList, "18 DA F1 12 02 00 00".toList] =
    .error .typeError := by decide +kernel
  rw [this] at h3
  simp at h3

/-- Three ECUs on an 11-bit bus, the engine last, and one reply that announces more. -/
def engineLines : List Str := ["7EA 06 41 00 FF FF FF FF".toList, "SEARCHING...".toList,
  "7E9 06 41 00 98 00 00 01".toList, "7E8 06 41 00 BE 3E B8 13".toList]

example : (Proto.can11_500.init engineLines).map (fun o => (o.tag 0, o.tag 1, o.tag 2, o.tag 3)) =
    .ok (ECU.engine, ECU.transmission, ECU.unknown, ECU.unknown) := by decide +kernel

/-- Without the standard address the ECU announcing the most PIDs is the engine. -/
example : (Proto.can11_500.init (engineLines.take 3)).map (fun o => (o.tag 0, o.tag 1, o.tag 2, o.tag 3)) =
    .ok (ECU.engine, ECU.transmission, ECU.engine, ECU.unknown) := by decide +kernel

/-! ## C21 -/

/-- C21: after connecting, every message of transmitter `t` carries the tag of `t`, and
messages without transmitter are UNKNOWN. -/
theorem C21_tags (p : Proto) (lines0100 : List Str) (o : ProtoObj) (h : p.init lines0100 = .ok o)
    (lines : List Str) (ms : List Message) (hms : o.call lines = .ok ms) (m : Message) (hm : m ∈ ms) :
    m.ecu = (match m.txId with
      | some t => o.tag t
      | none => ECU.unknown) := by
  have hnone : o.ecuMap.get? none = none := by
    unfold Proto.init at h
    simp only [bind, Except.bind, pure, Except.pure] at h
    split at h
    · simp at h
    · split at h
      · next hk => injection h with h; subst h; rwa [keys_all_some] at hk
      · simp at h
  obtain ⟨_, rfl⟩ := (call_ok_iff o.cls o.ecuMap lines ms).1 hms
  rcases List.mem_append.1 hm with hm | hm
  · obtain ⟨t, ht, he⟩ := List.mem_filterMap.1 hm
    split at he
    · injection he with he
      have htx : m.txId = t := by
        rw [← he]; exact ecuMessage_txId _ _ _ _ (fun h0 => (fromTx_empty.1 h0) ht)
      rw [htx, ← he]
      unfold ecuMessage
      cases t with
      | none => simp only; rw [hnone]; rfl
      | some t => rfl
    · simp at he
  · obtain ⟨l, _, rfl⟩ := List.mem_map.1 hm
    rfl

/-- C21: a transmitter that did not answer at connect time and has no standard address is
UNKNOWN. -/
theorem C21_unseen (p : Proto) (lines0100 : List Str) (o : ProtoObj) (h : p.init lines0100 = .ok o)
    (ms : List Message) (hms : p.call p.defaultMap lines0100 = .ok ms) (t : Nat)
    (hun : ∀ d, ¬ Answered ms t d) (hstd : standardTag p t = ECU.unknown) : o.tag t = ECU.unknown := by
  by_cases ha : ∃ t d, Answered ms t d
  · obtain ⟨t', h1, _, h3⟩ := C20_engine_partial p lines0100 o h ms hms ha
    by_cases ht : t = t'
    · subst ht
      obtain ⟨d, hd⟩ := h1.answered
      exact absurd hd (hun d)
    · rw [h3 t ht, hstd]
  · have hn : ∀ t d, ¬ Answered ms t d := fun t d h' => ha ⟨t, d, h'⟩
    obtain ⟨o', h1, h2⟩ := C20_no_answer p lines0100 ms hms hn
    rw [h] at h1; injection h1 with h1; subst h1
    rw [h2, hstd]

example : ((Proto.can11_500.init engineLines).bind (fun o => o.call ["7EB 03 41 0D 20".toList,
    "7E8 03 41 0D 21".toList, "7E9 03 41 0D 21".toList, "STOPPED".toList])).map (List.map (·.ecu)) =
    .ok [ECU.engine, ECU.transmission, ECU.unknown, ECU.unknown] := by decide +kernel

end Props
