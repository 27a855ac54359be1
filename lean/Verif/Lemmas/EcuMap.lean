import Verif.Lemmas.Lines
import Verif.Spec.Ecus
/-! Helper lemmas about `populateEcuMap`. -/
namespace Model
open Py Spec

theorem txEngine_eq (p : Proto) : p.txEngine = standardEngine p := by cases p <;> rfl
theorem txTransmission_eq (p : Proto) : p.txTransmission = standardTransmission p := by cases p <;> rfl

theorem byte_pop : ∀ n : Fin 256, (byteBits (UInt8.ofNat n)).count true =
    ((List.range 8).filter (fun i => n.val.testBit i)).length := by decide +kernel

theorem numSet_eq (d : Bytes) : (BitArray.ofBytes d).numSet = popcount d := by
  unfold BitArray.numSet popcount
  rw [ofBytes_bits]
  induction d with
  | nil => rfl
  | cons b d ih =>
    rw [List.flatMap_cons, List.count_append, List.map_cons, List.sum_cons, ih]
    have := byte_pop ⟨b.toNat, b.toNat_lt⟩
    simp only [UInt8.ofNat_toNat] at this
    rw [this]

/-- The keys of the map before anything is known. -/
theorem defaultMap_get (p : Proto) (t : Option Nat) : (p.defaultMap).get? t =
    if t = none then none
    else if p.txEngine = t then some ECU.engine
    else if p.txTransmission = t then some ECU.transmission else none := by
  cases t with
  | none => cases p <;> rfl
  | some n =>
    cases p <;> simp [Proto.defaultMap, Proto.txEngine, Proto.txTransmission, Proto.family, Dict.set, Dict.get?]

theorem defaultMap_tag (p : Proto) (t : Nat) :
    ((p.defaultMap).get? (some t)).getD ECU.unknown = standardTag p t := by
  rw [defaultMap_get, txEngine_eq, txTransmission_eq, standardTag]
  simp only [reduceCtorEq, if_false]
  split
  · rfl
  · split <;> rfl

theorem exactMatches_spec (p : Proto) (ms : List Message) (m : Dict (Option Nat) Nat) (b : Bool)
    (hm : ∀ k, m.get? k = p.defaultMap.get? k) :
    (∀ k, (ms.foldl (fun (st : Dict (Option Nat) Nat × Bool) msg =>
      if msg.txId = none then st
      else if msg.txId = p.txEngine then (st.1.set msg.txId ECU.engine, true)
      else if msg.txId = p.txTransmission then (st.1.set msg.txId ECU.transmission, st.2)
      else st) (m, b)).1.get? k = p.defaultMap.get? k) ∧
    ((ms.foldl (fun (st : Dict (Option Nat) Nat × Bool) msg =>
      if msg.txId = none then st
      else if msg.txId = p.txEngine then (st.1.set msg.txId ECU.engine, true)
      else if msg.txId = p.txTransmission then (st.1.set msg.txId ECU.transmission, st.2)
      else st) (m, b)).2 = true ↔ b = true ∨ ∃ x ∈ ms, x.txId ≠ none ∧ x.txId = p.txEngine) := by
  induction ms generalizing m b with
  | nil => simp [hm]
  | cons x ms ih =>
    rw [List.foldl_cons]
    by_cases h0 : x.txId = none
    · rw [if_pos h0]
      obtain ⟨h1, h2⟩ := ih m b hm
      refine ⟨h1, h2.trans ?_⟩
      simp [h0]
    · rw [if_neg h0]
      by_cases h1 : x.txId = p.txEngine
      · rw [if_pos h1]
        obtain ⟨h2, h3⟩ := ih (m.set x.txId ECU.engine) true (by
          intro k
          rw [Dict.get?_set]
          split
          · next h => subst h; rw [defaultMap_get, if_neg h0, if_pos h1.symm]
          · exact hm k)
        refine ⟨h2, h3.trans ?_⟩
        simp only [true_or, true_iff]
        exact .inr ⟨x, List.mem_cons_self .., h0, h1⟩
      · rw [if_neg h1]
        by_cases h2 : x.txId = p.txTransmission
        · rw [if_pos h2]
          obtain ⟨h3, h4⟩ := ih (m.set x.txId ECU.transmission) b (by
            intro k
            rw [Dict.get?_set]
            split
            · next h => subst h; rw [defaultMap_get, if_neg h0, if_neg (fun h => h1 h.symm), if_pos h2.symm]
            · exact hm k)
          refine ⟨h3, h4.trans ?_⟩
          simp [h1]
        · rw [if_neg h2]
          obtain ⟨h3, h4⟩ := ih m b hm
          refine ⟨h3, h4.trans ?_⟩
          simp [h1]

theorem bestBits_spec (ms : List Message) (b : Nat) (t : Option Nat) (r : Nat × Option Nat)
    (hr : r = ms.foldl (fun (st : Nat × Option Nat) msg =>
      if (BitArray.ofBytes msg.data).numSet > st.1 then ((BitArray.ofBytes msg.data).numSet, msg.txId)
      else st) (b, t)) :
    (r = (b, t) ∧ ∀ m ∈ ms, popcount m.data ≤ b) ∨
    (∃ m ∈ ms, r = (popcount m.data, m.txId) ∧ b < popcount m.data ∧
      ∀ m' ∈ ms, popcount m'.data ≤ popcount m.data) := by
  induction ms generalizing b t with
  | nil => exact .inl ⟨hr, by simp⟩
  | cons x ms ih =>
    rw [List.foldl_cons, numSet_eq] at hr
    by_cases h : popcount x.data > b
    · rw [if_pos h] at hr
      rcases ih _ _ hr with ⟨h1, h2⟩ | ⟨m, hm, h1, h2, h3⟩
      · refine .inr ⟨x, List.mem_cons_self .., h1, h, ?_⟩
        intro m' hm'
        rcases List.mem_cons.1 hm' with rfl | hm'
        · exact Nat.le_refl _
        · exact h2 _ hm'
      · refine .inr ⟨m, List.mem_cons_of_mem _ hm, h1, by omega, ?_⟩
        intro m' hm'
        rcases List.mem_cons.1 hm' with rfl | hm'
        · omega
        · exact h3 _ hm'
    · rw [if_neg h] at hr
      rcases ih _ _ hr with ⟨h1, h2⟩ | ⟨m, hm, h1, h2, h3⟩
      · refine .inl ⟨h1, ?_⟩
        intro m' hm'
        rcases List.mem_cons.1 hm' with rfl | hm'
        · omega
        · exact h2 _ hm'
      · refine .inr ⟨m, List.mem_cons_of_mem _ hm, h1, h2, ?_⟩
        intro m' hm'
        rcases List.mem_cons.1 hm' with rfl | hm'
        · omega
        · exact h3 _ hm'

theorem fillUnknown_get (ms : List Message) (map : Dict (Option Nat) Nat) (k : Option Nat) :
    (ms.foldl (fun map m => if map.mem m.txId then map else map.set m.txId ECU.unknown) map).get? k =
      match map.get? k with
      | some v => some v
      | none => if ∃ m ∈ ms, m.txId = k then some ECU.unknown else none := by
  induction ms generalizing map with
  | nil => cases h : map.get? k <;> simp [h]
  | cons x ms ih =>
    rw [List.foldl_cons, ih]
    by_cases h : map.mem x.txId = true
    · rw [if_pos h]
      cases hk : map.get? k with
      | some v => rfl
      | none =>
        simp only
        have hx : x.txId ≠ k := by
          rintro rfl
          unfold Dict.mem at h; rw [hk] at h; simp at h
        simp [hx]
    · rw [if_neg h, Dict.get?_set]
      by_cases hx : x.txId = k
      · subst hx
        have hk : map.get? x.txId = none := by
          unfold Dict.mem at h
          cases hk : map.get? x.txId with
          | none => rfl
          | some v => rw [hk] at h; simp at h
        simp [hk]
      · rw [if_neg hx]
        cases hk : map.get? k <;> simp [hx]

/-- ECU messages have a transmitter. -/
theorem call_txId {p : Proto} {map : Dict (Option Nat) Nat} {lines : List Str} {ms : List Message}
    (h : p.call map lines = .ok ms) (m : Message) (hm : m ∈ ms) (hd : m.data ≠ []) :
    ∃ t, m.txId = some t := by
  obtain ⟨_, rfl⟩ := (call_ok_iff p map lines ms).1 h
  rcases List.mem_append.1 hm with hm | hm
  · obtain ⟨t, ht, he⟩ := List.mem_filterMap.1 hm
    by_cases hp : p = .unknown
    · subst hp
      simp only [Proto.parseMessage, Proto.family, Option.some.injEq] at he
      subst he
      exact absurd rfl hd
    · obtain ⟨f, hf, rfl⟩ := (mem_txs _ _).1 ht
      obtain ⟨_, t', ht'⟩ := framesOf_good p hp lines f hf
      split at he
      · injection he with he; subst he
        exact ⟨t', by rw [ecuMessage_txId _ _ _ _ (fun h0 => (fromTx_empty.1 h0) ht), ht']⟩
      · simp at he
  · obtain ⟨l, _, rfl⟩ := List.mem_map.1 hm
    exact absurd rfl hd

theorem keys_all_some (d : Dict (Option Nat) Nat) : d.keys.all Option.isSome = true ↔ d.get? none = none := by
  rw [Dict.get?_eq_none_iff, List.all_eq_true]
  constructor
  · intro h h2; simpa using h _ h2
  · intro h x hx
    cases x with
    | none => exact absurd hx h
    | some _ => rfl

/-- `t` is tagged: the tag of messages of `t`. -/
def ProtoObj.tag (o : ProtoObj) (t : Nat) : Nat := (o.ecuMap.get? (some t)).getD ECU.unknown

theorem populate_nil (p : Proto) (map : Dict (Option Nat) Nat) (ms : List Message)
    (h : ms.filter Message.parsed = []) : populateEcuMap p map ms = map := by
  unfold populateEcuMap; rw [h]

theorem populate_one (p : Proto) (map : Dict (Option Nat) Nat) (ms : List Message) (m : Message)
    (h : ms.filter Message.parsed = [m]) : populateEcuMap p map ms = map.set m.txId ECU.engine := by
  unfold populateEcuMap; rw [h]

theorem populate_two (p : Proto) (map : Dict (Option Nat) Nat) (ms : List Message)
    (h : 2 ≤ (ms.filter Message.parsed).length) : populateEcuMap p map ms =
      (ms.filter Message.parsed).foldl (fun map m => if map.mem m.txId then map else map.set m.txId ECU.unknown)
        (if (exactMatches p (ms.filter Message.parsed) map).2 then (exactMatches p (ms.filter Message.parsed) map).1
          else (exactMatches p (ms.filter Message.parsed) map).1.set (bestBits (ms.filter Message.parsed)).2
            ECU.engine) := by
  unfold populateEcuMap
  generalize ms.filter Message.parsed = l at h
  match l, h with
  | m1 :: m2 :: rest, _ => rfl

/-- What `populate_ecu_map` computes, for any list of messages whose data-carrying ones have a
transmitter. -/
theorem populate_spec (p : Proto) (ms : List Message) (hms : ∀ m ∈ ms, m.data ≠ [] → ∃ t, m.txId = some t) :
    ((∀ t d, ¬ Answered ms t d) ∧ populateEcuMap p p.defaultMap ms = p.defaultMap) ∨
    (∃ t, IsEngine p ms t ∧ (populateEcuMap p p.defaultMap ms).get? none = none ∧
      ∀ t', ((populateEcuMap p p.defaultMap ms).get? (some t')).getD ECU.unknown =
        if t' = t then ECU.engine else standardTag p t') ∨
    (2 ≤ (ms.filter Message.parsed).length ∧ (∀ e d, standardEngine p = some e → ¬ Answered ms e d) ∧
      (∀ t d, Answered ms t d → popcount d = 0) ∧ (populateEcuMap p p.defaultMap ms).get? none ≠ none) := by
  have hans : ∀ t d, Answered ms t d ↔ ∃ m ∈ ms.filter Message.parsed, m.txId = some t ∧ m.data = d := by
    intro t d
    unfold Answered
    constructor
    · rintro ⟨m, h1, h2, h3, h4⟩
      exact ⟨m, List.mem_filter.2 ⟨h1, by subst h3; simpa [Message.parsed] using h4⟩, h2, h3⟩
    · rintro ⟨m, h1, h2, h3⟩
      obtain ⟨h4, h5⟩ := List.mem_filter.1 h1
      exact ⟨m, h4, h2, h3, by subst h3; simpa [Message.parsed] using h5⟩
  have htx : ∀ m ∈ ms.filter Message.parsed, ∃ t, m.txId = some t := by
    intro m hm
    obtain ⟨h4, h5⟩ := List.mem_filter.1 hm
    exact hms m h4 (by simpa [Message.parsed] using h5)
  by_cases h0 : ms.filter Message.parsed = []
  · rw [h0] at hans
    exact .inl ⟨fun t d h => by obtain ⟨m, hm, _⟩ := (hans t d).1 h; simp at hm, populate_nil p _ ms h0⟩
  by_cases h1 : ∃ m, ms.filter Message.parsed = [m]
  · obtain ⟨m, hm⟩ := h1
    rw [populate_one p _ ms m hm]
    rw [hm] at hans htx
    right; left
    obtain ⟨t, ht⟩ := htx m (List.mem_cons_self ..)
    have hA : ∀ t' d', Answered ms t' d' ↔ t' = t ∧ d' = m.data := by
      intro t' d'
      rw [hans]
      simp only [List.mem_singleton, exists_eq_left, ht, Option.some.injEq]
      constructor
      · rintro ⟨h1, h2⟩; exact ⟨h1.symm, h2.symm⟩
      · rintro ⟨h1, h2⟩; exact ⟨h1.symm, h2.symm⟩
    refine ⟨t, ⟨⟨m.data, (hA _ _).2 ⟨rfl, rfl⟩⟩, fun e d _ h => ((hA _ _).1 h).1.symm, fun _ => ?_⟩, ?_, ?_⟩
    · exact ⟨m.data, (hA _ _).2 ⟨rfl, rfl⟩, fun t' d' h => by rw [((hA _ _).1 h).2]; exact Nat.le_refl _⟩
    · rw [Dict.get?_set, ht, defaultMap_get]
      simp
    · intro t'
      rw [Dict.get?_set, ht]
      by_cases h : t' = t
      · subst h; simp
      · rw [if_neg (by simpa using fun h' => h h'.symm), if_neg h, defaultMap_tag]
  · have hlen : 2 ≤ (ms.filter Message.parsed).length := by
      match hl : ms.filter Message.parsed, h0, h1 with
      | [], h0, _ => exact absurd rfl h0
      | [m], _, h1 => exact absurd ⟨m, rfl⟩ h1
      | _ :: _ :: _, _, _ => simp
    rw [populate_two p _ ms hlen]
    generalize ms.filter Message.parsed = l at hans htx hlen
    obtain ⟨e1, e2⟩ := exactMatches_spec p l p.defaultMap false (fun _ => rfl)
    change ∀ k, (exactMatches p l p.defaultMap).1.get? k = _ at e1
    change (exactMatches p l p.defaultMap).2 = true ↔ _ at e2
    have hb := bestBits_spec l 0 none (bestBits l) rfl
    simp only [Bool.false_eq_true, false_or] at e2
    have hnone : ∀ d : Dict (Option Nat) Nat, d.get? none = none →
        (l.foldl (fun map m => if map.mem m.txId then map else map.set m.txId ECU.unknown) d).get? none = none := by
      intro d hd
      rw [fillUnknown_get, hd]
      simp only
      rw [if_neg]
      rintro ⟨m, hm, h⟩
      obtain ⟨t, ht⟩ := htx m hm
      rw [ht] at h; simp at h
    have htag : ∀ (d : Dict (Option Nat) Nat) t', ((l.foldl (fun map m =>
        if map.mem m.txId then map else map.set m.txId ECU.unknown) d).get? (some t')).getD ECU.unknown =
        (d.get? (some t')).getD ECU.unknown := by
      intro d t'
      rw [fillUnknown_get]
      cases d.get? (some t') with
      | some v => rfl
      | none => simp only; split <;> rfl
    have hstd : (∃ x ∈ l, x.txId ≠ none ∧ x.txId = p.txEngine) ↔
        ∃ e d, standardEngine p = some e ∧ Answered ms e d := by
      rw [txEngine_eq]
      constructor
      · rintro ⟨x, hx, h1, h2⟩
        obtain ⟨t, ht⟩ := htx x hx
        exact ⟨t, x.data, by rw [← h2, ht], (hans _ _).2 ⟨x, hx, ht, rfl⟩⟩
      · rintro ⟨e, d, h1, h2⟩
        obtain ⟨m, hm, h3, _⟩ := (hans _ _).1 h2
        exact ⟨m, hm, by simp [h3], by rw [h3, h1]⟩
    right
    by_cases hf : (exactMatches p l p.defaultMap).2 = true
    · left
      rw [if_pos hf]
      obtain ⟨e, d, h1, h2⟩ := hstd.1 (e2.1 hf)
      refine ⟨e, ⟨⟨d, h2⟩, fun e' d' h3 _ => by rw [h1] at h3; injection h3,
        fun h3 => absurd h2 (h3 e d h1)⟩, ?_, ?_⟩
      · apply hnone
        rw [e1, defaultMap_get]; rfl
      · intro t'
        rw [htag, e1, defaultMap_tag]
        split
        · next h => subst h; rw [standardTag, if_pos h1]
        · rfl
    · rw [if_neg hf]
      have hno : ∀ e d, standardEngine p = some e → ¬ Answered ms e d := by
        intro e d h1 h2
        exact hf (e2.2 (hstd.2 ⟨e, d, h1, h2⟩))
      rcases hb with ⟨h1, h2⟩ | ⟨m, hm, h1, h2, h3⟩
      · right
        refine ⟨hlen, hno, ?_, ?_⟩
        · intro t d h
          obtain ⟨m, hm, _, rfl⟩ := (hans _ _).1 h
          have := h2 m hm; omega
        · rw [fillUnknown_get, Dict.get?_set, h1]
          simp
      · left
        obtain ⟨t, ht⟩ := htx m hm
        have hA : Answered ms t m.data := (hans _ _).2 ⟨m, hm, ht, rfl⟩
        refine ⟨t, ⟨⟨_, hA⟩, fun e d h4 h5 => absurd h5 (hno e d h4), fun _ => ⟨_, hA, ?_⟩⟩, ?_, ?_⟩
        · intro t' d' h
          obtain ⟨m', hm', _, rfl⟩ := (hans _ _).1 h
          exact h3 m' hm'
        · apply hnone
          rw [Dict.get?_set, h1, ht, e1, defaultMap_get]; rfl
        · intro t'
          rw [htag, Dict.get?_set, h1, ht, e1]
          by_cases h : t' = t
          · subst h; simp
          · rw [if_neg (by simpa using fun h' => h h'.symm), if_neg h, defaultMap_tag]

end Model
