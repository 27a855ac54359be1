import Verif.Model.Identity
import Verif.Lemmas.Protocol
/-!
# C107: comparing messages
-/
namespace Props
open Py Model Spec

/-! ### Erasing the identities -/

private theorem frames_erase (p : Proto) : ∀ (ls : List Str) (k : Nat),
    (parseFrameObjs p k ls).map (List.map FrameObj.frame) = parseFrames p ls
  | [], _ => rfl
  | l :: ls, k => by
    have ih := frames_erase p ls (k + 1)
    rw [parseFrameObjs, parseFrames, ← ih]
    cases p.parseFrame { raw := l } with
    | error e => rfl
    | ok f =>
      cases parseFrameObjs p (k + 1) ls with
      | error e => rfl
      | ok fs => cases f <;> rfl

private def eraseDict (d : Dict (Option Nat) (List FrameObj)) : Dict (Option Nat) (List Frame) :=
  d.map (fun e => (e.1, e.2.map FrameObj.frame))

private theorem eraseDict_get (d : Dict (Option Nat) (List FrameObj)) (t : Option Nat) :
    (eraseDict d).get? t = (d.get? t).map (List.map FrameObj.frame) := by
  induction d with
  | nil => rfl
  | cons e d ih =>
    simp only [eraseDict, List.map_cons, Dict.get?] at ih ⊢
    by_cases h : e.1 = t <;> simp_all

private theorem eraseDict_set (d : Dict (Option Nat) (List FrameObj)) (t : Option Nat) (v : List FrameObj) :
    (eraseDict d).set t (v.map FrameObj.frame) = eraseDict (d.set t v) := by
  induction d with
  | nil => rfl
  | cons e d ih =>
    simp only [eraseDict, List.map_cons, Dict.set] at ih ⊢
    by_cases h : e.1 = t <;> simp_all

private theorem group_append (fs : List FrameObj) (f : FrameObj) : groupFrameObjs (fs ++ [f]) =
    match (groupFrameObjs fs).get? f.frame.txId with
      | none => (groupFrameObjs fs).set f.frame.txId [f]
      | some g => (groupFrameObjs fs).set f.frame.txId (g ++ [f]) := by
  unfold groupFrameObjs
  rw [List.foldl_append]; rfl

private theorem group_erase (fs : List FrameObj) : eraseDict (groupFrameObjs fs) = groupFrames (fs.map FrameObj.frame) := by
  induction fs using rev_ind with
  | h0 => rfl
  | h1 fs f ih =>
    rw [List.map_append, List.map_cons, List.map_nil, groupFrames_append, ← ih, eraseDict_get, group_append]
    cases (groupFrameObjs fs).get? f.frame.txId with
    | none => rw [Option.map_none, ← eraseDict_set]; rfl
    | some g => rw [Option.map_some, ← eraseDict_set]; simp

private theorem messages_erase (p : Proto) (map : Dict (Option Nat) Nat) (g : Dict (Option Nat) (List FrameObj)) :
    ∀ ts, (parseMessageObjs p map g ts).map (List.map MsgObj.erase) = parseMessages p map (eraseDict g) ts
  | [] => rfl
  | t :: ts => by
    have ih := messages_erase p map g ts
    rw [parseMessageObjs, parseMessages, ← ih, eraseDict_get]
    have e : ((g.get? t).map (List.map FrameObj.frame)).getD [] = ((g.get? t).getD []).map FrameObj.frame := by
      cases g.get? t <;> rfl
    rw [e]
    simp only [bind, Except.bind]
    cases p.parseMessage (((g.get? t).getD []).map FrameObj.frame) with
    | error e => rfl
    | ok d =>
      cases parseMessageObjs p map g ts with
      | error e => rfl
      | ok ms => cases d <;> rfl

private theorem lines_erase : ∀ (ls : List Str) (k : Nat), (lineObjs k ls).map MsgObj.erase = ls.map (fun l => { frames := [{ raw := l }] })
  | [], _ => rfl
  | l :: ls, k => by rw [lineObjs, List.map_cons, lines_erase ls (k + 1)]; rfl

/-- C107: the messages with identities are those of the protocol. -/
theorem C107_messages (p : Proto) (map : Dict (Option Nat) Nat) (k : Nat) (lines : List Str) :
    (p.callObjs map k lines).map (List.map MsgObj.erase) = p.call map lines := by
  unfold Proto.callObjs Proto.call
  rw [← frames_erase p (obdLines lines) k]
  simp only [bind, Except.bind]
  cases parseFrameObjs p k (obdLines lines) with
  | error e => rfl
  | ok fs =>
    simp only [Except.map]
    rw [← group_erase]
    have hk : (eraseDict (groupFrameObjs fs)).keys = (groupFrameObjs fs).keys := by
      simp [Dict.keys, eraseDict]
    rw [hk, ← messages_erase]
    cases parseMessageObjs p map (groupFrameObjs fs) (sortBy txKey (groupFrameObjs fs).keys) with
    | error e => rfl
    | ok ms =>
      show Except.ok _ = Except.ok _
      rw [List.map_append, lines_erase]

/-! ### Identities are new -/

private theorem frames_ids (p : Proto) : ∀ (ls : List Str) (k : Nat) (fs : List FrameObj), parseFrameObjs p k ls = .ok fs →
    (∀ f ∈ fs, k ≤ f.id ∧ f.id < k + ls.length) ∧ (fs.map FrameObj.id).Nodup
  | [], _, fs, h => by cases h; simp
  | l :: ls, k, fs, h => by
    rw [parseFrameObjs] at h
    cases hf : p.parseFrame { raw := l } with
    | error e => rw [hf] at h; cases h
    | ok f =>
      cases hs : parseFrameObjs p (k + 1) ls with
      | error e => rw [hf, hs] at h; cases h
      | ok gs =>
        obtain ⟨h1, h2⟩ := frames_ids p ls (k + 1) gs hs
        rw [hf, hs] at h
        have h1' : ∀ g ∈ gs, k < g.id ∧ g.id < k + (l :: ls).length := by
          intro g hg; have := h1 g hg; simp only [List.length_cons]; omega
        cases f with
        | none => cases h; exact ⟨fun g hg => ⟨Nat.le_of_lt (h1' g hg).1, (h1' g hg).2⟩, h2⟩
        | some f =>
          cases h
          refine ⟨?_, ?_⟩
          · intro g hg
            rcases List.mem_cons.1 hg with rfl | hg
            · simp
            · exact ⟨Nat.le_of_lt (h1' g hg).1, (h1' g hg).2⟩
          · rw [List.map_cons, List.nodup_cons]
            refine ⟨?_, h2⟩
            rintro hm
            obtain ⟨g, hg, e⟩ := List.mem_map.1 hm
            have := (h1' g hg).1
            simp only at e
            omega

private theorem group_get (fs : List FrameObj) (t : Option Nat) :
    (groupFrameObjs fs).get? t = if fs.filter (fun f => f.frame.txId == t) = [] then none else some (fs.filter (fun f => f.frame.txId == t)) := by
  induction fs using rev_ind with
  | h0 => rfl
  | h1 fs f ih =>
    rw [group_append, List.filter_append]
    by_cases h : f.frame.txId = t
    · subst h
      rw [ih]
      by_cases h0 : fs.filter (fun g => g.frame.txId == f.frame.txId) = []
      · simp [h0, Dict.get?_set]
      · simp [h0, Dict.get?_set]
    · have : [f].filter (fun f => f.frame.txId == t) = [] := by simp [h]
      rw [this, List.append_nil, ← ih]
      split <;> simp [Dict.get?_set, h]

private theorem group_keys (fs : List FrameObj) : (groupFrameObjs fs).keys = (groupFrames (fs.map FrameObj.frame)).keys := by
  rw [← group_erase]; simp [Dict.keys, eraseDict]

/-- The messages made from grouped frames: for different transmitters, of their frames. -/
private theorem messages_of (p : Proto) (map : Dict (Option Nat) Nat) (fs : List FrameObj) : ∀ (ts : List (Option Nat)) (ms : List MsgObj),
    (∀ t ∈ ts, t ∈ (groupFrameObjs fs).keys) → ts.Nodup → parseMessageObjs p map (groupFrameObjs fs) ts = .ok ms →
    (∀ m ∈ ms, ∃ t ∈ ts, m.frames ≠ [] ∧ ∀ f ∈ m.frames, f ∈ fs ∧ f.frame.txId = t) ∧
    ms.Pairwise (fun a b => ∀ f ∈ a.frames, ∀ g ∈ b.frames, f.frame.txId ≠ g.frame.txId)
  | [], ms, _, _, h => by cases h; simp
  | t :: ts, ms, hk, hn, h => by
    rw [parseMessageObjs] at h
    simp only [bind, Except.bind] at h
    cases hd : p.parseMessage ((((groupFrameObjs fs).get? t).getD []).map FrameObj.frame) with
    | error e => rw [hd] at h; cases h
    | ok d =>
      cases hs : parseMessageObjs p map (groupFrameObjs fs) ts with
      | error e => rw [hd, hs] at h; cases h
      | ok ms' =>
        obtain ⟨hn1, hn2⟩ := List.nodup_cons.1 hn
        obtain ⟨h1, h2⟩ := messages_of p map fs ts ms' (fun x hx => hk x (List.mem_cons_of_mem _ hx)) hn2 hs
        have h1' : ∀ m ∈ ms', ∃ t' ∈ t :: ts, m.frames ≠ [] ∧ ∀ f ∈ m.frames, f ∈ fs ∧ f.frame.txId = t' := by
          intro m hm
          obtain ⟨t', ht', hh⟩ := h1 m hm
          exact ⟨t', List.mem_cons_of_mem _ ht', hh⟩
        rw [hd, hs] at h
        cases d with
        | none => cases h; exact ⟨h1', h2⟩
        | some d =>
          cases h
          have hin : t ∈ (groupFrameObjs fs).keys := hk t (List.mem_cons_self ..)
          rw [← Dict.get?_isSome_iff, group_get] at hin
          have hne : fs.filter (fun f => f.frame.txId == t) ≠ [] := by
            intro h0; rw [if_pos h0] at hin; simp at hin
          have hg : ((groupFrameObjs fs).get? t).getD [] = fs.filter (fun f => f.frame.txId == t) := by
            rw [group_get, if_neg hne]; rfl
          have hf : ∀ f ∈ fs.filter (fun f => f.frame.txId == t), f ∈ fs ∧ f.frame.txId = t := by
            intro f hf
            obtain ⟨a, b⟩ := List.mem_filter.1 hf
            exact ⟨a, by simpa using b⟩
          refine ⟨?_, ?_⟩
          · intro m hm
            rcases List.mem_cons.1 hm with rfl | hm
            · refine ⟨t, List.mem_cons_self .., ?_, ?_⟩ <;> rw [hg]
              · exact hne
              · exact hf
            · exact h1' m hm
          · refine List.pairwise_cons.2 ⟨?_, h2⟩
            intro m hm f hf' g hg'
            rw [hg] at hf'
            obtain ⟨t', ht', -, hh⟩ := h1 m hm
            rw [(hf f hf').2, (hh g hg').2]
            rintro rfl
            exact hn1 ht'

private theorem lines_ids : ∀ (ls : List Str) (k : Nat), (∀ m ∈ lineObjs k ls, m.frames ≠ [] ∧ ∀ f ∈ m.frames, k ≤ f.id ∧ f.id < k + ls.length) ∧
    (lineObjs k ls).Pairwise (fun a b => ∀ f ∈ a.frames, ∀ g ∈ b.frames, f.id ≠ g.id)
  | [], _ => by simp [lineObjs]
  | l :: ls, k => by
    obtain ⟨h1, h2⟩ := lines_ids ls (k + 1)
    rw [lineObjs]
    refine ⟨?_, List.pairwise_cons.2 ⟨?_, h2⟩⟩
    · intro m hm
      rcases List.mem_cons.1 hm with rfl | hm
      · simp
      · refine ⟨(h1 m hm).1, fun f hf => ?_⟩
        have := (h1 m hm).2 f hf
        simp only [List.length_cons]; omega
    · intro m hm f hf g hg
      have := (h1 m hm).2 g hg
      simp only [List.mem_singleton] at hf
      subst hf
      simp only
      omega

/-- The messages of one call: they have frames, whose identities are new and different. -/
private theorem call_ids (p : Proto) (map : Dict (Option Nat) Nat) (k : Nat) (lines : List Str) (ms : List MsgObj)
    (h : p.callObjs map k lines = .ok ms) :
    (∀ m ∈ ms, m.frames ≠ [] ∧ ∀ f ∈ m.frames, k ≤ f.id ∧ f.id < k + lines.length) ∧
    ms.Pairwise (fun a b => ∀ f ∈ a.frames, ∀ g ∈ b.frames, f.id ≠ g.id) := by
  unfold Proto.callObjs at h
  simp only [bind, Except.bind] at h
  cases hf : parseFrameObjs p k (obdLines lines) with
  | error e => rw [hf] at h; cases h
  | ok fs =>
    rw [hf] at h
    simp only at h
    cases hm : parseMessageObjs p map (groupFrameObjs fs) (sortBy txKey (groupFrameObjs fs).keys) with
    | error e => rw [hm] at h; cases h
    | ok os =>
      rw [hm] at h
      cases h
      obtain ⟨i1, i2⟩ := frames_ids p _ k fs hf
      have hnd : (sortBy txKey (groupFrameObjs fs).keys).Nodup := by
        rw [(sortBy_perm txKey _).nodup_iff, group_keys]; exact groupFrames_nodup _
      obtain ⟨m1, m2⟩ := messages_of p map fs _ os (fun t ht => (mem_sortBy txKey _ t).1 ht) hnd hm
      obtain ⟨l1, l2⟩ := lines_ids (nonObdLines lines) (k + (obdLines lines).length)
      have hlen : (obdLines lines).length + (nonObdLines lines).length = lines.length := by
        unfold obdLines nonObdLines
        rw [List.filter_map, List.length_map]
        have := List.length_eq_length_filter_add (l := lines) (isHex ∘ noSpaces)
        simp only [Function.comp_def] at this ⊢
        omega
      have mid : ∀ m ∈ os, ∀ f ∈ m.frames, k ≤ f.id ∧ f.id < k + (obdLines lines).length := by
        intro m hm f hf'
        obtain ⟨t, -, -, hh⟩ := m1 m hm
        exact i1 f (hh f hf').1
      refine ⟨?_, List.pairwise_append.2 ⟨?_, l2, ?_⟩⟩
      · intro m hm
        rcases List.mem_append.1 hm with hm | hm
        · obtain ⟨t, -, h1, -⟩ := m1 m hm
          exact ⟨h1, fun f hf' => by have := mid m hm f hf'; omega⟩
        · exact ⟨(l1 m hm).1, fun f hf' => by have := (l1 m hm).2 f hf'; omega⟩
      · refine m2.imp_of_mem ?_
        intro a b ha hb hab f hf' g hg' e
        obtain ⟨_, _, _, ha'⟩ := m1 a ha
        obtain ⟨_, _, _, hb'⟩ := m1 b hb
        have : f = g := List.inj_on_of_nodup_map i2 (ha' f hf').1 (hb' g hg').1 e
        exact hab f hf' g hg' (by rw [this])
      · intro a ha b hb f hf' g hg'
        have h1 := mid a ha f hf'
        have h2 := (l1 b hb).2 g hg'
        omega

private theorem eq_false_of {a b : MsgObj} (h0 : a.frames ≠ []) (h : ∀ f ∈ a.frames, ∀ g ∈ b.frames, f.id ≠ g.id) : a.eq b = false := by
  unfold MsgObj.eq
  have : a.frames.map FrameObj.id ≠ b.frames.map FrameObj.id := by
    intro e
    cases ha : a.frames with
    | nil => exact h0 ha
    | cons f fs =>
      cases hb : b.frames with
      | nil => rw [ha, hb] at e; cases e
      | cons g gs =>
        rw [ha, hb] at e
        simp only [List.map_cons] at e
        injection e with e _
        exact h f (by rw [ha]; exact List.mem_cons_self ..) g (by rw [hb]; exact List.mem_cons_self ..) e
  simp [this]

/-! ### The property -/

/-- C107, the natural statement fails: the same reply, parsed twice, gives messages that differ. -/
theorem C107_refuted : ¬ ∀ (p : Proto) (map : Dict (Option Nat) Nat) (k k' : Nat) (lines : List Str) (ms ms' : List MsgObj),
    k + lines.length ≤ k' → p.callObjs map k lines = .ok ms → p.callObjs map k' lines = .ok ms' →
    ∀ a ∈ ms, ∀ b ∈ ms', a.erase = b.erase → a.eq b = true := by
  intro h
  have := h .can11_500 [] 0 1 ["7E8 04 41 0C 1A F8".toList]
    [{ frames := [{ id := 0, frame := { raw := "7E804410C1AF8".toList, data := [4, 0x41, 0xc, 0x1a, 0xf8], priority := some 7, addrMode := some 0xE0, rxId := some 0xF1, txId := some 0, type := some 0, dataLen := some 4 } }], data := [0x41, 0xc, 0x1a, 0xf8] }]
    [{ frames := [{ id := 1, frame := { raw := "7E804410C1AF8".toList, data := [4, 0x41, 0xc, 0x1a, 0xf8], priority := some 7, addrMode := some 0xE0, rxId := some 0xF1, txId := some 0, type := some 0, dataLen := some 4 } }], data := [0x41, 0xc, 0x1a, 0xf8] }]
    (by decide) (by decide +kernel) (by decide +kernel) _ (List.mem_singleton.2 rfl) _ (List.mem_singleton.2 rfl) (by decide +kernel)
  revert this; decide +kernel

/-- C107: messages of two different replies never compare equal, whatever they contain. -/
theorem C107_replies_partial (p q : Proto) (map map' : Dict (Option Nat) Nat) (k k' : Nat) (lines lines' : List Str) (ms ms' : List MsgObj)
    (hk : k + lines.length ≤ k') (h : p.callObjs map k lines = .ok ms) (h' : q.callObjs map' k' lines' = .ok ms') :
    ∀ a ∈ ms, ∀ b ∈ ms', a.eq b = false ∧ b.eq a = false := by
  intro a ha b hb
  have h1 := (call_ids p map k lines ms h).1 a ha
  have h2 := (call_ids q map' k' lines' ms' h').1 b hb
  constructor
  · exact eq_false_of h1.1 (fun f hf g hg => by have := h1.2 f hf; have := h2.2 g hg; omega)
  · exact eq_false_of h2.1 (fun f hf g hg => by have := h2.2 f hf; have := h1.2 g hg; omega)

/-- C107: a message equals itself, and no other message of the same reply. -/
theorem C107_same_partial (p : Proto) (map : Dict (Option Nat) Nat) (k : Nat) (lines : List Str) (ms : List MsgObj)
    (h : p.callObjs map k lines = .ok ms) (i j : Nat) (a b : MsgObj) (hi : ms[i]? = some a) (hj : ms[j]? = some b) :
    a.eq b = decide (i = j) := by
  obtain ⟨c1, c2⟩ := call_ids p map k lines ms h
  by_cases hij : i = j
  · subst hij
    rw [hi] at hj
    cases hj
    simp [MsgObj.eq]
  · rw [decide_eq_false hij]
    obtain ⟨hi1, hi2⟩ := List.getElem?_eq_some_iff.1 hi
    obtain ⟨hj1, hj2⟩ := List.getElem?_eq_some_iff.1 hj
    have ha : a ∈ ms := hi2 ▸ List.getElem_mem hi1
    rcases Nat.lt_or_gt_of_ne hij with hlt | hlt
    · have := List.pairwise_iff_getElem.1 c2 i j hi1 hj1 hlt
      rw [hi2, hj2] at this
      exact eq_false_of (c1 a ha).1 this
    · have := List.pairwise_iff_getElem.1 c2 j i hj1 hi1 hlt
      rw [hi2, hj2] at this
      exact eq_false_of (c1 a ha).1 (fun f hf g hg e => this g hg f hf e.symm)

end Props
