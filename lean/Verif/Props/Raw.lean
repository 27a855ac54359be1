import Verif.Props.States
import Verif.Spec.Raw
/-!
# C97: the raw text of a message

`Message.raw()` is what the user sees of the wire: exactly the adapter's lines of that message.
-/
namespace Props
open Py Model Spec ObdM

theorem noSpaces_idem (s : Str) : noSpaces (noSpaces s) = noSpaces s := by
  unfold noSpaces
  rw [List.filter_filter]
  congr 1
  funext c
  simp

theorem framesOf_raw (p : Proto) (hp : p ≠ .unknown) (t : Nat) (lines : List Str) :
    (fromTx (framesOf p lines) (some t)).map Frame.raw = (lines.filter (sentBy p t)).map (fun s => s.filter (fun c => c != ' ')) := by
  rw [fromTx_framesOf p hp, framesOf_eq]
  induction lines with
  | nil => rfl
  | cons s lines ih =>
    rw [List.filter_cons]
    split
    · next h =>
      rcases lineF_cases p hp s with ⟨h1, _⟩ | ⟨t', d, f, h1, h2, h3, _, _, _⟩
      · simp [sentBy, h1] at h
      · rw [List.filterMap_cons, h2]
        simp only [List.map_cons]
        rw [ih, h3]; rfl
    · exact ih

theorem framesOf_raw_unknown (lines : List Str) :
    (framesOf .unknown lines).map Frame.raw = (lines.filter (fun s => ¬ NotHex s)).map (fun s => s.filter (fun c => c != ' ')) := by
  rw [framesOf_eq]
  induction lines with
  | nil => rfl
  | cons s lines ih =>
    rw [List.filter_cons, List.filterMap_cons]
    by_cases h : isHex (noSpaces s) = true
    · have hn : ¬ NotHex s := by rw [notHex_iff]; simp [h]
      rw [if_pos (by simpa using hn)]
      have : lineF .unknown s = some { raw := noSpaces s } := by unfold lineF; rw [if_pos h]; rfl
      rw [this]
      simp only [List.map_cons]
      rw [ih]; rfl
    · have hn : NotHex s := by rw [notHex_iff]; simpa using h
      rw [if_neg (by simpa using hn)]
      have : lineF .unknown s = none := by unfold lineF; rw [if_neg h]
      rw [this]
      exact ih

/-- C97: the raw text of the message of transmitter `t` is the lines transmitted by `t`, without
their spaces, in the order in which they arrived, one per line. -/
theorem C97_raw (p : Proto) (hp : p ≠ .unknown) (map : Dict (Option Nat) Nat) (lines : List Str) (ms : List Message)
    (h : p.call map lines = .ok ms) (m : Message) (hm : m ∈ ms) (t : Nat) (ht : m.txId = some t) :
    m.raw = ['\n'].intercalate ((lines.filter (sentBy p t)).map (fun s => s.filter (fun c => c != ' '))) := by
  obtain ⟨_, rfl⟩ := (call_ok_iff p map lines ms).1 h
  rcases List.mem_append.1 hm with hm | hm
  · unfold ecuMessages at hm
    obtain ⟨t', ht', he⟩ := List.mem_filterMap.1 hm
    split at he
    · injection he with he
      subst he
      rw [ecuMessage_txId _ _ _ _ (fun h0 => (fromTx_empty.1 h0) ht')] at ht
      subst ht
      rw [← framesOf_raw p hp]
      rfl
    · cases he
  · obtain ⟨l, _, rfl⟩ := List.mem_map.1 hm
    cases ht

/-- C97: with no protocol selected, all hex lines are the raw text of one message. -/
theorem C97_raw_unknown (map : Dict (Option Nat) Nat) (lines : List Str) (ms : List Message)
    (h : Proto.unknown.call map lines = .ok ms) :
    ∃ ecus chat, ms = ecus ++ chat ∧ chat.map Message.raw = lines.filter (fun s => NotHex s) ∧
      ecus.map Message.raw = (if lines.filter (fun s => ¬ NotHex s) = [] then [] else
        [['\n'].intercalate ((lines.filter (fun s => ¬ NotHex s)).map (fun s => s.filter (fun c => c != ' ')))]) := by
  obtain ⟨_, rfl⟩ := (call_ok_iff .unknown map lines ms).1 h
  refine ⟨_, _, rfl, ?_, ?_⟩
  · rw [List.map_map]
    have hid : (Message.raw ∘ chatter) = id := by
      funext l; simp [Message.raw, chatter, List.intercalate]
    rw [hid, List.map_id]
    unfold nonObdLines
    apply List.filter_congr
    intro s _
    rw [Bool.eq_iff_iff]
    simp [notHex_iff]
  · have hr := framesOf_raw_unknown lines
    have htx : ∀ f ∈ framesOf .unknown lines, f.txId = none := by
      intro f hf
      rw [framesOf_eq] at hf
      obtain ⟨s, _, hs⟩ := List.mem_filterMap.1 hf
      unfold lineF at hs
      split at hs
      · cases hs; rfl
      · cases hs
    by_cases hne : framesOf .unknown lines = []
    · rw [hne] at hr ⊢
      have h0 : lines.filter (fun s => ¬ NotHex s) = [] := List.map_eq_nil_iff.1 hr.symm
      rw [if_pos h0]
      rfl
    · have h0 : lines.filter (fun s => ¬ NotHex s) ≠ [] := by
        intro h0
        rw [h0] at hr
        exact hne (List.map_eq_nil_iff.1 hr)
      rw [if_neg h0, ← hr]
      unfold ecuMessages
      rw [txs_single _ none htx hne]
      show [(ecuMessage map (framesOf .unknown lines) none _).raw] = _
      unfold ecuMessage
      rw [fromTx_all _ none htx]
      rfl

/-- C97: nothing of a message is lost in its raw text: parsing the lines of the raw text gives that
message back, and nothing else. -/
theorem C97_reparse (p : Proto) (hp : p ≠ .unknown) (map : Dict (Option Nat) Nat) (lines : List Str) (ms : List Message)
    (h : p.call map lines = .ok ms) (m : Message) (hm : m ∈ ms) (t : Nat) (ht : m.txId = some t) :
    p.call map (m.raw.splitOn '\n') = .ok [m] := by
  have hraw := C97_raw p hp map lines ms h m hm t ht
  have hown := C11_own_lines p hp map lines ms h t
  have hone : ms.filter (fun m => m.txId == some t) = [m] := by
    have hmem : m ∈ ms.filter (fun m => m.txId == some t) := List.mem_filter.2 ⟨hm, by simp [ht]⟩
    obtain ⟨_, rfl⟩ := (call_ok_iff p map lines ms).1 h
    rw [List.filter_append, ecuMessages_filter] at hmem ⊢
    have hch : ((nonObdLines lines).map chatter).filter (fun m => m.txId == some t) = [] := by
      rw [List.filter_eq_nil_iff]
      intro x hx
      obtain ⟨l, _, rfl⟩ := List.mem_map.1 hx
      simp [chatter, Message.txId]
    rw [hch, List.append_nil] at hmem ⊢
    unfold oneMessage at hmem ⊢
    split at hmem
    · cases hmem
    · next hx =>
      rw [if_neg hx]
      split at hmem
      · rw [List.mem_singleton.1 hmem]
      · cases hmem
  have hne : (lines.filter (sentBy p t)).map (fun s => s.filter (fun c => c != ' ')) ≠ [] := by
    intro h0
    rw [List.map_eq_nil_iff.1 h0] at hown
    rw [hone] at hown
    have := (call_ok_iff p map [] _).1 hown
    cases this.2
  have hsplit : m.raw.splitOn '\n' = (lines.filter (sentBy p t)).map (fun s => s.filter (fun c => c != ' ')) := by
    rw [hraw]
    apply List.splitOn_intercalate _ _ hne
    intro l hl hc
    obtain ⟨s, hs, rfl⟩ := List.mem_map.1 hl
    have h1 : isHex (noSpaces s) = true := by
      have h := (List.mem_filter.1 hs).2
      unfold sentBy at h
      cases hl : lineFrame? p s with
      | none => rw [hl] at h; simp at h
      | some x => exact lineFrame?_hex hl
    have h2 : ¬ NotHex s := by rw [notHex_iff]; simp [h1]
    exact h2 ⟨'\n', (List.mem_filter.1 hc).1, by decide, by decide⟩
  rw [hsplit, ← hone, ← hown]
  apply call_congr
  · rw [framesOf_eq, framesOf_eq, List.filterMap_map]
    apply List.filterMap_congr
    intro s _
    show lineF p (noSpaces s) = lineF p s
    unfold lineF
    rw [noSpaces_idem]
  · unfold nonObdLines
    rw [List.filter_map]
    have : ((fun l => !isHex (noSpaces l)) ∘ fun s : Str => s.filter (fun c => c != ' ')) = fun l => !isHex (noSpaces l) := by
      funext s
      show (!isHex (noSpaces (noSpaces s))) = _
      rw [noSpaces_idem]
    rw [this]
    have hnil : ∀ ls : List Str, (ls.filter (sentBy p t)).filter (fun l => !isHex (noSpaces l)) = [] := by
      intro ls
      rw [List.filter_eq_nil_iff]
      intro s hs
      have h := (List.mem_filter.1 hs).2
      unfold sentBy at h
      cases hl : lineFrame? p s with
      | none => rw [hl] at h; simp at h
      | some x => simp [lineFrame?_hex hl]
    rw [hnil]
    rfl

example : (match Proto.can11_500.call [] sampleLines with
    | .ok ms => ms.map (fun m => (m.txId, m.raw))
    | .error _ => []) = [(some 0, "7E8064100BE3EB813".toList), (some 1, "7E91009410001020304\n7E92105060700000000".toList),
      (none, "SEARCHING...".toList)] := by decide +kernel

theorem call_rawOf (p : Proto) (map : Dict (Option Nat) Nat) (lines : List Str) (ms : List Message)
    (h : p.call map lines = .ok ms) (m : Message) (hm : m ∈ ms) : RawOf p lines m := by
  obtain ⟨_, rfl⟩ := (call_ok_iff p map lines ms).1 h
  have hm0 := hm
  rcases List.mem_append.1 hm with hm | hm
  · unfold ecuMessages at hm
    obtain ⟨t, ht, he⟩ := List.mem_filterMap.1 hm
    have htx : m.txId = t := by
      split at he
      · injection he with he
        subst he
        exact ecuMessage_txId _ _ _ _ (fun h0 => (fromTx_empty.1 h0) ht)
      · cases he
    by_cases hp : p = .unknown
    · subst hp
      have hall : ∀ f ∈ framesOf .unknown lines, f.txId = none := by
        intro f hf
        rw [framesOf_eq] at hf
        obtain ⟨s, _, hs⟩ := List.mem_filterMap.1 hf
        unfold lineF at hs
        split at hs
        · cases hs; rfl
        · cases hs
      obtain ⟨f, hf, hft⟩ := (mem_txs _ _).1 ht
      rw [hall f hf] at hft
      subst hft
      unfold RawOf
      rw [htx]
      refine Or.inr ⟨rfl, ?_⟩
      rw [← framesOf_raw_unknown]
      split at he
      · injection he with he
        subst he
        unfold ecuMessage
        rw [fromTx_all _ none hall]
        rfl
      · cases he
    · obtain ⟨f, hf, hft⟩ := (mem_txs _ _).1 ht
      obtain ⟨_, n, hn⟩ := framesOf_good p hp lines f hf
      rw [hn] at hft
      subst hft
      unfold RawOf
      rw [htx]
      exact C97_raw p hp map lines _ h m hm0 n htx
  · obtain ⟨l, hl, rfl⟩ := List.mem_map.1 hm
    unfold RawOf
    refine Or.inl ?_
    have : (chatter l).raw = l := by simp [Message.raw, chatter, List.intercalate]
    rw [this]
    have h2 := List.mem_filter.1 hl
    exact ⟨h2.1, by rw [notHex_iff]; simpa using h2.2⟩

/-- C97, end to end: every message of a response shows the lines that the adapter printed in reply
to the last command sent for it: all lines of one transmitter, or one line of adapter text. -/
theorem C97_query {dev : Device} {fl : Str → Option PyFloat} {s : OW} (hr : Reachable dev fl s) {c : OBDCommand} {force : Bool}
    {r : Response} {s' : OW} (hq : query dev fl c force s = (.ok r, s')) (hm : r.messages ≠ []) :
    ∃ p evs cmd lines, protocolOf s = some p ∧ s'.hist = s.hist ++ evs ∧ Ends evs cmd lines ∧ (cmd = [] ∨ CommandString c cmd) ∧
      ∀ m ∈ r.messages, RawOf p lines m := by
  rcases query_answer hr hq with rfl | ⟨e, o, evs, cmd, lines, ms, h1, h2, h3, h4, h5, h6, h7, h8⟩
  · exact absurd rfl hm
  · refine ⟨o.cls, evs, cmd, lines, by simp [protocolOf, h1, h2], h3, h4, h5, ?_⟩
    intro m hmm
    have hmap := C22_messages fl c ms r h8
    obtain ⟨m', hm', he⟩ : ∃ m' ∈ ms, m'.frames = m.frames := by
      have : (m.frames, m.ecu) ∈ (ms.filter (fun m => decide (Overlap c.ecu m.ecu))).map (fun m => (m.frames, m.ecu)) := by
        rw [← hmap]; exact List.mem_map.2 ⟨m, hmm, rfl⟩
      obtain ⟨m', h9, h10⟩ := List.mem_map.1 this
      exact ⟨m', (List.mem_filter.1 h9).1, congrArg Prod.fst h10⟩
    have := call_rawOf o.cls o.ecuMap lines ms h6 m' hm'
    unfold RawOf Message.raw Message.txId at this ⊢
    rw [he] at this
    exact this

/-- On the demo car, asking for the engine speed. -/
example : Reachable (demo table) fl0 (demoObd true) ∧
    ((query (demo table) fl0 tableRpm true (demoObd true)).1.toOption.map Response.messages).map (List.map Message.raw) =
      some ["7E804410C1AF8".toList] :=
  ⟨⟨_, _, [], demoObd_constructed true, rfl⟩, by decide +kernel⟩

end Props
