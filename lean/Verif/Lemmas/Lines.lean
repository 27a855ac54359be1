import Verif.Lemmas.Frames
/-! From lines to frames and messages, per transmitter. -/
namespace Model
open Py Spec

/-- The frame of a received line. -/
def lineF (p : Proto) (s : Str) : Option Frame :=
  if isHex (noSpaces s) then frameOf p (noSpaces s) else none

theorem framesOf_eq (p : Proto) (lines : List Str) : framesOf p lines = lines.filterMap (lineF p) := by
  unfold framesOf obdLines
  induction lines with
  | nil => rfl
  | cons s lines ih =>
    rw [List.map_cons, List.filter_cons, List.filterMap_cons]
    unfold lineF
    by_cases h : isHex (noSpaces s) = true
    · simp only [h, if_true, List.filterMap_cons]
      rw [ih]; rfl
    · simp only [h, if_false]
      exact ih

theorem lineF_cases (p : Proto) (hp : p ≠ .unknown) (s : Str) :
    (lineFrame? p s = none ∧ lineF p s = none) ∨
    ∃ t d f, lineFrame? p s = some (t, d) ∧ lineF p s = some f ∧ f.raw = noSpaces s ∧
      f.txId = some t ∧ f.data = d ∧ GoodFrame p f := by
  unfold lineF
  by_cases h : isHex (noSpaces s) = true
  · rw [if_pos h]
    have hr := readsAs p hp s h
    cases hl : lineFrame? p s with
    | none => rw [hl] at hr; exact .inl ⟨rfl, hr⟩
    | some x =>
      obtain ⟨t, d⟩ := x
      rw [hl] at hr
      obtain ⟨f, h1, h2, h3, h4, h5⟩ := hr
      exact .inr ⟨t, d, f, rfl, h1, h2, h3, h4, h5⟩
  · rw [if_neg h]
    cases hl : lineFrame? p s with
    | none => exact .inl ⟨rfl, rfl⟩
    | some x => exact absurd (lineFrame?_hex hl) h

theorem framesOf_good (p : Proto) (hp : p ≠ .unknown) (lines : List Str) :
    ∀ f ∈ framesOf p lines, GoodFrame p f ∧ ∃ t, f.txId = some t := by
  rw [framesOf_eq]
  intro f hf
  obtain ⟨s, _, hs⟩ := List.mem_filterMap.1 hf
  rcases lineF_cases p hp s with ⟨_, h⟩ | ⟨t, d, g, _, h1, _, h3, _, h5⟩
  · rw [h] at hs; simp at hs
  · rw [h1] at hs; injection hs with hs; subst hs; exact ⟨h5, t, h3⟩

/-- The frames of one transmitter are those of its lines. -/
theorem fromTx_framesOf (p : Proto) (hp : p ≠ .unknown) (lines : List Str) (t : Nat) :
    fromTx (framesOf p lines) (some t) = framesOf p (lines.filter (sentBy p t)) := by
  rw [framesOf_eq, framesOf_eq]
  induction lines with
  | nil => rfl
  | cons s lines ih =>
    rw [List.filterMap_cons, List.filter_cons]
    rcases lineF_cases p hp s with ⟨h1, h2⟩ | ⟨t', d, f, h1, h2, _, h3, _, _⟩
    · simp only [sentBy, h1, h2, Option.map_none]
      rw [if_neg (by simp)]
      exact ih
    · simp only [h2]
      have hc : sentBy p t s = (t' == t) := by
        simp [sentBy, h1]
      rw [hc]
      by_cases ht : t' = t
      · subst ht
        simp only [BEq.rfl, if_true]
        rw [List.filterMap_cons, h2]
        simp only [fromTx, List.filter_cons, h3, BEq.rfl, if_true]
        exact congrArg _ ih
      · rw [show (t' == t) = false by simpa using ht]
        simp only [fromTx, List.filter_cons, h3]
        rw [show (some t' == some t) = false by simpa using ht]
        exact ih

theorem framesBy_eq (p : Proto) (hp : p ≠ .unknown) (lines : List Str) (t : Nat) :
    framesBy p t lines = (fromTx (framesOf p lines) (some t)).map Frame.data := by
  rw [framesOf_eq]
  unfold framesBy
  induction lines with
  | nil => rfl
  | cons s lines ih =>
    rw [List.filterMap_cons, List.filterMap_cons]
    rcases lineF_cases p hp s with ⟨h1, h2⟩ | ⟨t', d, f, h1, h2, _, h3, h4, _⟩
    · rw [h1, h2]; exact ih
    · rw [h1, h2]
      simp only [List.filter_cons, fromTx, h3]
      by_cases ht : t' = t
      · subst ht
        simp only [BEq.rfl, if_true, List.map_cons, h4]
        exact congrArg _ ih
      · rw [show (t' == t) = false by simpa using ht, show (some t' == some t) = false by simpa using ht]
        exact ih

theorem fromTx_idem (fs : List Frame) (t : Option Nat) : fromTx (fromTx fs t) t = fromTx fs t := by
  unfold fromTx
  rw [List.filter_filter]
  congr 1
  funext f; simp

theorem fromTx_empty {fs : List Frame} {t : Option Nat} : fromTx fs t = [] ↔ t ∉ txs fs := by
  rw [mem_txs]
  unfold fromTx
  rw [List.filter_eq_nil_iff]
  constructor
  · rintro h ⟨f, hf, ht⟩; exact h f hf (by simp [ht])
  · intro h f hf ht; exact h ⟨f, hf, by simpa using ht⟩

theorem ecuMessage_txId (map : Dict (Option Nat) Nat) (fs : List Frame) (t : Option Nat) (d : Bytes)
    (h : fromTx fs t ≠ []) : (ecuMessage map fs t d).txId = t := by
  unfold ecuMessage Message.txId
  cases hf : fromTx fs t with
  | nil => exact absurd hf h
  | cons f l =>
    simp only
    have : f ∈ fromTx fs t := by rw [hf]; exact List.mem_cons_self ..
    have := (List.mem_filter.1 this).2
    simpa using this

/-- The message, if any, of one transmitter. -/
def oneMessage (p : Proto) (map : Dict (Option Nat) Nat) (fs : List Frame) (t : Option Nat) : List Message :=
  if fromTx fs t = [] then [] else
    match p.parseMessage (fromTx fs t) with
    | .ok (some d) => [ecuMessage map fs t d]
    | _ => []

theorem txs_nodup (fs : List Frame) : (txs fs).Nodup :=
  (sortBy_perm txKey _).nodup_iff.2 (groupFrames_nodup fs)

theorem filter_eq_single {α} [BEq α] [LawfulBEq α] (l : List α) (a : α) (h : l.Nodup) :
    l.filter (fun x => x == a) = if a ∈ l then [a] else [] := by
  induction l with
  | nil => simp
  | cons b l ih =>
    rw [List.nodup_cons] at h
    rw [List.filter_cons, ih h.2]
    by_cases hb : b = a
    · subst hb; simp [h.1]
    · have : ¬ a = b := fun h => hb h.symm
      simp [hb, this]

theorem ecuMessages_filter (p : Proto) (map : Dict (Option Nat) Nat) (fs : List Frame) (t : Option Nat) :
    (ecuMessages p map fs).filter (fun m => m.txId == t) = oneMessage p map fs t := by
  have key : ∀ ts : List (Option Nat), (∀ x ∈ ts, fromTx fs x ≠ []) →
      (ts.filterMap (fun t => match p.parseMessage (fromTx fs t) with
        | .ok (some d) => some (ecuMessage map fs t d)
        | _ => none)).filter (fun m => m.txId == t)
      = (ts.filter (fun x => x == t)).filterMap (fun t => match p.parseMessage (fromTx fs t) with
        | .ok (some d) => some (ecuMessage map fs t d)
        | _ => none) := by
    intro ts hts
    induction ts with
    | nil => rfl
    | cons x ts ih =>
      have ih := ih (fun y hy => hts y (List.mem_cons_of_mem _ hy))
      have hx := hts x (List.mem_cons_self ..)
      rw [List.filterMap_cons, List.filter_cons]
      by_cases hxt : x = t
      · subst hxt
        simp only [BEq.rfl, if_true]
        rw [List.filterMap_cons]
        split
        · exact ih
        · next m hm =>
          have : m.txId = x := by
            split at hm
            · injection hm with hm; subst hm; exact ecuMessage_txId _ _ _ _ hx
            · simp at hm
          rw [List.filter_cons]
          simp only [this, BEq.rfl, if_true]
          rw [ih]
      · rw [if_neg (by simpa using hxt)]
        split
        · exact ih
        · next m hm =>
          have : m.txId = x := by
            split at hm
            · injection hm with hm; subst hm; exact ecuMessage_txId _ _ _ _ hx
            · simp at hm
          rw [List.filter_cons, this, if_neg (by simpa using hxt)]
          exact ih
  unfold ecuMessages
  refine (key (txs fs) (fun x hx h => (fromTx_empty.1 h) hx)).trans ?_
  rw [filter_eq_single _ _ (txs_nodup fs)]
  unfold oneMessage
  by_cases h : fromTx fs t = []
  · rw [if_pos h, if_neg (fromTx_empty.1 h)]; rfl
  · rw [if_neg h, if_pos (Classical.not_not.1 (fun h' => h (fromTx_empty.2 h')))]
    simp only [List.filterMap_cons, List.filterMap_nil]
    split
    · next hm =>
      split
      · next d hd => simp [hd] at hm
      · rfl
    · next m hm =>
      split at hm
      · next d hd => injection hm with hm; rw [hm]
      · simp at hm

theorem chatter_txId (l : Str) : (chatter l).txId = none := rfl

theorem call_filter (p : Proto) (map : Dict (Option Nat) Nat) (lines : List Str) (ms : List Message)
    (h : p.call map lines = .ok ms) (t : Nat) :
    ms.filter (fun m => m.txId == some t) = oneMessage p map (framesOf p lines) (some t) := by
  obtain ⟨_, rfl⟩ := (call_ok_iff p map lines ms).1 h
  rw [List.filter_append, ecuMessages_filter]
  have : ((nonObdLines lines).map chatter).filter (fun m => m.txId == some t) = [] := by
    rw [List.filter_eq_nil_iff]
    intro m hm
    obtain ⟨l, _, rfl⟩ := List.mem_map.1 hm
    simp [chatter_txId]
  rw [this, List.append_nil]

theorem nonObd_sentBy (p : Proto) (lines : List Str) (t : Nat) :
    nonObdLines (lines.filter (sentBy p t)) = [] := by
  unfold nonObdLines
  rw [List.filter_eq_nil_iff]
  intro s hs
  have h := (List.mem_filter.1 hs).2
  unfold sentBy at h
  cases hl : lineFrame? p s with
  | none => rw [hl] at h; simp at h
  | some x => simp [lineFrame?_hex hl]

theorem txs_single (fs : List Frame) (t : Option Nat) (h : ∀ f ∈ fs, f.txId = t) (hne : fs ≠ []) :
    txs fs = [t] := by
  have hm : ∀ x, x ∈ txs fs ↔ x = t := by
    intro x
    rw [mem_txs]
    constructor
    · rintro ⟨f, hf, rfl⟩; exact h f hf
    · rintro rfl
      match fs, hne with
      | f :: fs, _ => exact ⟨f, List.mem_cons_self .., h f (List.mem_cons_self ..)⟩
  have hn := txs_nodup fs
  match hx : txs fs with
  | [] => rw [hx] at hm; exact absurd ((hm t).2 rfl) (by simp)
  | [a] => rw [hx] at hm; rw [(hm a).1 (List.mem_cons_self ..)]
  | a :: b :: l =>
    rw [hx] at hm hn
    have ha := (hm a).1 (List.mem_cons_self ..)
    have hb := (hm b).1 (List.mem_cons_of_mem _ (List.mem_cons_self ..))
    rw [ha, hb] at hn
    simp at hn

theorem fromTx_all (fs : List Frame) (t : Option Nat) (h : ∀ f ∈ fs, f.txId = t) : fromTx fs t = fs := by
  unfold fromTx
  rw [List.filter_eq_self]
  intro f hf; simp [h f hf]

theorem mem_fromTx {fs : List Frame} {t : Option Nat} {f : Frame} (h : f ∈ fromTx fs t) :
    f ∈ fs ∧ f.txId = t := by
  have := List.mem_filter.1 h
  exact ⟨this.1, by simpa using this.2⟩

/-- The parse of the lines of a single transmitter. -/
theorem call_single (p : Proto) (map : Dict (Option Nat) Nat) (lines : List Str) (t : Option Nat)
    (htx : ∀ f ∈ framesOf p lines, f.txId = t) (hn : nonObdLines lines = []) (r : Option Bytes)
    (hne : framesOf p lines ≠ [])
    (hr : p.parseMessage (framesOf p lines) = .ok r) :
    p.call map lines = .ok (match r with
      | some d => [ecuMessage map (framesOf p lines) t d]
      | none => []) := by
  rw [call_ok_iff, hn, txs_single _ t htx hne]
  simp only [ecuMessages, txs_single _ t htx hne, List.mem_singleton, forall_eq, fromTx_all _ _ htx, hr,
    List.filterMap_cons, List.filterMap_nil, List.map_nil, List.append_nil]
  refine ⟨⟨r, rfl⟩, ?_⟩
  cases r <;> rfl

theorem call_sent_ok (p : Proto) (hp : p ≠ .unknown) (map : Dict (Option Nat) Nat) (lines : List Str)
    (t : Nat) (h : ∃ r, some t ∈ txs (framesOf p lines) →
      p.parseMessage (fromTx (framesOf p lines) (some t)) = .ok r) :
    p.call map (lines.filter (sentBy p t)) = .ok (oneMessage p map (framesOf p lines) (some t)) := by
  rw [call_ok_iff, nonObd_sentBy, ← fromTx_framesOf p hp]
  obtain ⟨r, hr⟩ := h
  by_cases he : fromTx (framesOf p lines) (some t) = []
  · rw [he]
    refine ⟨by simp [txs, groupFrames, Dict.keys, sortBy], ?_⟩
    simp [oneMessage, he, ecuMessages, txs, groupFrames, Dict.keys, sortBy]
  · have htx : ∀ f ∈ fromTx (framesOf p lines) (some t), f.txId = some t := fun f hf => (mem_fromTx hf).2
    have hmem : some t ∈ txs (framesOf p lines) :=
      Classical.not_not.1 (fun h' => he (fromTx_empty.2 h'))
    have hr := hr hmem
    refine ⟨?_, ?_⟩
    · intro x hx
      rw [txs_single _ _ htx he, List.mem_singleton] at hx
      subst hx
      rw [fromTx_idem]
      exact ⟨r, hr⟩
    · simp only [List.map_nil, List.append_nil, ecuMessages, txs_single _ _ htx he, List.filterMap_cons,
        List.filterMap_nil, fromTx_idem, oneMessage, he, if_false, hr]
      cases r with
      | none => rfl
      | some d => simp [ecuMessage, fromTx_idem]

/-- A parse that raises does so because of one transmitter. -/
theorem parseMessages_error (p : Proto) (map : Dict (Option Nat) Nat) (fs : List Frame)
    (ts : List (Option Nat)) (e : Exc) (h : parseMessages p map (groupFrames fs) ts = .error e) :
    ∃ t ∈ ts, p.parseMessage (fromTx fs t) = .error e := by
  induction ts with
  | nil => simp [parseMessages] at h
  | cons t ts ih =>
    rw [parseMessages, fromTx_getD fs t] at h
    simp only [bind, Except.bind, pure, Except.pure] at h
    cases hd : p.parseMessage (fromTx fs t) with
    | error e' =>
      rw [hd] at h; simp only [Except.error.injEq] at h; subst h
      exact ⟨t, List.mem_cons_self .., hd⟩
    | ok r =>
      rw [hd] at h
      simp only at h
      cases hm : parseMessages p map (groupFrames fs) ts with
      | error e' =>
        rw [hm] at h; simp only [Except.error.injEq] at h; subst h
        obtain ⟨t', ht', h'⟩ := ih hm
        exact ⟨t', List.mem_cons_of_mem _ ht', h'⟩
      | ok ms =>
        rw [hm] at h
        cases r <;> simp at h

theorem call_error (p : Proto) (map : Dict (Option Nat) Nat) (lines : List Str) (e : Exc)
    (h : p.call map lines = .error e) :
    ∃ t ∈ txs (framesOf p lines), p.parseMessage (fromTx (framesOf p lines) t) = .error e := by
  unfold Proto.call at h
  rw [parseFrames_obd] at h
  simp only [bind, Except.bind, pure, Except.pure] at h
  cases hm : parseMessages p map (groupFrames (framesOf p lines))
      (sortBy txKey (groupFrames (framesOf p lines)).keys) with
  | error e' => rw [hm] at h; simp only [Except.error.injEq] at h; subst h; exact parseMessages_error _ _ _ _ _ hm
  | ok ms => rw [hm] at h; simp at h

end Model
