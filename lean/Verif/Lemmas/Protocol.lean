import Verif.Lemmas.Basic
import Verif.Lemmas.Utils
import Verif.Model.Protocol
/-! Helper lemmas about `Model/Protocol.lean`: a normal form for `Protocol.__call__`. -/
namespace Model
open Py

/-! ### hex text -/

theorem unhexlify_ok : ∀ (s : Str), isHex s = true → s.length % 2 = 0 → ∃ b, unhexlify s = .ok b
  | [], _, _ => ⟨[], rfl⟩
  | [_], _, h => by simp at h
  | c1 :: c2 :: rest, hh, hl => by
    simp only [isHex, List.all_cons, Bool.and_eq_true, isHexDigit] at hh
    obtain ⟨h1, h2, h3⟩ := hh
    obtain ⟨a, ha⟩ := Option.isSome_iff_exists.1 h1
    obtain ⟨b, hb⟩ := Option.isSome_iff_exists.1 h2
    obtain ⟨bs, hbs⟩ := unhexlify_ok rest h3 (by simp only [List.length_cons] at hl; omega)
    exact ⟨_, by simp only [unhexlify, ha, hb, hbs]; rfl⟩

theorem unhexlify_length : ∀ (s : Str) (b : Bytes), unhexlify s = .ok b → s.length = 2 * b.length
  | [], b, h => by simp only [unhexlify, Except.ok.injEq] at h; subst h; rfl
  | [_], _, h => by simp [unhexlify] at h
  | c1 :: c2 :: rest, b, h => by
    simp only [unhexlify] at h
    split at h
    · split at h
      · next bs hbs =>
        injection h with h
        subst h
        have := unhexlify_length rest bs hbs
        simp only [List.length_cons]; omega
      · simp at h
    · simp at h

/-! ### frames -/

theorem idx_ok {α} {l : List α} {i : Nat} (h : i < l.length) : idx l i = .ok l[i] := by
  simp [idx, h]

theorem idx_error {α} {l : List α} {i : Nat} (h : l.length ≤ i) : idx l i = .error .indexError := by
  simp [idx, h]

theorem canHeader_ok (n : Nat) (rb : Bytes) (f : Frame) (h : 6 ≤ rb.length) :
    ∃ f', canHeader n rb f = .ok f' ∧ f'.raw = f.raw := by
  unfold canHeader
  rw [idx_ok (show 0 < rb.length by omega), idx_ok (show 1 < rb.length by omega),
    idx_ok (show 2 < rb.length by omega), idx_ok (show 3 < rb.length by omega)]
  simp only [bind, Except.bind, pure, Except.pure]
  split
  · split
    · exact ⟨_, rfl, rfl⟩
    · split
      · exact ⟨_, rfl, rfl⟩
      · exact ⟨_, rfl, rfl⟩
  · exact ⟨_, rfl, rfl⟩

theorem canPci_ok (f : Frame) (h : 2 ≤ f.data.length) : ∃ r, canPci f = .ok r := by
  unfold canPci
  have h0 := idx_ok (show 0 < f.data.length by omega)
  have h1 := idx_ok (show 1 < f.data.length by omega)
  simp only [bind, Except.bind, pure, Except.pure, h0, h1]
  split
  · exact ⟨_, rfl⟩
  · split
    · split <;> exact ⟨_, rfl⟩
    · split
      · split <;> exact ⟨_, rfl⟩
      · exact ⟨_, rfl⟩

theorem canParseFrame_ok (n : Nat) (f : Frame) (h : isHex f.raw = true) :
    ∃ r, canParseFrame n f = .ok r := by
  unfold canParseFrame
  simp only [bind, Except.bind, pure, Except.pure]
  generalize hr : (if n = 11 then "00000".toList ++ f.raw else f.raw) = raw
  have hx : isHex raw = true := by
    rw [← hr]; split
    · simp only [isHex, List.all_append] at *; simp [h]; decide
    · exact h
  split
  · exact ⟨_, rfl⟩
  · next hl =>
    obtain ⟨b, hb⟩ := unhexlify_ok raw hx (by omega)
    rw [hb]
    simp only
    split
    · exact ⟨_, rfl⟩
    · split
      · exact ⟨_, rfl⟩
      · next h1 _ =>
        obtain ⟨f', hf', _⟩ := canHeader_ok n b f (by omega)
        rw [hf']
        simp only
        exact canPci_ok _ (by simp; omega)

theorem legacyParseFrame_ok (f : Frame) (h : isHex f.raw = true) :
    ∃ r, legacyParseFrame f = .ok r := by
  unfold legacyParseFrame
  simp only [bind, Except.bind, pure, Except.pure]
  split
  · exact ⟨_, rfl⟩
  · next hl =>
    obtain ⟨b, hb⟩ := unhexlify_ok f.raw h (by omega)
    rw [hb]
    simp only
    split
    · exact ⟨_, rfl⟩
    · split
      · exact ⟨_, rfl⟩
      · rw [idx_ok (show 0 < b.length by omega), idx_ok (show 1 < b.length by omega),
          idx_ok (show 2 < b.length by omega)]
        exact ⟨_, rfl⟩

theorem parseFrame_ok (p : Proto) (f : Frame) (h : isHex f.raw = true) :
    ∃ r, p.parseFrame f = .ok r := by
  unfold Proto.parseFrame
  split
  · exact ⟨_, rfl⟩
  · exact legacyParseFrame_ok f h
  · exact canParseFrame_ok _ f h

/-- The frame of a (space-free) hex line, if it is one. -/
def frameOf (p : Proto) (l : Str) : Option Frame :=
  match p.parseFrame { raw := l } with
  | .ok r => r
  | .error _ => none

theorem parseFrame_eq (p : Proto) (l : Str) (h : isHex l = true) :
    p.parseFrame { raw := l } = .ok (frameOf p l) := by
  obtain ⟨r, hr⟩ := parseFrame_ok p { raw := l } h
  simp [frameOf, hr]

theorem parseFrames_eq (p : Proto) (ls : List Str) (h : ∀ l ∈ ls, isHex l = true) :
    parseFrames p ls = .ok (ls.filterMap (frameOf p)) := by
  induction ls with
  | nil => rfl
  | cons l ls ih =>
    rw [parseFrames, parseFrame_eq p l (h l (List.mem_cons_self ..)),
      ih (fun x hx => h x (List.mem_cons_of_mem _ hx))]
    simp only [bind, Except.bind, pure, Except.pure]
    cases hf : frameOf p l <;> simp [hf]

/-- All frames received, in order of arrival. -/
def framesOf (p : Proto) (lines : List Str) : List Frame := (obdLines lines).filterMap (frameOf p)

theorem obdLines_hex (lines : List Str) : ∀ l ∈ obdLines lines, isHex l = true := by
  intro l hl
  exact (List.mem_filter.1 hl).2

theorem parseFrames_obd (p : Proto) (lines : List Str) :
    parseFrames p (obdLines lines) = .ok (framesOf p lines) :=
  parseFrames_eq p _ (obdLines_hex lines)

/-! ### grouping -/

/-- The frames of one transmitter. -/
def fromTx (fs : List Frame) (t : Option Nat) : List Frame := fs.filter (fun f => f.txId == t)

theorem groupFrames_append (fs : List Frame) (f : Frame) :
    groupFrames (fs ++ [f]) =
      match (groupFrames fs).get? f.txId with
      | none => (groupFrames fs).set f.txId [f]
      | some g => (groupFrames fs).set f.txId (g ++ [f]) := by
  unfold groupFrames
  rw [List.foldl_append]; rfl

theorem fromTx_append (fs : List Frame) (f : Frame) (t : Option Nat) :
    fromTx (fs ++ [f]) t = fromTx fs t ++ (if f.txId = t then [f] else []) := by
  unfold fromTx
  rw [List.filter_append]
  by_cases h : f.txId = t <;> simp [h]

theorem rev_ind {α} {P : List α → Prop} (h0 : P []) (h1 : ∀ l a, P l → P (l ++ [a])) (l : List α) : P l := by
  have : ∀ l : List α, P l.reverse := by
    intro l
    induction l with
    | nil => exact h0
    | cons a l ih => rw [List.reverse_cons]; exact h1 _ _ ih
  have h := this l.reverse
  rwa [List.reverse_reverse] at h

theorem groupFrames_get (fs : List Frame) (t : Option Nat) :
    (groupFrames fs).get? t = if fromTx fs t = [] then none else some (fromTx fs t) := by
  induction fs using rev_ind with
  | h0 => rfl
  | h1 fs f ih =>
    rw [groupFrames_append, fromTx_append]
    by_cases h : f.txId = t
    · subst h
      rw [ih]
      by_cases h0 : fromTx fs f.txId = []
      · simp [h0, Dict.get?_set]
      · simp [h0, Dict.get?_set]
    · rw [show (if f.txId = t then [f] else []) = [] by simp [h], List.append_nil, ← ih]
      split <;> simp [Dict.get?_set, h]

theorem groupFrames_nodup (fs : List Frame) : (groupFrames fs).keys.Nodup := by
  induction fs using rev_ind with
  | h0 => simp [groupFrames, Dict.keys]
  | h1 fs f ih =>
    rw [groupFrames_append]
    split <;> exact Dict.keys_set_nodup _ _ _ ih

theorem mem_groupFrames (fs : List Frame) (t : Option Nat) :
    t ∈ (groupFrames fs).keys ↔ ∃ f ∈ fs, f.txId = t := by
  rw [← Dict.get?_isSome_iff, groupFrames_get]
  by_cases h : fromTx fs t = []
  · rw [if_pos h]
    simp only [Option.isSome_none, Bool.false_eq_true, false_iff, not_exists, not_and]
    intro f hf ht
    have : f ∈ fromTx fs t := List.mem_filter.2 ⟨hf, by simp [ht]⟩
    rw [h] at this; simp at this
  · rw [if_neg h]
    simp only [Option.isSome_some, true_iff]
    cases hg : fromTx fs t with
    | nil => exact absurd hg h
    | cons f g =>
      have : f ∈ fromTx fs t := by rw [hg]; exact List.mem_cons_self ..
      obtain ⟨h1, h2⟩ := List.mem_filter.1 this
      exact ⟨f, h1, by simpa using h2⟩

/-- The transmitters seen, in the order in which their messages are produced. -/
def txs (fs : List Frame) : List (Option Nat) := sortBy txKey (groupFrames fs).keys

theorem mem_txs (fs : List Frame) (t : Option Nat) : t ∈ txs fs ↔ ∃ f ∈ fs, f.txId = t := by
  rw [txs, mem_sortBy, mem_groupFrames]

theorem txKey_inj {a b : Option Nat} (h : txKey a = txKey b) : a = b := by
  cases a <;> cases b <;> simp [txKey] at h ⊢; exact h

theorem txs_sorted (fs : List Frame) : (txs fs).Pairwise (fun a b => txKey a < txKey b) := by
  have h1 := sortBy_sorted txKey (groupFrames fs).keys
  have h2 : (txs fs).Nodup := (sortBy_perm txKey _).nodup_iff.2 (groupFrames_nodup fs)
  unfold List.Nodup at h2
  refine (h1.and h2).imp ?_
  rintro a b ⟨h, hne⟩
  have : txKey a ≠ txKey b := fun h' => hne (txKey_inj h')
  omega

/-- The message produced for one transmitter. -/
def ecuMessage (map : Dict (Option Nat) Nat) (fs : List Frame) (t : Option Nat) (data : Bytes) : Message :=
  { frames := fromTx fs t, ecu := (map.get? t).getD ECU.unknown, data := data }

theorem fromTx_getD (fs : List Frame) (t : Option Nat) :
    ((groupFrames fs).get? t).getD [] = fromTx fs t := by
  rw [groupFrames_get]
  split
  · next h0 => rw [h0]; rfl
  · rfl

theorem parseMessages_ok_iff (p : Proto) (map : Dict (Option Nat) Nat) (fs : List Frame)
    (ts : List (Option Nat)) (hts : ∀ t ∈ ts, t ∈ txs fs) (ms : List Message) :
    parseMessages p map (groupFrames fs) ts = .ok ms ↔
      (∀ t ∈ ts, ∃ r, p.parseMessage (fromTx fs t) = .ok r) ∧
      ms = ts.filterMap (fun t => match p.parseMessage (fromTx fs t) with
        | .ok (some d) => some (ecuMessage map fs t d)
        | _ => none) := by
  induction ts generalizing ms with
  | nil => simp [parseMessages, eq_comm]
  | cons t ts ih =>
    rw [parseMessages, fromTx_getD fs t]
    have ih' := ih (fun x hx => hts x (List.mem_cons_of_mem _ hx))
    simp only [bind, Except.bind, pure, Except.pure]
    cases hd : p.parseMessage (fromTx fs t) with
    | error e =>
      simp only [reduceCtorEq, false_iff, not_and]
      intro h
      have := h t (List.mem_cons_self ..)
      rw [hd] at this
      simp at this
    | ok r =>
      simp only
      cases hm : parseMessages p map (groupFrames fs) ts with
      | error e =>
        simp only [reduceCtorEq, false_iff, not_and]
        intro h
        have h2 : parseMessages p map (groupFrames fs) ts = .ok _ :=
          (ih' _).2 ⟨fun x hx => h x (List.mem_cons_of_mem _ hx), rfl⟩
        rw [hm] at h2; simp at h2
      | ok ms' =>
        obtain ⟨h1, h2⟩ := (ih' ms').1 hm
        rw [List.filterMap_cons, hd]
        have hall : (∀ x ∈ t :: ts, ∃ r, p.parseMessage (fromTx fs x) = .ok r) := by
          intro x hx
          rcases List.mem_cons.1 hx with rfl | hx
          · exact ⟨r, hd⟩
          · exact h1 x hx
        cases r with
        | none =>
          simp only [Except.ok.injEq]
          constructor
          · intro h; exact ⟨hall, by rw [← h, h2]⟩
          · rintro ⟨_, h⟩; rw [h, h2]
        | some d =>
          simp only [Except.ok.injEq]
          constructor
          · intro h; exact ⟨hall, by rw [← h, h2]; rfl⟩
          · rintro ⟨_, h⟩; rw [h, h2]; rfl

/-- The chatter message of a non-hex line. -/
def chatter (l : Str) : Message := { frames := [{ raw := l }] }

/-- The messages of the ECUs. -/
def ecuMessages (p : Proto) (map : Dict (Option Nat) Nat) (fs : List Frame) : List Message :=
  (txs fs).filterMap (fun t => match p.parseMessage (fromTx fs t) with
    | .ok (some d) => some (ecuMessage map fs t d)
    | _ => none)

/-- Normal form of `Protocol.__call__`. -/
theorem call_ok_iff (p : Proto) (map : Dict (Option Nat) Nat) (lines : List Str) (ms : List Message) :
    p.call map lines = .ok ms ↔
      (∀ t ∈ txs (framesOf p lines), ∃ r, p.parseMessage (fromTx (framesOf p lines) t) = .ok r) ∧
      ms = ecuMessages p map (framesOf p lines) ++ (nonObdLines lines).map chatter := by
  unfold Proto.call
  rw [parseFrames_obd]
  simp only [bind, Except.bind, pure, Except.pure]
  have key := parseMessages_ok_iff p map (framesOf p lines) (txs (framesOf p lines)) (fun t h => h)
  unfold txs at key
  cases hm : parseMessages p map (groupFrames (framesOf p lines))
      (sortBy txKey (groupFrames (framesOf p lines)).keys) with
  | error e =>
    simp only [reduceCtorEq, false_iff, not_and]
    intro h
    have := (key _).2 ⟨h, rfl⟩
    rw [hm] at this; simp at this
  | ok ms' =>
    obtain ⟨h1, h2⟩ := (key ms').1 hm
    simp only [Except.ok.injEq]
    constructor
    · intro h; exact ⟨h1, by rw [← h, h2]; rfl⟩
    · rintro ⟨_, h⟩; rw [h, h2]; rfl

end Model
