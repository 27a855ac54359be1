import Verif.Props.Can
import Verif.Spec.Legacy
/-!
# C16-C19: replies on the legacy protocols

`framesBy p t lines` are the data bytes of the frames that ECU `t` transmitted, in arrival
order, among arbitrary other lines (`Spec.lineFrame?`).
-/
namespace Props
open Py Model Spec

theorem legacy_family {p : Proto} (h : IsLegacy p) : p.family = .legacy := by
  rcases h with rfl | rfl | rfl | rfl | rfl <;> rfl

theorem legacy_ne {p : Proto} (h : IsLegacy p) : p ≠ .unknown := by
  rintro rfl; rcases h with h | h | h | h | h <;> simp at h

theorem hexBytes?_nibbles (bs : Bytes) : hexBytes? ((nibbles bs).map some) = some bs := by
  induction bs with
  | nil => rfl
  | cons b bs ih =>
    rw [nibbles_cons]
    simp only [List.map_cons, hexBytes?, ih, Option.map_some]
    have : 16 * (b.toNat / 16) + b.toNat % 16 = b.toNat := Nat.div_add_mod _ _
    rw [this]
    simp

/-- A legacy line is read as its ECU and data bytes. -/
theorem lineFrame?_legacy {p : Proto} (hp : IsLegacy p) (a b ecu : UInt8) (data : Bytes) (c : UInt8) (s : Str)
    (h2 : 2 ≤ data.length) (h7 : data.length ≤ 7) (hs : LegacyLine a b ecu data c s) :
    lineFrame? p s = some (ecu.toNat, data) := by
  have key : (match hexBytes? ((s.filter (fun c => c != ' ')).map digit?) with
      | some (_ :: _ :: t :: rest) =>
        if 3 ≤ rest.length ∧ rest.length ≤ 8 then some (t.toNat, rest.dropLast) else none
      | _ => none : Option (Nat × Bytes)) = some (ecu.toNat, data) := by
    unfold LegacyLine Spells at hs
    rw [hs, hexBytes?_nibbles]
    simp only [List.cons_append]
    rw [if_pos (by simp; omega)]
    simp
  rcases hp with rfl | rfl | rfl | rfl | rfl <;> exact key

/-- What becomes of the frames of ECU `t` (given that the parse does not raise). -/
theorem legacy_message {p : Proto} (hp : IsLegacy p) (map : Dict (Option Nat) Nat) (lines : List Str)
    (ms : List Message) (h : p.call map lines = .ok ms) (t : Nat) (hne : framesBy p t lines ≠ []) :
    ∃ r, legacyOf (framesBy p t lines) = .ok r ∧
      (r = none → ms.filter (fun m => m.txId == some t) = []) ∧
      (∀ d, r = some d → ∃ m, ms.filter (fun m => m.txId == some t) = [m] ∧ m.data = d) := by
  have hnu := legacy_ne hp
  have hfam := legacy_family hp
  have hne' : fromTx (framesOf p lines) (some t) ≠ [] := by
    intro h0; apply hne; rw [framesBy_eq p hnu, h0]; rfl
  obtain ⟨hall, _⟩ := (call_ok_iff _ _ _ _).1 h
  obtain ⟨r, hr⟩ := hall (some t) (Classical.not_not.1 (fun h' => hne' (fromTx_empty.2 h')))
  rw [call_filter p map lines ms h t]
  unfold oneMessage
  rw [if_neg hne', hr]
  rw [parseMessage_legacy hfam, ← framesBy_eq p hnu] at hr
  refine ⟨r, hr, ?_, ?_⟩
  · rintro rfl; rfl
  · rintro d rfl; exact ⟨_, rfl, rfl⟩

theorem legacy_no_raise {p : Proto} (hp : IsLegacy p) (map : Dict (Option Nat) Nat) (lines : List Str)
    (h : ∀ t, ∀ d ∈ framesBy p t lines, 3 ≤ d.length ∨ (framesBy p t lines).length ≤ 1 ∨ d.head? = some 0x43) :
    ∃ ms, p.call map lines = .ok ms := by
  cases hc : p.call map lines with
  | ok ms => exact ⟨ms, rfl⟩
  | error e =>
    obtain ⟨t, mode, h1, h2, h3, d, hd, hdl⟩ :=
      (C14_legacy_exact p (legacy_family hp) map lines).1.1 ⟨e, hc⟩
    rcases h t d hd with h | h | h
    · omega
    · omega
    · rw [h3 d hd] at h; injection h with h; exact absurd h h2

/-! ## C16: single lines -/

/-- C16: one line of ECU `t` with any data bytes of another mode than 03 gives one message
with exactly these bytes, among any other lines. -/
theorem C16_single_line (p : Proto) (hp : IsLegacy p) (map : Dict (Option Nat) Nat) (lines : List Str)
    (t : Nat) (data : Bytes) (hown : framesBy p t lines = [data]) (h43 : data.head? ≠ some 0x43)
    (ms : List Message) (h : p.call map lines = .ok ms) :
    ∃ m, ms.filter (fun m => m.txId == some t) = [m] ∧ m.data = data := by
  obtain ⟨r, h1, _, h3⟩ := legacy_message hp map lines ms h t (by rw [hown]; simp)
  rw [hown] at h1
  simp [legacyOf, h43] at h1
  exact h3 data h1.symm

/-- C16: the text of such a line, alone, parses without exception. -/
theorem C16_text (p : Proto) (hp : IsLegacy p) (map : Dict (Option Nat) Nat)
    (a b ecu c : UInt8) (data : Bytes) (h2 : 2 ≤ data.length) (h7 : data.length ≤ 7)
    (s : Str) (hs : LegacyLine a b ecu data c s) :
    framesBy p ecu.toNat [s] = [data] ∧
    (data.head? ≠ some 0x43 → ∃ m, p.call map [s] = .ok [m] ∧ m.txId = some ecu.toNat ∧ m.data = data) ∧
    (data.head? = some 0x43 → ∃ m, p.call map [s] = .ok [m] ∧ m.txId = some ecu.toNat ∧
      m.data = [0x43, 0x00] ++ data.drop 1) := by
  have hl := lineFrame?_legacy hp a b ecu data c s h2 h7 hs
  have hown : framesBy p ecu.toNat [s] = [data] := by simp [framesBy, hl]
  have hnu := legacy_ne hp
  obtain ⟨ms, hms⟩ := legacy_no_raise hp map [s] (by
    intro t d _
    refine .inr (.inl ?_)
    simp only [framesBy, List.length_map]
    refine Nat.le_trans (List.length_filter_le _ _) ?_
    exact List.length_filterMap_le _ _)
  have hfilter : [s].filter (sentBy p ecu.toNat) = [s] := by simp [sentBy, hl]
  have hself := C11_own_lines p hnu map [s] ms hms ecu.toNat
  rw [hfilter, hms] at hself
  injection hself with hself
  obtain ⟨r, h1, _, h3⟩ := legacy_message hp map [s] ms hms ecu.toNat (by rw [hown]; simp)
  rw [hown] at h1
  have fin : ∀ d, r = some d → ∃ m, p.call map [s] = .ok [m] ∧ m.txId = some ecu.toNat ∧ m.data = d := by
    intro d hd
    obtain ⟨m, hm, hmd⟩ := h3 d hd
    rw [← hself] at hm
    subst hm
    refine ⟨m, hms, ?_, hmd⟩
    have : m ∈ [m].filter (fun m => m.txId == some ecu.toNat) := by
      rw [← hself]; exact List.mem_cons_self ..
    simpa using (List.mem_filter.1 this).2
  refine ⟨hown, ?_, ?_⟩
  · intro h43
    simp [legacyOf, h43] at h1
    exact fin data h1.symm
  · intro h43
    simp [legacyOf, h43] at h1
    have := fin _ h1.symm
    simpa using this

example : LegacyLine 0x48 0x6B 0x10 [0x41, 0x00, 0xBE, 0x3E, 0xB8, 0x11] 0xFA
    "48 6B 10 41 00 BE 3E B8 11 FA".toList := by unfold LegacyLine Spells; decide +kernel

/-! ## C17: multi-line replies in any order -/

theorem ord_numbered (mode pid : UInt8) (part : Nat → Bytes) (i : Nat) (h : i < 256) :
    ord (numberedLine mode pid part i) = i := by
  show (UInt8.ofNat i).toNat = i
  exact UInt8.toNat_ofNat_of_lt' (show i < 256 from h)

theorem sorted_numbered (mode pid : UInt8) (part : Nat → Bytes) (n : Nat) (hn : n ≤ 255) (ds : List Bytes)
    (hperm : ds.Perm ((List.range' 1 n).map (numberedLine mode pid part))) :
    sortBy ord ds = (List.range' 1 n).map (numberedLine mode pid part) := by
  apply sortBy_eq_of_perm ord hperm
  rw [List.pairwise_map]
  refine List.Pairwise.imp_of_mem ?_ (List.pairwise_lt_range' (s := 1) (n := n))
  intro a b ha hb hab
  have h1 := List.mem_range'_1.1 ha
  have h2 := List.mem_range'_1.1 hb
  rw [ord_numbered _ _ _ _ (by omega), ord_numbered _ _ _ _ (by omega)]
  exact hab

theorem map_ord_numbered (mode pid : UInt8) (part : Nat → Bytes) (n : Nat) (hn : n ≤ 255) :
    ((List.range' 1 n).map (numberedLine mode pid part)).map ord = List.range' 1 n := by
  rw [List.map_map]
  have : ∀ i ∈ List.range' 1 n, (ord ∘ numberedLine mode pid part) i = id i := by
    intro i hi
    have := List.mem_range'_1.1 hi
    exact ord_numbered _ _ _ _ (by omega)
  rw [List.map_congr_left this, List.map_id]

theorem flatMap_tail (mode pid : UInt8) (part : Nat → Bytes) (l : List Nat) :
    (l.map (numberedLine mode pid part)).flatMap (List.drop 3) = l.flatMap part := by
  induction l with
  | nil => rfl
  | cons i l ih => rw [List.map_cons, List.flatMap_cons, List.flatMap_cons, ih]; rfl

/-- C17: if the frames of an ECU are lines 1, ..., n (2 ≤ n ≤ 255) of a reply, in any
order, the message consists of mode, PID and the payloads in numeric order. -/
theorem C17_any_order (p : Proto) (hp : IsLegacy p) (map : Dict (Option Nat) Nat) (lines : List Str)
    (t : Nat) (mode pid : UInt8) (hmode : mode ≠ 0x43) (part : Nat → Bytes) (n : Nat) (h2 : 2 ≤ n)
    (hn : n ≤ 255)
    (hown : (framesBy p t lines).Perm ((List.range' 1 n).map (numberedLine mode pid part)))
    (ms : List Message) (h : p.call map lines = .ok ms) :
    ∃ m, ms.filter (fun m => m.txId == some t) = [m] ∧
      m.data = [mode, pid] ++ (List.range' 1 n).flatMap part := by
  have hlen : (framesBy p t lines).length = n := by rw [hown.length_eq]; simp
  obtain ⟨r, h1, _, h3⟩ := legacy_message hp map lines ms h t (by
    intro h0; rw [h0] at hlen; simp at hlen; omega)
  have hmem : ∀ d ∈ framesBy p t lines, d.head? = some mode ∧ 3 ≤ d.length := by
    intro d hd
    rw [hown.mem_iff] at hd
    obtain ⟨i, _, rfl⟩ := List.mem_map.1 hd
    simp [numberedLine]
  have hsort := sorted_numbered mode pid part n hn _ hown
  cases hf : framesBy p t lines with
  | nil => rw [hf] at hlen; simp at hlen; omega
  | cons d ds =>
    rw [hf] at h1 hmem hsort hlen
    have hd := hmem d (List.mem_cons_self ..)
    rw [legacyOf, if_neg, if_neg, if_neg, if_neg, hsort, if_pos] at h1
    · obtain ⟨k, rfl⟩ : ∃ k, n = k + 1 := ⟨n - 1, by omega⟩
      rw [List.range'_succ, List.map_cons] at h1
      simp only [Except.ok.injEq] at h1
      obtain ⟨m, hm, hmd⟩ := h3 _ h1.symm
      refine ⟨m, hm, ?_⟩
      rw [hmd, flatMap_tail, List.range'_succ, List.flatMap_cons]
      simp [numberedLine, List.eraseIdx]
    · rw [map_ord_numbered _ _ _ _ hn, hlen]
    · rintro ⟨x, hx, hl⟩
      have := (hmem x hx).2; omega
    · rintro rfl; simp at hlen; omega
    · rw [hd.1]; intro h0; injection h0 with h0; exact hmode h0
    · rintro ⟨x, hx, hne⟩
      rw [hd.1, (hmem x (List.mem_cons_of_mem _ hx)).1] at hne
      exact hne rfl

/-- C17: the parse of such lines alone does not raise. -/
theorem C17_no_raise (p : Proto) (hp : IsLegacy p) (map : Dict (Option Nat) Nat) (lines : List Str)
    (h : ∀ s ∈ lines, ∀ t d, lineFrame? p s = some (t, d) → 3 ≤ d.length) :
    ∃ ms, p.call map lines = .ok ms := by
  apply legacy_no_raise hp
  intro t d hd
  left
  unfold framesBy at hd
  obtain ⟨x, hx, rfl⟩ := List.mem_map.1 hd
  obtain ⟨s, hs, hl⟩ := List.mem_filterMap.1 (List.mem_filter.1 hx).1
  exact h s hs x.1 x.2 hl

/-- A VIN reply on J1850, shuffled. -/
def legacyVin : List Str := ["48 6B 10 49 02 03 47 43 4A 45 00".toList,
  "48 6B 10 49 02 01 00 00 00 31 00".toList, "48 6B 10 49 02 02 44 34 47 50 00".toList]

example : ∃ part : Nat → Bytes, (framesBy .j1850vpw 0x10 legacyVin).Perm
    ((List.range' 1 3).map (numberedLine 0x49 0x02 part)) := by
  refine ⟨fun i => if i = 1 then [0, 0, 0, 0x31] else if i = 2 then [0x44, 0x34, 0x47, 0x50]
    else [0x47, 0x43, 0x4A, 0x45], ?_⟩
  decide +kernel

/-! ## C18: incomplete or mixed replies -/

/-- C18 (what holds): lines of different modes from one ECU give no message. -/
theorem C18_mixed_modes_partial (p : Proto) (hp : IsLegacy p) (map : Dict (Option Nat) Nat) (lines : List Str)
    (t : Nat) (x y : Bytes) (hx : x ∈ framesBy p t lines) (hy : y ∈ framesBy p t lines)
    (hne : x.head? ≠ y.head?) (ms : List Message) (h : p.call map lines = .ok ms) :
    ms.filter (fun m => m.txId == some t) = [] := by
  obtain ⟨r, h1, h2, _⟩ := legacy_message hp map lines ms h t (List.ne_nil_of_mem hx)
  cases hf : framesBy p t lines with
  | nil => rw [hf] at hx; simp at hx
  | cons d ds =>
    rw [hf] at h1 hx hy
    rw [legacyOf, if_pos] at h1
    · injection h1 with h1; exact h2 h1.symm
    · rcases List.mem_cons.1 hx with rfl | hx
      · rcases List.mem_cons.1 hy with rfl | hy
        · exact absurd rfl hne
        · exact ⟨y, hy, fun h => hne h.symm⟩
      · by_cases h0 : x.head? = d.head?
        · rcases List.mem_cons.1 hy with rfl | hy
          · exact absurd h0 hne
          · exact ⟨y, hy, fun h' => hne (h0.trans h'.symm)⟩
        · exact ⟨x, hx, h0⟩

/-- A reply to mode 09 and one to mode 01 of the same ECU. -/
example : ∀ ms, Proto.j1850vpw.call [] ["48 6B 10 49 02 01 00 00 00 31 00".toList, "48 6B 10 41 02 02 44 34 47 50 00".toList] = .ok ms →
    ms.filter (fun m => m.txId == some 0x10) = [] :=
  C18_mixed_modes_partial .j1850vpw (Or.inr (Or.inl rfl)) [] _ 0x10 [0x49, 2, 1, 0, 0, 0, 0x31] [0x41, 2, 2, 0x44, 0x34, 0x47, 0x50]
    (by decide +kernel) (by decide +kernel) (by decide)

/-- C18 (what holds): two or more lines of one ECU, not mode 03, whose order bytes are
not exactly 1, ..., n give no message.  Missing: a reply whose last lines are lost is still
numbered 1, ..., n, see `C18_refuted`. -/
theorem C18_bad_order_bytes_partial (p : Proto) (hp : IsLegacy p) (map : Dict (Option Nat) Nat) (lines : List Str)
    (t : Nat) (hlen : 2 ≤ (framesBy p t lines).length)
    (h43 : ∀ d ∈ framesBy p t lines, d.head? ≠ some 0x43)
    (hbad : ¬ ((framesBy p t lines).map (fun d => (d.getD 2 0).toNat)).Perm
      (List.range' 1 (framesBy p t lines).length))
    (ms : List Message) (h : p.call map lines = .ok ms) :
    ms.filter (fun m => m.txId == some t) = [] := by
  obtain ⟨r, h1, h2, h3⟩ := legacy_message hp map lines ms h t (by intro h0; rw [h0] at hlen; simp at hlen)
  cases hf : framesBy p t lines with
  | nil => rw [hf] at hlen; simp at hlen
  | cons d ds =>
    rw [hf] at h1 h43 hbad hlen
    rw [legacyOf] at h1
    split at h1
    · injection h1 with h1; exact h2 h1.symm
    · rw [if_neg (h43 d (List.mem_cons_self ..)), if_neg (by rintro rfl; simp at hlen)] at h1
      split at h1
      · simp at h1
      · rw [if_neg] at h1
        · injection h1 with h1; exact h2 h1.symm
        · intro h0
          apply hbad
          rw [← h0]
          exact ((sortBy_perm ord (d :: ds)).map ord).symm

/-- Lines 1 and 3 without line 2. -/
example : ∀ ms, Proto.j1850vpw.call [] ["48 6B 10 49 02 01 00 00 00 31 00".toList, "48 6B 10 49 02 03 44 34 47 50 00".toList] = .ok ms →
    ms.filter (fun m => m.txId == some 0x10) = [] :=
  C18_bad_order_bytes_partial .j1850vpw (Or.inr (Or.inl rfl)) [] _ 0x10 (by decide +kernel) (by decide +kernel) (by decide +kernel)

/-- C18 (what holds), exactly: two or more lines of one ECU, not mode 03, give a message if and only if they are of one mode and
their order bytes are 1, ..., n in some order; the message is the line number 1 without its order byte, and then what follows
the order byte in the other lines, in numeric order.  Missing: nothing else is looked at, so lost last lines go
unnoticed. -/
theorem C18_exact_partial (p : Proto) (hp : IsLegacy p) (map : Dict (Option Nat) Nat) (lines : List Str)
    (t : Nat) (hlen : 2 ≤ (framesBy p t lines).length)
    (h43 : ∀ d ∈ framesBy p t lines, d.head? ≠ some 0x43) (ms : List Message) (h : p.call map lines = .ok ms) :
    (ms.filter (fun m => m.txId == some t) ≠ [] ↔
      (∀ x ∈ framesBy p t lines, ∀ y ∈ framesBy p t lines, x.head? = y.head?) ∧
      ((framesBy p t lines).map (fun d => (d.getD 2 0).toNat)).Perm (List.range' 1 (framesBy p t lines).length)) ∧
    ∀ m ∈ ms, m.txId = some t → ∃ first rest, (framesBy p t lines).Perm (first :: rest) ∧
      (first :: rest).map (fun d => (d.getD 2 0).toNat) = List.range' 1 (framesBy p t lines).length ∧
      m.data = first.take 2 ++ first.drop 3 ++ rest.flatMap (List.drop 3) := by
  obtain ⟨r, h1, h2, h3⟩ := legacy_message hp map lines ms h t (by intro h0; rw [h0] at hlen; simp at hlen)
  cases hf : framesBy p t lines with
  | nil => rw [hf] at hlen; simp at hlen
  | cons d ds =>
    rw [hf] at h1 h43 hlen
    have hempty : r = none → (ms.filter (fun m => m.txId == some t) ≠ [] ↔ False) ∧
        ∀ m ∈ ms, m.txId = some t → ∃ first rest, (d :: ds).Perm (first :: rest) ∧
          (first :: rest).map (fun d => (d.getD 2 0).toNat) = List.range' 1 (d :: ds).length ∧
          m.data = first.take 2 ++ first.drop 3 ++ rest.flatMap (List.drop 3) := by
      intro hr
      have h0 := h2 hr
      refine ⟨by simp [h0], ?_⟩
      intro m hm ht
      have : m ∈ ms.filter (fun m => m.txId == some t) := List.mem_filter.2 ⟨hm, by simp [ht]⟩
      rw [h0] at this; cases this
    rw [legacyOf] at h1
    split at h1
    · next hmix =>
      injection h1 with h1
      obtain ⟨e1, e2⟩ := hempty h1.symm
      refine ⟨e1.trans ⟨False.elim, ?_⟩, e2⟩
      rintro ⟨hall, -⟩
      obtain ⟨x, hx, hne⟩ := hmix
      exact hne (hall x (List.mem_cons_of_mem _ hx) d (List.mem_cons_self ..))
    · next hmix =>
      rw [if_neg (h43 d (List.mem_cons_self ..)), if_neg (by rintro rfl; simp at hlen)] at h1
      split at h1
      · simp at h1
      · have hall : ∀ x ∈ d :: ds, x.head? = d.head? := by
          intro x hx
          rcases List.mem_cons.1 hx with rfl | hx
          · rfl
          · exact Classical.byContradiction (fun hne => hmix ⟨x, hx, hne⟩)
        split at h1
        · next hord =>
          have hperm := sortBy_perm ord (d :: ds)
          cases hso : sortBy ord (d :: ds) with
          | nil => rw [hso] at hperm; exact absurd hperm.length_eq (by simp)
          | cons first rest =>
            rw [hso] at h1 hperm hord
            simp only [Except.ok.injEq] at h1
            obtain ⟨m, hm, hmd⟩ := h3 _ h1.symm
            refine ⟨⟨fun _ => ⟨fun x hx y hy => (hall x hx).trans (hall y hy).symm, ?_⟩, fun _ => by rw [hm]; simp⟩, ?_⟩
            · rw [← hord]; exact (hperm.map ord).symm
            · intro m' hm' ht
              have : m' ∈ ms.filter (fun m => m.txId == some t) := List.mem_filter.2 ⟨hm', by simp [ht]⟩
              rw [hm] at this
              simp at this; subst this
              refine ⟨first, rest, hperm.symm, hord, ?_⟩
              rw [hmd]
              simp [List.eraseIdx_eq_take_drop_succ]
        · next hord =>
          injection h1 with h1
          obtain ⟨e1, e2⟩ := hempty h1.symm
          refine ⟨e1.trans ⟨False.elim, ?_⟩, e2⟩
          rintro ⟨-, hpm⟩
          apply hord
          have hso : List.Pairwise (· ≤ ·) ((sortBy ord (d :: ds)).map ord) := by
            rw [List.pairwise_map]; exact sortBy_sorted ord _
          have hp2 : ((sortBy ord (d :: ds)).map ord).Perm (List.range' 1 (d :: ds).length) := ((sortBy_perm ord _).map ord).trans hpm
          exact hp2.eq_of_pairwise (fun a b _ _ h1 h2 => Nat.le_antisymm h1 h2) hso ((List.pairwise_lt_range' (s := 1)).imp Nat.le_of_lt)

/-- Three numbered lines in another order. -/
example : ∃ ms, Proto.j1850vpw.call [] legacyVin = .ok ms ∧ 2 ≤ (framesBy .j1850vpw 0x10 legacyVin).length ∧
    (∀ d ∈ framesBy .j1850vpw 0x10 legacyVin, d.head? ≠ some 0x43) ∧ ms.filter (fun m => m.txId == some 0x10) ≠ [] := by
  have h : (Proto.j1850vpw.call [] legacyVin).toOption.map (fun ms => decide (ms.filter (fun m => m.txId == some 0x10) ≠ [])) = some true := by decide +kernel
  cases hc : Proto.j1850vpw.call [] legacyVin with
  | error e => rw [hc] at h; cases h
  | ok ms =>
    rw [hc] at h
    refine ⟨ms, rfl, by decide +kernel, by decide +kernel, ?_⟩
    simpa [Except.toOption] using h

/-- C18 (what holds): losing a line that is not among the last ones drops the reply. -/
theorem C18_lost_inner_partial (p : Proto) (hp : IsLegacy p) (map : Dict (Option Nat) Nat) (lines : List Str)
    (t : Nat) (mode pid : UInt8) (hmode : mode ≠ 0x43) (part : Nat → Bytes) (recv : List Nat)
    (hrecv : ∀ i ∈ recv, 1 ≤ i ∧ i ≤ 255) (h2 : 2 ≤ recv.length)
    (hown : framesBy p t lines = recv.map (numberedLine mode pid part))
    (i j : Nat) (hi : 1 ≤ i) (hij : i < j) (hlost : i ∉ recv) (hj : j ∈ recv)
    (ms : List Message) (h : p.call map lines = .ok ms) :
    ms.filter (fun m => m.txId == some t) = [] := by
  apply C18_bad_order_bytes_partial p hp map lines t (by rw [hown]; simpa using h2) _ _ ms h
  · rw [hown]
    intro d hd
    obtain ⟨k, _, rfl⟩ := List.mem_map.1 hd
    simpa [numberedLine] using hmode
  · rw [hown, List.map_map, List.length_map]
    have : ∀ k ∈ recv, ((fun d : Bytes => (d.getD 2 0).toNat) ∘ numberedLine mode pid part) k = id k := by
      intro k hk
      have := hrecv k hk
      exact ord_numbered _ _ _ _ (by omega)
    rw [List.map_congr_left this, List.map_id]
    intro hperm
    rw [hperm.mem_iff, List.mem_range'_1] at hj
    apply hlost
    rw [hperm.mem_iff, List.mem_range'_1]
    omega

/-- The full property C18: losing any line of a multi-line reply drops it. -/
def C18_full : Prop := ∀ (p : Proto) (map : Dict (Option Nat) Nat) (lines : List Str) (t : Nat)
  (mode pid : UInt8) (part : Nat → Bytes) (n : Nat) (recv : List Nat) (ms : List Message),
  IsLegacy p → mode ≠ 0x43 → 2 ≤ n → n ≤ 255 → recv.Sublist (List.range' 1 n) → recv.length < n →
  framesBy p t lines = recv.map (numberedLine mode pid part) → p.call map lines = .ok ms →
  ms.filter (fun m => m.txId == some t) = []

/-- C18 is false of the code as it stands: the last of three lines is lost and the first two are
delivered. -/
theorem C18_refuted : ¬ C18_full := by
  intro h
  let part : Nat → Bytes := fun i => if i = 1 then [0, 0, 0, 0x31] else [0x44, 0x34, 0x47, 0x50]
  obtain ⟨m, h1, h2⟩ := map_eq_single (Proto.j1850vpw.call [] (legacyVin.drop 1)) Message.txId (some 0x10)
    (by decide +kernel)
  have := h .j1850vpw [] (legacyVin.drop 1) 0x10 0x49 0x02 part 3 [1, 2] [m]
    (Or.inr (Or.inl rfl)) (by decide) (by decide) (by decide) (by decide) (by decide) (by decide +kernel) h1
  simp [h2] at this

/-! ## C19: DTC lines -/

/-- C19: mode-03 lines of one ECU are concatenated in arrival order behind `43 00`. -/
theorem C19_dtc_lines (p : Proto) (hp : IsLegacy p) (map : Dict (Option Nat) Nat) (lines : List Str)
    (t : Nat) (bodies : List Bytes) (hne : bodies ≠ [])
    (hown : framesBy p t lines = bodies.map (fun b => 0x43 :: b))
    (ms : List Message) (h : p.call map lines = .ok ms) :
    ∃ m, ms.filter (fun m => m.txId == some t) = [m] ∧ m.data = [0x43, 0x00] ++ bodies.flatten := by
  obtain ⟨r, h1, _, h3⟩ := legacy_message hp map lines ms h t (by rw [hown]; simpa using hne)
  cases hb : bodies with
  | nil => exact absurd hb hne
  | cons b bs =>
    rw [hown, hb, List.map_cons, legacyOf, if_neg, if_pos (show (List.cons (0x43 : UInt8) b).head? = some (0x43 : UInt8) from rfl)] at h1
    · injection h1 with h1
      obtain ⟨m, hm, hmd⟩ := h3 _ h1.symm
      refine ⟨m, hm, ?_⟩
      rw [hmd, ← List.map_cons (f := fun b => 0x43 :: b)]
      congr 1
      generalize b :: bs = l
      induction l with
      | nil => rfl
      | cons x l ih => rw [List.map_cons, List.flatMap_cons, List.flatten_cons, ih]; rfl
    · rintro ⟨x, hx, hne⟩
      obtain ⟨y, _, rfl⟩ := List.mem_map.1 hx
      exact hne rfl

example : framesBy .kwpFast 0x10 ["87 F1 10 43 01 33 02 34 00 00 CC".toList, "NO DATA".toList,
    "87 F1 10 43 03 35 00 00 00 00 CC".toList]
    = [[0x01, 0x33, 0x02, 0x34, 0, 0], [0x03, 0x35, 0, 0, 0, 0]].map (fun b => 0x43 :: b) := by decide +kernel

end Props
