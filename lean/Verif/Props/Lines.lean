import Verif.Lemmas.Legacy
/-!
# C11-C14: from adapter lines to messages, all protocols

`Spec.lineFrame?` says which lines are frames, and of which transmitter.
-/
namespace Props
open Py Model Spec

/-! ## C11: ECUs do not interfere with each other -/

/-- C11: the messages of transmitter `t` are those obtained from its lines alone. -/
theorem C11_own_lines (p : Proto) (hp : p ≠ .unknown) (map : Dict (Option Nat) Nat) (lines : List Str)
    (ms : List Message) (h : p.call map lines = .ok ms) (t : Nat) :
    p.call map (lines.filter (sentBy p t)) = .ok (ms.filter (fun m => m.txId == some t)) := by
  rw [call_filter p map lines ms h t]
  obtain ⟨h1, _⟩ := (call_ok_iff p map lines ms).1 h
  apply call_sent_ok p hp
  by_cases hm : some t ∈ txs (framesOf p lines)
  · obtain ⟨r, hr⟩ := h1 _ hm
    exact ⟨r, fun _ => hr⟩
  · exact ⟨none, fun h => absurd h hm⟩

/-- C11: interleaving lines of other ECUs or adapter chatter changes nothing for `t`. -/
theorem C11_noninterference (p : Proto) (hp : p ≠ .unknown) (map : Dict (Option Nat) Nat)
    (lines lines' : List Str) (t : Nat) (hsame : lines.filter (sentBy p t) = lines'.filter (sentBy p t))
    (ms ms' : List Message) (h : p.call map lines = .ok ms) (h' : p.call map lines' = .ok ms') :
    ms.filter (fun m => m.txId == some t) = ms'.filter (fun m => m.txId == some t) := by
  have h1 := C11_own_lines p hp map lines ms h t
  have h2 := C11_own_lines p hp map lines' ms' h' t
  rw [hsame, h2] at h1
  injection h1 with h1
  exact h1.symm

/-- C11: a parse raises exactly if the lines of some transmitter alone raise. -/
theorem C11_raises_iff (p : Proto) (hp : p ≠ .unknown) (map : Dict (Option Nat) Nat) (lines : List Str) :
    (∃ e, p.call map lines = .error e) ↔ ∃ t e, p.call map (lines.filter (sentBy p t)) = .error e := by
  constructor
  · rintro ⟨e, h⟩
    obtain ⟨t, ht, he⟩ := call_error p map lines e h
    obtain ⟨f, hf, htx⟩ := (mem_txs _ _).1 ht
    obtain ⟨_, t', ht'⟩ := framesOf_good p hp lines f hf
    rw [ht'] at htx; subst htx
    refine ⟨t', ?_⟩
    cases hc : p.call map (lines.filter (sentBy p t')) with
    | error e' => exact ⟨e', rfl⟩
    | ok ms =>
      obtain ⟨h1, _⟩ := (call_ok_iff _ _ _ _).1 hc
      rw [← fromTx_framesOf p hp] at h1
      have hne : fromTx (framesOf p lines) (some t') ≠ [] := fun h0 => (fromTx_empty.1 h0) ht
      obtain ⟨r, hr⟩ := h1 (some t') (by
        rw [txs_single _ _ (fun f hf => (mem_fromTx hf).2) hne]; exact List.mem_cons_self ..)
      rw [fromTx_idem, he] at hr
      simp at hr
  · rintro ⟨t, e, h⟩
    cases hc : p.call map lines with
    | error e' => exact ⟨e', rfl⟩
    | ok ms => rw [C11_own_lines p hp map lines ms hc t] at h; simp at h

/-- C11: at most one message per transmitter, in increasing transmitter order. -/
theorem C11_order (p : Proto) (map : Dict (Option Nat) Nat) (lines : List Str) (ms : List Message)
    (h : p.call map lines = .ok ms) : (ms.filterMap Message.txId).Pairwise (· < ·) := by
  obtain ⟨_, rfl⟩ := (call_ok_iff p map lines ms).1 h
  rw [List.filterMap_append]
  have hch : ((nonObdLines lines).map chatter).filterMap Message.txId = [] := by
    rw [List.filterMap_eq_nil_iff]
    intro m hm
    obtain ⟨l, _, rfl⟩ := List.mem_map.1 hm
    rfl
  rw [hch, List.append_nil]
  unfold ecuMessages
  have key : ∀ ts : List (Option Nat), (∀ t ∈ ts, t ∈ txs (framesOf p lines)) →
      ts.Pairwise (fun a b => txKey a < txKey b) →
      ((ts.filterMap (fun t => match p.parseMessage (fromTx (framesOf p lines) t) with
        | .ok (some d) => some (ecuMessage map (framesOf p lines) t d)
        | _ => none)).filterMap Message.txId).Pairwise (· < ·) ∧
      ∀ x ∈ ((ts.filterMap (fun t => match p.parseMessage (fromTx (framesOf p lines) t) with
        | .ok (some d) => some (ecuMessage map (framesOf p lines) t d)
        | _ => none)).filterMap Message.txId), some x ∈ ts := by
    intro ts hts hpw
    induction ts with
    | nil => simp
    | cons t ts ih =>
      rw [List.pairwise_cons] at hpw
      obtain ⟨ih1, ih2⟩ := ih (fun x hx => hts x (List.mem_cons_of_mem _ hx)) hpw.2
      rw [List.filterMap_cons]
      split
      · exact ⟨ih1, fun x hx => List.mem_cons_of_mem _ (ih2 x hx)⟩
      · next m hm =>
        have htx : m.txId = t := by
          split at hm
          · injection hm with hm; subst hm
            exact ecuMessage_txId _ _ _ _ (fun h0 => (fromTx_empty.1 h0) (hts t (List.mem_cons_self ..)))
          · simp at hm
        rw [List.filterMap_cons, htx]
        cases t with
        | none => exact ⟨ih1, fun x hx => List.mem_cons_of_mem _ (ih2 x hx)⟩
        | some n =>
          refine ⟨List.pairwise_cons.2 ⟨fun x hx => ?_, ih1⟩, fun x hx => ?_⟩
          · have := hpw.1 _ (ih2 x hx)
            simpa [txKey] using this
          · rcases List.mem_cons.1 hx with rfl | hx
            · exact List.mem_cons_self ..
            · exact List.mem_cons_of_mem _ (ih2 x hx)
  exact (key _ (fun t h => h) (txs_sorted _)).1

/-- Two ECUs and chatter, interleaved. -/
def sampleLines : List Str := ["7E9 10 09 41 00 01 02 03 04".toList, "SEARCHING...".toList,
  "7E8 06 41 00 BE 3E B8 13".toList, "7E9 21 05 06 07 00 00 00 00".toList]

example : (Proto.can11_500.call [] sampleLines).map (List.map (fun m => (m.txId, m.data))) =
    .ok [(some 0, [0x41, 0x00, 0xBE, 0x3E, 0xB8, 0x13]),
      (some 1, [0x41, 0, 1, 2, 3, 4, 5, 6, 7]), (none, [])] := by decide +kernel

example : sampleLines.filter (sentBy .can11_500 1) =
    ["7E9 10 09 41 00 01 02 03 04".toList, "7E9 21 05 06 07 00 00 00 00".toList] := by decide +kernel

/-! ## C12: adapter text is preserved verbatim -/

/-- C12: the lines that are not pure hex come back unchanged, in order, after all ECU
messages, one message each, without data and with the ECU tag UNKNOWN; the ECU messages
consist of hex lines only. -/
theorem C12_chatter (p : Proto) (map : Dict (Option Nat) Nat) (lines : List Str) (ms : List Message)
    (h : p.call map lines = .ok ms) :
    ∃ ecus chat, ms = ecus ++ chat ∧
      chat.map Message.raw = lines.filter (fun s => NotHex s) ∧
      (∀ m ∈ chat, m.data = [] ∧ m.ecu = ECU.unknown ∧ m.txId = none ∧ m.frames.length = 1) ∧
      (∀ m ∈ ecus, ∀ f ∈ m.frames, ∃ s ∈ lines, ¬ NotHex s ∧ f.raw = s.filter (fun c => c != ' ')) := by
  obtain ⟨_, rfl⟩ := (call_ok_iff p map lines ms).1 h
  refine ⟨_, _, rfl, ?_, ?_, ?_⟩
  · rw [List.map_map]
    have hid : (Message.raw ∘ chatter) = id := by
      funext l; simp [Message.raw, chatter, List.intercalate, List.intersperse]
    rw [hid, List.map_id]
    unfold nonObdLines
    apply List.filter_congr
    intro s _
    rw [Bool.eq_iff_iff]
    simp [notHex_iff]
  · intro m hm
    obtain ⟨l, _, rfl⟩ := List.mem_map.1 hm
    exact ⟨rfl, rfl, rfl, rfl⟩
  · intro m hm f hf
    unfold ecuMessages at hm
    obtain ⟨t, _, ht⟩ := List.mem_filterMap.1 hm
    split at ht
    · next d hd =>
      injection ht with ht
      subst ht
      have hf1 := (mem_fromTx hf).1
      rw [framesOf_eq] at hf1
      obtain ⟨s, hs, hl⟩ := List.mem_filterMap.1 hf1
      unfold lineF at hl
      split at hl
      · next hx =>
        refine ⟨s, hs, by rw [notHex_iff]; simp [hx], ?_⟩
        by_cases hp : p = .unknown
        · subst hp
          have : frameOf .unknown (noSpaces s) = some { raw := noSpaces s } := rfl
          rw [this] at hl; injection hl with hl; subst hl; rfl
        · rcases lineF_cases p hp s with ⟨_, h2⟩ | ⟨t', d', g, _, h2, h3, _⟩
          · simp [lineF, hx] at h2; rw [h2] at hl; simp at hl
          · simp [lineF, hx] at h2; rw [h2] at hl; injection hl with hl; subst hl; exact h3
      · simp at hl
    · simp at ht

example : NotHex "NO DATA".toList ∧ NotHex "12.3V".toList ∧ ¬ NotHex "7E8 06 41".toList := by decide

/-! ## C13: malformed hex lines have no effect -/

theorem call_congr (p : Proto) (map : Dict (Option Nat) Nat) (l l' : List Str)
    (h1 : framesOf p l = framesOf p l') (h2 : nonObdLines l = nonObdLines l') :
    p.call map l = p.call map l' := by
  unfold Proto.call
  rw [parseFrames_obd, parseFrames_obd, h1, h2]

/-- C13: deleting a hex line that is not a frame of the protocol changes neither the
messages nor whether the parse succeeds. -/
theorem C13_malformed (p : Proto) (hp : p ≠ .unknown) (map : Dict (Option Nat) Nat) (before after : List Str)
    (s : Str) (hx : ¬ NotHex s) (hs : lineFrame? p s = none) :
    p.call map (before ++ s :: after) = p.call map (before ++ after) := by
  apply call_congr
  · rw [framesOf_eq, framesOf_eq, List.filterMap_append, List.filterMap_append, List.filterMap_cons]
    rcases lineF_cases p hp s with ⟨_, h2⟩ | ⟨t, d, f, h1, _⟩
    · rw [h2]
    · rw [h1] at hs; simp at hs
  · unfold nonObdLines
    rw [List.filter_append, List.filter_append, List.filter_cons, if_neg]
    rw [notHex_iff] at hx
    simpa using hx

/-- C13: which hex lines are not frames: wrong number of digits. -/
theorem C13_digits (p : Proto) (s : Str) (ds : List Nat) (h : Spells s ds) :
    (p = .can11_500 ∨ p = .can11_250 → ds.length % 2 = 0 ∨ ds.length < 7 ∨ 19 < ds.length → lineFrame? p s = none) ∧
    (p = .can29_500 ∨ p = .can29_250 ∨ p = .j1939 → ds.length % 2 = 1 ∨ ds.length < 12 ∨ 24 < ds.length →
      lineFrame? p s = none) ∧
    (p = .j1850pwm ∨ p = .j1850vpw ∨ p = .iso9141 ∨ p = .kwp5baud ∨ p = .kwpFast →
      ds.length % 2 = 1 ∨ ds.length < 12 ∨ 22 < ds.length → lineFrame? p s = none) := by
  have hlen : ((s.filter (fun c => c != ' ')).map digit?).length = ds.length := by
    unfold Spells at h; rw [h]; simp
  refine ⟨?_, ?_, ?_⟩
  · intro hp hd
    have key : (match (s.filter (fun c => c != ' ')).map digit? with
      | some _ :: some a :: some b :: rest =>
        match hexBytes? rest with
        | some data => if data.length ≤ 8 ∧ pciOk data then some (ecuOf11 a b, data) else none
        | none => none
      | _ => none : Option (Nat × Bytes)) = none := by
      split
      · next x a b rest heq =>
        rw [heq] at hlen
        simp only [List.length_cons] at hlen
        split
        · next data hdata =>
          have := hexBytes?_some hdata
          rw [if_neg]
          rintro ⟨h8, hp⟩
          have := pciOk_len hp
          omega
        · rfl
      · rfl
    rcases hp with rfl | rfl <;> exact key
  · intro hp hd
    have key : (match hexBytes? ((s.filter (fun c => c != ' ')).map digit?) with
      | some (_ :: _ :: _ :: t :: data) =>
        if data.length ≤ 8 ∧ pciOk data then some (t.toNat, data) else none
      | _ => none : Option (Nat × Bytes)) = none := by
      split
      · next x a b t data heq =>
        have := hexBytes?_some heq
        simp only [List.length_cons] at this
        rw [if_neg]
        rintro ⟨h8, hp⟩
        have := pciOk_len hp
        omega
      · rfl
    rcases hp with rfl | rfl | rfl <;> exact key
  · intro hp hd
    have key : (match hexBytes? ((s.filter (fun c => c != ' ')).map digit?) with
      | some (_ :: _ :: t :: rest) =>
        if 3 ≤ rest.length ∧ rest.length ≤ 8 then some (t.toNat, rest.dropLast) else none
      | _ => none : Option (Nat × Bytes)) = none := by
      split
      · next x a t data heq =>
        have := hexBytes?_some heq
        simp only [List.length_cons] at this
        rw [if_neg]
        omega
      · rfl
    rcases hp with rfl | rfl | rfl | rfl | rfl <;> exact key

-- odd number of digits, too short, too long, flow control, empty single frame
example : ∀ s ∈ ["7E8 06 41 0".toList, "7E8 06".toList, "7E8 01 02 03 04 05 06 07 08 09".toList,
    "7E8 30 00 00".toList, "7E8 00 00 00".toList, "7E8 10 00 00".toList],
    ¬ NotHex s ∧ lineFrame? .can11_500 s = none := by decide +kernel
example : lineFrame? .can11_500 "7E8 06 41 00 BE 3E B8 13".toList
    = some (0, [0x06, 0x41, 0x00, 0xBE, 0x3E, 0xB8, 0x13]) := by decide +kernel
example : lineFrame? .iso9141 "48 6B 10 41 00 BE 3E B8 11 FA".toList
    = some (0x10, [0x41, 0x00, 0xBE, 0x3E, 0xB8, 0x11]) := by decide +kernel

/-! ## C14: when parsing raises -/

theorem idx_err {α} {l : List α} {i : Nat} {e : Exc} (h : idx l i = .error e) : e = .indexError := by
  unfold idx at h
  split at h <;> simp at h
  exact h.symm

theorem canTrimDtc_err {d : Bytes} {e : Exc} (h : canTrimDtc d = .error e) :
    e = .indexError ∧ (d = [] ∨ d = [0x43]) := by
  match d with
  | [] => simp [canTrimDtc, idx, bind, Except.bind] at h; exact ⟨h.symm, .inl rfl⟩
  | [x] =>
    by_cases hx : x = 0x43
    · subst hx; simp [canTrimDtc, idx, bind, Except.bind] at h; exact ⟨h.symm, .inr rfl⟩
    · simp [canTrimDtc, idx, bind, Except.bind, hx, pure, Except.pure] at h
  | a :: k :: rest => rw [canTrimDtc_eq _ (by simp)] at h; simp at h

/-- C14 (CAN): parsing raises nothing but IndexError, and only if the reply of some ECU
is the lone byte 43. -/
theorem C14_can_partial (p : Proto) (n : Nat) (hp : p.family = .can n) (map : Dict (Option Nat) Nat)
    (lines : List Str) (e : Exc) (h : p.call map lines = .error e) :
    e = .indexError ∧ ∃ t, Explains (framesBy p t lines) [0x43] := by
  have hne : p ≠ .unknown := by rintro rfl; simp [Proto.family] at hp
  obtain ⟨t, ht, he⟩ := call_error p map lines e h
  obtain ⟨f, hf, htx⟩ := (mem_txs _ _).1 ht
  obtain ⟨_, t', ht'⟩ := framesOf_good p hne lines f hf
  rw [ht'] at htx; subst htx
  rw [parseMessage_can hp, canParseMessage_eq] at he
  split at he
  · simp at he
  · next d hd =>
    obtain ⟨hs, hne'⟩ := rawData_sound _ (goodFrames_can hp lines (some t')) d hd
    cases hc : canTrimDtc d with
    | ok r => rw [hc] at he; simp [Except.map] at he
    | error e' =>
      rw [hc] at he
      simp only [Except.map, Except.error.injEq] at he
      subst he
      obtain ⟨h1, h2⟩ := canTrimDtc_err hc
      rcases h2 with h2 | h2
      · exact absurd h2 hne'
      · refine ⟨h1, t', ?_⟩
        rw [framesBy_eq p hne, ← h2]; exact hs

/-- It happens: a single frame with the lone byte 43. -/
example : Proto.can11_500.call [] ["7E8 01 43".toList] = .error .indexError ∧
    ∃ t, Explains (framesBy .can11_500 t ["7E8 01 43".toList]) [0x43] :=
  ⟨by decide +kernel, (C14_can_partial .can11_500 _ rfl [] _ .indexError (by decide +kernel)).2⟩

theorem parseMessage_legacy {p : Proto} (h : p.family = .legacy) (lines : List Str) (t : Option Nat) :
    p.parseMessage (fromTx (framesOf p lines) t) = legacyOf ((fromTx (framesOf p lines) t).map Frame.data) := by
  have hne : p ≠ .unknown := by rintro rfl; simp [Proto.family] at h
  have : p.parseMessage (fromTx (framesOf p lines) t) = legacyParseMessage (fromTx (framesOf p lines) t) := by
    unfold Proto.parseMessage; rw [h]
  rw [this]
  apply legacyParseMessage_eq
  intro f hf
  have hg := (framesOf_good p hne lines f (mem_fromTx hf).1).1
  unfold GoodFrame at hg
  rw [h] at hg
  exact hg.1

theorem legacyOf_error {ds : List Bytes} (hne : ds ≠ []) (e : Exc) : legacyOf ds = .error e ↔
    e = .indexError ∧ 2 ≤ ds.length ∧ (∀ d ∈ ds, d.head? = (ds.headD []).head?) ∧
      (ds.headD []).head? ≠ some 0x43 ∧ ∃ d ∈ ds, d.length < 3 := by
  match ds, hne with
  | d :: ds, _ =>
    have h0 : (d :: ds).headD [] = d := rfl
    rw [h0, legacyOf]
    by_cases hx : ∃ x ∈ ds, x.head? ≠ d.head?
    · rw [if_pos hx]
      simp only [reduceCtorEq, false_iff]
      rintro ⟨_, _, h2, _⟩
      obtain ⟨x, hx1, hx2⟩ := hx
      exact hx2 (h2 x (List.mem_cons_of_mem _ hx1))
    · rw [if_neg hx]
      have hall : ∀ y ∈ d :: ds, y.head? = d.head? := by
        intro y hy
        rcases List.mem_cons.1 hy with rfl | hy
        · rfl
        · apply Classical.byContradiction; intro hne; exact hx ⟨y, hy, hne⟩
      by_cases h43 : d.head? = some 0x43
      · rw [if_pos h43]
        simp only [reduceCtorEq, false_iff]
        rintro ⟨_, _, _, h3, _⟩; exact h3 h43
      · rw [if_neg h43]
        by_cases hnil : ds = []
        · rw [if_pos hnil]
          simp only [reduceCtorEq, false_iff]
          rintro ⟨_, h2, _⟩; subst hnil; simp at h2
        · rw [if_neg hnil]
          by_cases hsh : ∃ x ∈ d :: ds, x.length < 3
          · rw [if_pos hsh]
            simp only [Except.error.injEq]
            constructor
            · rintro rfl
              refine ⟨rfl, ?_, hall, h43, hsh⟩
              match ds, hnil with
              | _ :: _, _ => simp
            · rintro ⟨rfl, _⟩; rfl
          · rw [if_neg hsh]
            have hlast : ¬ ∃ x ∈ d :: ds, x.length < 3 := hsh
            constructor
            · intro h
              split at h
              · split at h
                · next h0 => exact absurd h0 (sortBy_ord_ne _ (by simp))
                · simp at h
              · simp at h
            · rintro ⟨_, _, _, _, h5⟩; exact absurd h5 hlast

/-- C14 (legacy): parsing raises exactly if some ECU sends two or more lines of the same
mode, not mode 03, one of which has fewer than three data bytes; and then IndexError. -/
theorem C14_legacy_exact (p : Proto) (hp : p.family = .legacy) (map : Dict (Option Nat) Nat)
    (lines : List Str) :
    ((∃ e, p.call map lines = .error e) ↔ ∃ t mode, 2 ≤ (framesBy p t lines).length ∧ mode ≠ 0x43 ∧
      (∀ d ∈ framesBy p t lines, d.head? = some mode) ∧ ∃ d ∈ framesBy p t lines, d.length < 3) ∧
    ∀ e, p.call map lines = .error e → e = .indexError := by
  have hne : p ≠ .unknown := by rintro rfl; simp [Proto.family] at hp
  have hfwd : ∀ e, p.call map lines = .error e → e = .indexError ∧
      ∃ t mode, 2 ≤ (framesBy p t lines).length ∧ mode ≠ 0x43 ∧
      (∀ d ∈ framesBy p t lines, d.head? = some mode) ∧ ∃ d ∈ framesBy p t lines, d.length < 3 := by
    intro e h
    obtain ⟨t, ht, he⟩ := call_error p map lines e h
    obtain ⟨f, hf, htx⟩ := (mem_txs _ _).1 ht
    obtain ⟨_, t', ht'⟩ := framesOf_good p hne lines f hf
    rw [ht'] at htx; subst htx
    have hnn : fromTx (framesOf p lines) (some t') ≠ [] := fun h0 => (fromTx_empty.1 h0) ht
    rw [parseMessage_legacy hp, legacyOf_error (by simpa using hnn)] at he
    obtain ⟨h1, h2, h3, h4, h5⟩ := he
    rw [← framesBy_eq p hne] at h2 h3 h4 h5
    obtain ⟨d, hd, hdl⟩ := h5
    have hmode : ∃ mode, ((framesBy p t' lines).headD []).head? = some mode := by
      rw [← h3 d hd]
      have hd2 : 2 ≤ d.length := by
        rw [framesBy_eq p hne] at hd
        obtain ⟨g, hg, rfl⟩ := List.mem_map.1 hd
        have hg := (framesOf_good p hne lines g (mem_fromTx hg).1).1
        unfold GoodFrame at hg
        rw [hp] at hg
        exact hg.1
      match d, hd2 with
      | a :: _, _ => exact ⟨a, rfl⟩
    obtain ⟨mode, hm⟩ := hmode
    rw [hm] at h3 h4
    exact ⟨h1, t', mode, h2, fun h => h4 (by rw [h]), h3, d, hd, hdl⟩
  refine ⟨⟨?_, ?_⟩, fun e h => (hfwd e h).1⟩
  · rintro ⟨e, h⟩; exact (hfwd e h).2
  · rintro ⟨t, mode, h1, h2, h3, h4⟩
    cases hc : p.call map lines with
    | error e => exact ⟨e, rfl⟩
    | ok ms =>
      obtain ⟨hall, _⟩ := (call_ok_iff _ _ _ _).1 hc
      have hnn : framesBy p t lines ≠ [] := by intro h0; rw [h0] at h1; simp at h1
      have hmem : some t ∈ txs (framesOf p lines) := by
        apply Classical.not_not.1
        intro h'
        apply hnn
        rw [framesBy_eq p hne, fromTx_empty.2 h']; rfl
      obtain ⟨r, hr⟩ := hall _ hmem
      rw [parseMessage_legacy hp, ← framesBy_eq p hne] at hr
      have hhead : ((framesBy p t lines).headD []).head? = some mode := by
        match hf : framesBy p t lines, hnn with
        | d :: ds, _ => exact h3 d (by rw [hf]; exact List.mem_cons_self ..)
      have := (legacyOf_error hnn .indexError).2 ⟨rfl, h1, by rw [hhead]; exact h3,
        by rw [hhead]; simpa using h2, h4⟩
      rw [this] at hr
      simp at hr

/-- It happens: two lines that are too short to be numbered.  One such line, or two trouble code replies, do no harm. -/
example : (∃ e, Proto.iso9141.call [] ["48 6B 10 41 00 FF".toList, "48 6B 10 41 00 FF".toList] = .error e) ∧
    (∃ ms, Proto.iso9141.call [] ["48 6B 10 41 00 FF".toList] = .ok ms) ∧
    (∃ ms, Proto.iso9141.call [] ["48 6B 10 43 00 FF".toList, "48 6B 10 43 00 FF".toList] = .ok ms) := by
  refine ⟨((C14_legacy_exact .iso9141 rfl [] _).1).2 ⟨0x10, 0x41, by decide +kernel, by decide, by decide +kernel, ?_⟩, ?_, ?_⟩
  · exact ⟨[0x41, 0x00], by decide +kernel, by decide⟩
  · have : (Proto.iso9141.call [] ["48 6B 10 41 00 FF".toList]).isOk = true := by decide +kernel
    cases h : Proto.iso9141.call [] ["48 6B 10 41 00 FF".toList] with
    | ok ms => exact ⟨ms, rfl⟩
    | error e => rw [h] at this; cases this
  · have : (Proto.iso9141.call [] ["48 6B 10 43 00 FF".toList, "48 6B 10 43 00 FF".toList]).isOk = true := by decide +kernel
    cases h : Proto.iso9141.call [] ["48 6B 10 43 00 FF".toList, "48 6B 10 43 00 FF".toList] with
    | ok ms => exact ⟨ms, rfl⟩
    | error e => rw [h] at this; cases this

/-- C14 (unknown protocol): parsing never raises. -/
theorem C14_unknown (map : Dict (Option Nat) Nat) (lines : List Str) :
    ∃ ms, Proto.unknown.call map lines = .ok ms := by
  cases h : Proto.unknown.call map lines with
  | ok ms => exact ⟨ms, rfl⟩
  | error e =>
    obtain ⟨t, _, he⟩ := call_error _ map lines e h
    simp [Proto.parseMessage, Proto.family] at he

example : (Proto.unknown.call [] ["7E8 01 43".toList, "NO DATA".toList]).map (List.map Message.raw) = .ok ["7E80143".toList, "NO DATA".toList] := by decide +kernel

/-- C14 is false of the code as it stands: a single frame with the lone byte 43 raises. -/
theorem C14_refuted_can :
    ¬ ∀ (map : Dict (Option Nat) Nat) (lines : List Str), ∃ ms, Proto.can11_500.call map lines = .ok ms := by
  intro h
  obtain ⟨ms, hms⟩ := h [] ["7E8 01 43".toList]
  have : Proto.can11_500.call [] ["7E8 01 43".toList] = .error .indexError := by decide +kernel
  rw [this] at hms
  simp at hms

/-- C14 is false of the code: two short legacy lines of one ECU raise. -/
theorem C14_refuted_legacy :
    ¬ ∀ (map : Dict (Option Nat) Nat) (lines : List Str), ∃ ms, Proto.iso9141.call map lines = .ok ms := by
  intro h
  obtain ⟨ms, hms⟩ := h [] ["48 6B 10 41 00 FF".toList, "48 6B 10 41 00 FF".toList]
  have : Proto.iso9141.call [] ["48 6B 10 41 00 FF".toList, "48 6B 10 41 00 FF".toList]
      = .error .indexError := by decide +kernel
  rw [this] at hms
  simp at hms

end Props
