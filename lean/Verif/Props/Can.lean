import Verif.Props.Lines
/-!
# C06-C10, C15: CAN replies
-/
namespace Props
open Py Model Spec

/-! ## Printing lines (for the concrete cases) -/

/-- The line of a CAN frame as printed by the adapter without spaces. -/
def canText (e : Sender) (data : Bytes) : Str := printDigits (e.digits ++ nibbles data)

theorem printDigit : ∀ d : Fin 16, digit? ("0123456789ABCDEF".toList[d.val]!) = some d.val ∧
    ("0123456789ABCDEF".toList[d.val]! != ' ') = true := by decide +kernel

theorem spells_printDigits (ds : List Nat) (h : ∀ d ∈ ds, d < 16) : Spells (printDigits ds) ds := by
  unfold Spells printDigits
  induction ds with
  | nil => rfl
  | cons d ds ih =>
    have hd := printDigit ⟨d, h d (List.mem_cons_self ..)⟩
    simp only at hd
    rw [List.map_cons, List.filter_cons, if_pos hd.2, List.map_cons, List.map_cons, hd.1,
      ih (fun x hx => h x (List.mem_cons_of_mem _ hx))]

theorem nibbles_lt (bs : Bytes) : ∀ d ∈ nibbles bs, d < 16 := by
  intro d hd
  unfold nibbles at hd
  obtain ⟨b, _, hb⟩ := List.mem_flatMap.1 hd
  have := b.toNat_lt
  simp at hb
  omega

theorem canLine_text (e : Sender) (data : Bytes) : CanLine e data (canText e data) := by
  apply spells_printDigits
  intro d hd
  rcases List.mem_append.1 hd with h | h
  · cases e with
    | e11 n =>
      have := n.isLt
      simp [Sender.digits] at h; omega
    | e29 a b c d' => exact nibbles_lt _ _ h
  · exact nibbles_lt _ _ h

theorem map_eq_single {α β} (x : Except Exc (List α)) (f : α → β) (b : β)
    (h : x.map (List.map f) = .ok [b]) : ∃ a, x = .ok [a] ∧ f a = b := by
  match x with
  | .error e => simp [Except.map] at h
  | .ok [] => simp [Except.map] at h
  | .ok [a] => exact ⟨a, rfl, by simpa [Except.map] using h⟩
  | .ok (_ :: _ :: _) => simp [Except.map] at h

/-! ## C06: single-frame replies -/

theorem trim_not43 (payload : Bytes) (h1 : 1 ≤ payload.length) (h43 : payload.head? ≠ some 0x43) :
    canTrimDtc payload = .ok payload := by
  match payload, h1 with
  | a :: r, _ =>
    have : ¬ a = 0x43 := by simpa using h43
    simp [canTrimDtc, idx, bind, Except.bind, pure, Except.pure, this]

/-- C06: a single frame with a payload of 1 to 7 bytes (not mode 03), any padding and any
spacing, yields exactly one message, from that ECU, with that payload. -/
theorem C06_single_frame (p : Proto) (e : Sender) (hp : e.On p) (map : Dict (Option Nat) Nat)
    (payload pad : Bytes) (h1 : 1 ≤ payload.length) (h7 : payload.length + pad.length ≤ 7)
    (h43 : payload.head? ≠ some 0x43) (s : Str) (hs : CanLine e (singleFrame payload pad) s) :
    ∃ m, p.call map [s] = .ok [m] ∧ m.txId = some e.ecu ∧ m.data = payload := by
  obtain ⟨m, h1, h2, _, h4⟩ := call_singleFrame hp map payload pad h1 h7 s hs payload
    (trim_not43 payload h1 h43)
  exact ⟨m, h1, h2, h4⟩

/-- C06: the same among any lines of other ECUs, malformed lines and chatter. -/
theorem C06_among_others (p : Proto) (e : Sender) (hp : e.On p) (map : Dict (Option Nat) Nat)
    (payload pad : Bytes) (h1 : 1 ≤ payload.length) (h7 : payload.length + pad.length ≤ 7)
    (h43 : payload.head? ≠ some 0x43) (s : Str) (hs : CanLine e (singleFrame payload pad) s)
    (lines : List Str) (hl : lines.filter (sentBy p e.ecu) = [s])
    (ms : List Message) (hms : p.call map lines = .ok ms) :
    ∃ m, ms.filter (fun m => m.txId == some e.ecu) = [m] ∧ m.data = payload := by
  obtain ⟨m, h1, _, h4⟩ := C06_single_frame p e hp map payload pad h1 h7 h43 s hs
  have := C11_own_lines p (on_ne_unknown hp) map lines ms hms e.ecu
  rw [hl, h1] at this
  injection this with this
  exact ⟨m, this.symm, h4⟩

example : CanLine (.e11 0) (singleFrame [0x41, 0x0C, 0x1A, 0xF8] [0xAA, 0xAA, 0xAA])
    "7E8 04 41 0C 1A F8 AA AA AA".toList := by unfold CanLine Spells; decide +kernel
example : CanLine (.e29 0x18 0xDA 0xF1 0x10) (singleFrame [0x41, 0x0C, 0x1A, 0xF8] [])
    "18dAF110 04410C1a F8".toList := by unfold CanLine Spells; decide +kernel
example : (Sender.e29 0x18 0xDA 0xF1 0x10).On .can29_500 := Or.inl rfl
example : sampleLines.filter (sentBy .can11_500 (Sender.e11 0).ecu) = ["7E8 06 41 00 BE 3E B8 13".toList] := by
  decide +kernel

/-! ## C09: what exactly is delivered of a segmented reply -/

/-- A 20-byte payload (two consecutive frames). -/
def payload20 : Bytes := [0x49, 0x02, 0x01] ++ List.replicate 17 0x41

theorem segmentable20 : Segmentable payload20 [] := by
  refine ⟨by decide, by decide, by decide⟩

theorem received_text (e : Sender) (payload pad : Bytes) (order : List Nat)
    (h : ∀ i ∈ order, i ≤ consecutiveCount payload) :
    Received e payload pad (order.map (fun i => (canText e (replyFrame payload pad i), i))) := by
  intro x hx
  obtain ⟨i, hi, rfl⟩ := List.mem_map.1 hx
  exact ⟨h i hi, canLine_text _ _⟩

/-- The lines of the frames `order` of that payload, with their numbers. -/
def sent20 (order : List Nat) : List (Str × Nat) := order.map (fun i => (canText (.e11 0) (replyFrame payload20 [] i), i))

/-- C09 (what holds): as long as the frame numbers can be tracked (`Trackable`), a
segmented reply of which any lines were received, in any order and with any repetitions, is
delivered exactly if the first frame was received once and the consecutive frames received
are 1, ..., m, each once; the delivered data is then the part of the payload they
carry (cut as in C15).  Missing: losing frames at the end is not noticed, see `C09_refuted`. -/
theorem C09_exact_partial (p : Proto) (e : Sender) (hp : e.On p) (map : Dict (Option Nat) Nat)
    (payload pad : Bytes) (hseg : Segmentable payload pad) (recvd : List (Str × Nat))
    (hr : Received e payload pad recvd) (ht : Trackable ((recvd.map Prod.snd).filter (· ≠ 0))) :
    (Complete (recvd.map Prod.snd) → ∃ m, p.call map (recvd.map Prod.fst) = .ok [m] ∧
      m.txId = some e.ecu ∧
      m.data = dtcCut (payload.take (6 + 7 * ((recvd.map Prod.snd).filter (· ≠ 0)).length))) ∧
    (¬ Complete (recvd.map Prod.snd) → p.call map (recvd.map Prod.fst) = .ok []) := by
  obtain ⟨h1, h2⟩ := call_received hp map hseg hr ht
  refine ⟨fun hc => ?_, h2⟩
  obtain ⟨m, a, b, _, d⟩ := h1 hc
  exact ⟨m, a, b, d⟩

/-- All frames of 20 bytes; and the first and the last one only. -/
example : (∃ m, Proto.can11_500.call [] ((sent20 [0, 1, 2]).map Prod.fst) = .ok [m] ∧ m.txId = some 0 ∧ m.data = payload20) ∧
    Proto.can11_500.call [] ((sent20 [0, 2]).map Prod.fst) = .ok [] :=
  ⟨(C09_exact_partial .can11_500 (.e11 0) (Or.inl rfl) [] payload20 [] segmentable20 (sent20 [0, 1, 2]) (received_text _ _ _ _ (by decide))
      (by simp [sent20, Trackable, TrackFrom, InWindow])).1 (by simp only [sent20, Complete]; decide),
    (C09_exact_partial .can11_500 (.e11 0) (Or.inl rfl) [] payload20 [] segmentable20 (sent20 [0, 2]) (received_text _ _ _ _ (by decide))
      (by simp [sent20, Trackable, TrackFrom, InWindow])).2 (by simp only [sent20, Complete]; decide)⟩

/-- C09 (what holds): a reply whose first frame was lost is not delivered. -/
theorem C09_lost_first_partial (p : Proto) (e : Sender) (hp : e.On p) (map : Dict (Option Nat) Nat)
    (payload pad : Bytes) (hseg : Segmentable payload pad) (recvd : List (Str × Nat))
    (hr : Received e payload pad recvd) (ht : Trackable ((recvd.map Prod.snd).filter (· ≠ 0)))
    (hlost : 0 ∉ recvd.map Prod.snd) : p.call map (recvd.map Prod.fst) = .ok [] := by
  apply (C09_exact_partial p e hp map payload pad hseg recvd hr ht).2
  rintro ⟨h, _⟩
  have := List.count_eq_zero.2 hlost
  omega

example : Proto.can11_500.call [] ((sent20 [1, 2]).map Prod.fst) = .ok [] :=
  C09_lost_first_partial .can11_500 (.e11 0) (Or.inl rfl) [] payload20 [] segmentable20 (sent20 [1, 2]) (received_text _ _ _ _ (by decide))
    (by simp [sent20, Trackable, TrackFrom, InWindow]) (by decide)

/-- C09 (what holds): a reply of which a consecutive frame was lost while a later one arrived is
not delivered. -/
theorem C09_lost_inner_partial (p : Proto) (e : Sender) (hp : e.On p) (map : Dict (Option Nat) Nat)
    (payload pad : Bytes) (hseg : Segmentable payload pad) (recvd : List (Str × Nat))
    (hr : Received e payload pad recvd) (ht : Trackable ((recvd.map Prod.snd).filter (· ≠ 0)))
    (i j : Nat) (hi : 1 ≤ i) (hij : i < j) (hlost : i ∉ recvd.map Prod.snd) (hj : j ∈ recvd.map Prod.snd) :
    p.call map (recvd.map Prod.fst) = .ok [] := by
  apply (C09_exact_partial p e hp map payload pad hseg recvd hr ht).2
  rintro ⟨_, _, h3⟩
  have hj' : j ∈ (recvd.map Prod.snd).filter (· ≠ 0) := List.mem_filter.2 ⟨hj, by simp; omega⟩
  rw [h3.mem_iff, List.mem_range'_1] at hj'
  have hi' : i ∈ (recvd.map Prod.snd).filter (· ≠ 0) := by
    rw [h3.mem_iff, List.mem_range'_1]; omega
  exact hlost (List.mem_filter.1 hi').1

example : Proto.can11_500.call [] ((sent20 [0, 2]).map Prod.fst) = .ok [] :=
  C09_lost_inner_partial .can11_500 (.e11 0) (Or.inl rfl) [] payload20 [] segmentable20 (sent20 [0, 2]) (received_text _ _ _ _ (by decide))
    (by simp [sent20, Trackable, TrackFrom, InWindow]) 1 2 (by decide) (by decide) (by decide) (by decide)

/-- C09 (what holds): a reply of which any frame arrived twice is not delivered. -/
theorem C09_duplicate_partial (p : Proto) (e : Sender) (hp : e.On p) (map : Dict (Option Nat) Nat)
    (payload pad : Bytes) (hseg : Segmentable payload pad) (recvd : List (Str × Nat))
    (hr : Received e payload pad recvd) (ht : Trackable ((recvd.map Prod.snd).filter (· ≠ 0)))
    (hdup : ¬ (recvd.map Prod.snd).Nodup) : p.call map (recvd.map Prod.fst) = .ok [] := by
  apply (C09_exact_partial p e hp map payload pad hseg recvd hr ht).2
  rintro ⟨h1, _, h3⟩
  apply hdup
  rw [List.nodup_iff_count]
  intro a
  by_cases ha : a = 0
  · subst ha; omega
  · have hn : ((recvd.map Prod.snd).filter (· ≠ 0)).Nodup := h3.nodup_iff.2 List.nodup_range'
    have := List.nodup_iff_count.1 hn a
    rwa [List.count_filter (by simpa using ha)] at this

example : Proto.can11_500.call [] ((sent20 [0, 1, 2, 1]).map Prod.fst) = .ok [] :=
  C09_duplicate_partial .can11_500 (.e11 0) (Or.inl rfl) [] payload20 [] segmentable20 (sent20 [0, 1, 2, 1]) (received_text _ _ _ _ (by decide))
    (by simp [sent20, Trackable, TrackFrom, InWindow]) (by decide)

/-- The full property C09: a message delivered for a segmented reply has the announced length. -/
def C09_full : Prop := ∀ (p : Proto) (e : Sender) (map : Dict (Option Nat) Nat) (payload pad : Bytes)
  (recvd : List (Str × Nat)) (ms : List Message), e.On p → Segmentable payload pad →
  Received e payload pad recvd → payload.head? ≠ some 0x43 → p.call map (recvd.map Prod.fst) = .ok ms →
  ∀ m ∈ ms, m.data.length = payload.length

/-- C09 is false of the code as it stands: the last consecutive frame is lost, and 13 of 20 bytes are
delivered. -/
theorem C09_refuted : ¬ C09_full := by
  intro h
  have hr : Received (.e11 0) payload20 []
      [(canText (.e11 0) (replyFrame payload20 [] 0), 0), (canText (.e11 0) (replyFrame payload20 [] 1), 1)] := by
    intro x hx
    simp only [List.mem_cons, List.not_mem_nil, or_false] at hx
    rcases hx with rfl | rfl
    · exact ⟨by decide, canLine_text _ _⟩
    · exact ⟨by decide, canLine_text _ _⟩
  have hcall : (Proto.can11_500.call [] ([(canText (.e11 0) (replyFrame payload20 [] 0), 0),
      (canText (.e11 0) (replyFrame payload20 [] 1), 1)].map Prod.fst)).map (List.map (fun m => m.data.length))
      = .ok [13] := by decide +kernel
  cases hc : Proto.can11_500.call [] ([(canText (.e11 0) (replyFrame payload20 [] 0), 0),
      (canText (.e11 0) (replyFrame payload20 [] 1), 1)].map Prod.fst) with
  | error e => rw [hc] at hcall; simp [Except.map] at hcall
  | ok ms =>
    rw [hc] at hcall
    simp only [Except.map, Except.ok.injEq] at hcall
    match ms, hcall, hc with
    | [m], hcall, hc =>
      have := h .can11_500 (.e11 0) [] payload20 [] _ [m] (Or.inl rfl) segmentable20 hr (by decide) hc m
        (List.mem_cons_self ..)
      simp at hcall
      rw [hcall] at this
      exact absurd this (by decide)

/-! ## C07: segmented replies received in order -/

theorem trackFrom_range' (prev m : Nat) : TrackFrom prev (List.range' (prev + 1) m) := by
  induction m generalizing prev with
  | zero => trivial
  | succ m ih =>
    rw [List.range'_succ]
    refine ⟨?_, ih (prev + 1)⟩
    unfold InWindow; omega

theorem trackable_range' (m : Nat) : Trackable (List.range' 1 m) := by
  cases m with
  | zero => trivial
  | succ m =>
    rw [List.range'_succ]
    exact ⟨by omega, trackFrom_range' 1 m⟩

theorem filter_range (n : Nat) : (List.range (n + 1)).filter (· ≠ 0) = List.range' 1 n := by
  rw [List.range_succ_eq_map, List.filter_cons, if_neg (by simp), List.range'_eq_map_range, List.filter_eq_self.2]
  · apply List.map_congr_left; intro a _; omega
  · intro a ha
    obtain ⟨b, _, rfl⟩ := List.mem_map.1 ha
    simp

theorem complete_of_perm {recv : List Nat} {n : Nat} (hn : 1 ≤ n) (h : recv.Perm (List.range (n + 1))) :
    Complete recv ∧ (recv.filter (· ≠ 0)).length = n := by
  have hf : (recv.filter (· ≠ 0)).Perm (List.range' 1 n) := by
    rw [← filter_range]; exact h.filter _
  have hl : (recv.filter (· ≠ 0)).length = n := by rw [hf.length_eq]; simp
  refine ⟨⟨?_, by omega, by rw [hl]; exact hf⟩, hl⟩
  rw [h.count_eq, List.nodup_range.count]
  simp

theorem dtcCut_not43 {d : Bytes} (h : d.head? ≠ some 0x43) : dtcCut d = d := by
  match d with
  | [] => rfl
  | [_] => rfl
  | a :: k :: rest =>
    have : ¬ a = 0x43 := by simpa using h
    simp [dtcCut, this]

/-- C08 (what holds): if all frames of a segmented reply arrive, each once, in any order along
which their numbers can be tracked (`Trackable`), the payload is reassembled exactly.
Missing: other orders, see `C08_refuted`. -/
theorem C08_trackable_order_partial (p : Proto) (e : Sender) (hp : e.On p) (map : Dict (Option Nat) Nat)
    (payload pad : Bytes) (hseg : Segmentable payload pad) (h43 : payload.head? ≠ some 0x43)
    (recvd : List (Str × Nat)) (hr : Received e payload pad recvd)
    (hperm : (recvd.map Prod.snd).Perm (List.range (consecutiveCount payload + 1)))
    (ht : Trackable ((recvd.map Prod.snd).filter (· ≠ 0))) :
    ∃ m, p.call map (recvd.map Prod.fst) = .ok [m] ∧ m.txId = some e.ecu ∧ m.data = payload := by
  have hb := consecutiveCount_bounds hseg
  obtain ⟨hc, hlen⟩ := complete_of_perm hb.1 hperm
  obtain ⟨m, h1, h2, h3⟩ := (C09_exact_partial p e hp map payload pad hseg recvd hr ht).1 hc
  refine ⟨m, h1, h2, ?_⟩
  rw [h3, hlen, List.take_of_length_le hb.2.2, dtcCut_not43 h43]

/-- The frames in the order 2, 0, 1. -/
example : ∃ m, Proto.can11_500.call [] ((sent20 [2, 0, 1]).map Prod.fst) = .ok [m] ∧ m.txId = some 0 ∧ m.data = payload20 :=
  C08_trackable_order_partial .can11_500 (.e11 0) (Or.inl rfl) [] payload20 [] segmentable20 (by decide) (sent20 [2, 0, 1])
    (received_text _ _ _ _ (by decide)) (by decide) (by simp [sent20, Trackable, TrackFrom, InWindow])

/-- C07: a segmented payload of 8 to 4095 bytes (not mode 03), received in order, is
reassembled exactly, however often the sequence numbers wrap. -/
theorem C07_in_order (p : Proto) (e : Sender) (hp : e.On p) (map : Dict (Option Nat) Nat)
    (payload pad : Bytes) (hseg : Segmentable payload pad) (h43 : payload.head? ≠ some 0x43)
    (recvd : List (Str × Nat)) (hr : Received e payload pad recvd)
    (horder : recvd.map Prod.snd = List.range (consecutiveCount payload + 1)) :
    ∃ m, p.call map (recvd.map Prod.fst) = .ok [m] ∧ m.txId = some e.ecu ∧ m.data = payload := by
  apply C08_trackable_order_partial p e hp map payload pad hseg h43 recvd hr (by rw [horder])
  rw [horder, filter_range]
  exact trackable_range' _

/-- C07: the same among any lines of other ECUs, malformed lines and chatter. -/
theorem C07_among_others (p : Proto) (e : Sender) (hp : e.On p) (map : Dict (Option Nat) Nat)
    (payload pad : Bytes) (hseg : Segmentable payload pad) (h43 : payload.head? ≠ some 0x43)
    (recvd : List (Str × Nat)) (hr : Received e payload pad recvd)
    (horder : recvd.map Prod.snd = List.range (consecutiveCount payload + 1))
    (lines : List Str) (hl : lines.filter (sentBy p e.ecu) = recvd.map Prod.fst)
    (ms : List Message) (hms : p.call map lines = .ok ms) :
    ∃ m, ms.filter (fun m => m.txId == some e.ecu) = [m] ∧ m.data = payload := by
  obtain ⟨m, h1, _, h4⟩ := C07_in_order p e hp map payload pad hseg h43 recvd hr horder
  have := C11_own_lines p (on_ne_unknown hp) map lines ms hms e.ecu
  rw [hl, h1] at this
  injection this with this
  exact ⟨m, this.symm, h4⟩

/-- Every segmentable payload has such a transmission. -/
theorem C07_nonvacuous (e : Sender) (payload pad : Bytes) :
    Received e payload pad ((List.range (consecutiveCount payload + 1)).map
      (fun i => (canText e (replyFrame payload pad i), i))) ∧
    ((List.range (consecutiveCount payload + 1)).map
      (fun i => (canText e (replyFrame payload pad i), i))).map Prod.snd
        = List.range (consecutiveCount payload + 1) := by
  constructor
  · intro x hx
    obtain ⟨i, hi, rfl⟩ := List.mem_map.1 hx
    have := List.mem_range.1 hi
    exact ⟨by simp only; omega, canLine_text _ _⟩
  · rw [List.map_map]; exact List.map_id' _

example : consecutiveCount payload20 = 2 ∧
    (List.range 3).map (fun i => canText (.e11 0) (replyFrame payload20 [] i)) =
    ["7E81014490201414141".toList, "7E82141414141414141".toList, "7E82241414141414141".toList] := by
  decide +kernel

/-! ## C08: arrival order -/

theorem trackFrom_small (l : List Nat) : ∀ prev, prev ≤ 8 → (∀ i ∈ l, 1 ≤ i ∧ i ≤ 8) → TrackFrom prev l := by
  induction l with
  | nil => intros; trivial
  | cons i l ih =>
    intro prev hp hl
    have hi := hl i (List.mem_cons_self ..)
    refine ⟨?_, ih i hi.2 (fun j hj => hl j (List.mem_cons_of_mem _ hj))⟩
    unfold InWindow; omega

/-- C08 (what holds): replies of at most eight consecutive frames (62 bytes) are
reassembled exactly for every arrival order. -/
theorem C08_short_any_order_partial (p : Proto) (e : Sender) (hp : e.On p) (map : Dict (Option Nat) Nat)
    (payload pad : Bytes) (hseg : Segmentable payload pad) (h43 : payload.head? ≠ some 0x43)
    (hshort : payload.length ≤ 62)
    (recvd : List (Str × Nat)) (hr : Received e payload pad recvd)
    (hperm : (recvd.map Prod.snd).Perm (List.range (consecutiveCount payload + 1))) :
    ∃ m, p.call map (recvd.map Prod.fst) = .ok [m] ∧ m.txId = some e.ecu ∧ m.data = payload := by
  apply C08_trackable_order_partial p e hp map payload pad hseg h43 recvd hr hperm
  have hcount : consecutiveCount payload ≤ 8 := by unfold consecutiveCount; omega
  have hall : ∀ i ∈ (recvd.map Prod.snd).filter (· ≠ 0), 1 ≤ i ∧ i ≤ 8 := by
    intro i hi
    obtain ⟨h1, h2⟩ := List.mem_filter.1 hi
    rw [hperm.mem_iff, List.mem_range] at h1
    simp at h2
    omega
  cases hl : (recvd.map Prod.snd).filter (· ≠ 0) with
  | nil => trivial
  | cons i l =>
    rw [hl] at hall
    have hi := hall i (List.mem_cons_self ..)
    exact ⟨by omega, trackFrom_small l i hi.2 (fun j hj => hall j (List.mem_cons_of_mem _ hj))⟩

example : ∃ m, Proto.can11_500.call [] ((sent20 [1, 2, 0]).map Prod.fst) = .ok [m] ∧ m.txId = some 0 ∧ m.data = payload20 :=
  C08_short_any_order_partial .can11_500 (.e11 0) (Or.inl rfl) [] payload20 [] segmentable20 (by decide) (by decide) (sent20 [1, 2, 0])
    (received_text _ _ _ _ (by decide)) (by decide)

/-- The full property C08: the arrival order does not matter. -/
def C08_full : Prop := ∀ (p : Proto) (e : Sender) (map : Dict (Option Nat) Nat) (payload pad : Bytes)
  (recvd : List (Str × Nat)), e.On p → Segmentable payload pad → payload.head? ≠ some 0x43 →
  Received e payload pad recvd → (recvd.map Prod.snd).Perm (List.range (consecutiveCount payload + 1)) →
  ∃ m, p.call map (recvd.map Prod.fst) = .ok [m] ∧ m.data = payload

/-- 118 bytes: sixteen consecutive frames. -/
def payload118 : Bytes := [0x49] ++ List.replicate 117 0

/-- Only the last two of sixteen consecutive frames are swapped: ..., 14, 16, 15. -/
def swapped : List Nat := List.range 15 ++ [16, 15]

/-- C08 is false of the code: swapping consecutive frames 15 and 16 (the wrap of the
sequence number) loses the reply. -/
theorem C08_refuted : ¬ C08_full := by
  intro h
  obtain ⟨m, h1, _⟩ := h .can11_500 (.e11 0) [] payload118 []
    (swapped.map (fun i => (canText (.e11 0) (replyFrame payload118 [] i), i)))
    (Or.inl rfl) ⟨by decide, by decide, by decide⟩ (by decide)
    (received_text _ _ _ _ (by decide)) (by decide)
  have : Proto.can11_500.call [] ((swapped.map (fun i => (canText (.e11 0) (replyFrame payload118 [] i), i))).map
      Prod.fst) = .ok [] := by decide +kernel
  rw [this] at h1
  simp at h1

/-- 230 different bytes: 32 consecutive frames. -/
def payload230 : Bytes := (List.range 230).map UInt8.ofNat

/-- The frames received when consecutive frames 8 to 23 are lost. -/
def lost16 : List Nat := List.range 8 ++ List.range' 24 9

/-- C09 is false of the code in a second way: losing 16 consecutive frames in a row
is not noticed, and what is delivered is not even a prefix of the payload. -/
theorem C09_refuted_corrupt :
    Received (.e11 0) payload230 [] (lost16.map (fun i => (canText (.e11 0) (replyFrame payload230 [] i), i))) ∧
    ∃ m, Proto.can11_500.call [] (lost16.map (fun i => canText (.e11 0) (replyFrame payload230 [] i))) = .ok [m] ∧
      ¬ m.data <+: payload230 := by
  refine ⟨received_text _ _ _ _ (by decide +kernel), ?_⟩
  obtain ⟨m, h1, h2⟩ := map_eq_single
    (Proto.can11_500.call [] (lost16.map (fun i => canText (.e11 0) (replyFrame payload230 [] i))))
    Message.data (payload230.take 55 ++ payload230.drop 167) (by decide +kernel)
  refine ⟨m, h1, ?_⟩
  rw [h2]
  decide +kernel

/-! ## C10: soundness -/

/-- C10: whatever lines are received, the data of a delivered CAN message is explained by
the frames of its transmitter (`Explains`), up to the mode-03 cut of C15, and is not empty. -/
theorem C10_sound (p : Proto) (n : Nat) (hp : p.family = .can n) (map : Dict (Option Nat) Nat)
    (lines : List Str) (ms : List Message) (h : p.call map lines = .ok ms) (m : Message) (hm : m ∈ ms)
    (t : Nat) (ht : m.txId = some t) :
    m.data ≠ [] ∧ ∃ d, Explains (framesBy p t lines) d ∧ m.data = dtcCut d := by
  have hne : p ≠ .unknown := by rintro rfl; simp [Proto.family] at hp
  have hmem : m ∈ ms.filter (fun m => m.txId == some t) := List.mem_filter.2 ⟨hm, by simp [ht]⟩
  rw [call_filter p map lines ms h t] at hmem
  obtain ⟨h1, _, _⟩ := oneMessage_mem hmem
  rw [parseMessage_can hp] at h1
  have := canParseMessage_sound _ (goodFrames_can hp lines (some t)) _ h1
  rwa [← framesBy_eq p hne] at this

/-- C10: every ECU message comes from a transmitter, so `C10_sound` applies to all of them. -/
theorem C10_has_sender (p : Proto) (hp : p ≠ .unknown) (map : Dict (Option Nat) Nat)
    (lines : List Str) (ms : List Message) (h : p.call map lines = .ok ms) (m : Message) (hm : m ∈ ms)
    (hd : m.data ≠ []) : ∃ t, m.txId = some t := by
  obtain ⟨_, rfl⟩ := (call_ok_iff p map lines ms).1 h
  rcases List.mem_append.1 hm with hm | hm
  · unfold ecuMessages at hm
    obtain ⟨t, ht, hm⟩ := List.mem_filterMap.1 hm
    obtain ⟨f, hf, htx⟩ := (mem_txs _ _).1 ht
    obtain ⟨_, t', ht'⟩ := framesOf_good p hp lines f hf
    split at hm
    · injection hm with hm
      subst hm
      rw [ecuMessage_txId _ _ _ _ (fun h0 => (fromTx_empty.1 h0) ht), ← htx]
      exact ⟨t', ht'⟩
    · simp at hm
  · obtain ⟨l, _, rfl⟩ := List.mem_map.1 hm
    simp [chatter] at hd

example : framesBy .can11_500 1 sampleLines =
    [[0x10, 0x09, 0x41, 0, 1, 2, 3, 4], [0x21, 5, 6, 7, 0, 0, 0, 0]] := by decide +kernel

/-! ## C15: mode 03 -/

theorem dtcCut_43 (k : UInt8) (rest : Bytes) :
    dtcCut (0x43 :: k :: rest) = (0x43 :: k :: rest).take (2 + 2 * k.toNat) := by
  have : 2 + 2 * k.toNat = 2 * k.toNat + 1 + 1 := by omega
  simp [dtcCut, this]

/-- C15: a single-frame mode-03 reply `43 k ...` is cut to the announced `k` codes. -/
theorem C15_single (p : Proto) (e : Sender) (hp : e.On p) (map : Dict (Option Nat) Nat)
    (k : UInt8) (rest pad : Bytes) (h7 : rest.length + pad.length ≤ 5) (s : Str)
    (hs : CanLine e (singleFrame (0x43 :: k :: rest) pad) s) :
    ∃ m, p.call map [s] = .ok [m] ∧ m.txId = some e.ecu ∧
      m.data = (0x43 :: k :: rest).take (2 + 2 * k.toNat) := by
  obtain ⟨m, h1, h2, _, h4⟩ := call_singleFrame hp map (0x43 :: k :: rest) pad (by simp) (by simp; omega) s hs _
    (canTrimDtc_eq _ (by simp))
  exact ⟨m, h1, h2, by rw [h4, dtcCut_43]⟩

/-- C15: a segmented mode-03 reply received in order is cut to the announced `k` codes. -/
theorem C15_segmented (p : Proto) (e : Sender) (hp : e.On p) (map : Dict (Option Nat) Nat)
    (k : UInt8) (rest pad : Bytes) (hseg : Segmentable (0x43 :: k :: rest) pad)
    (recvd : List (Str × Nat)) (hr : Received e (0x43 :: k :: rest) pad recvd)
    (horder : recvd.map Prod.snd = List.range (consecutiveCount (0x43 :: k :: rest) + 1)) :
    ∃ m, p.call map (recvd.map Prod.fst) = .ok [m] ∧ m.txId = some e.ecu ∧
      m.data = (0x43 :: k :: rest).take (2 + 2 * k.toNat) := by
  have hb := consecutiveCount_bounds hseg
  obtain ⟨hc, hlen⟩ := complete_of_perm hb.1 (show (recvd.map Prod.snd).Perm _ by rw [horder])
  have ht : Trackable ((recvd.map Prod.snd).filter (· ≠ 0)) := by
    rw [horder, filter_range]; exact trackable_range' _
  obtain ⟨m, h1, h2, h3⟩ := (C09_exact_partial p e hp map _ pad hseg recvd hr ht).1 hc
  refine ⟨m, h1, h2, ?_⟩
  rw [h3, hlen, List.take_of_length_le hb.2.2, dtcCut_43]

/-- C15: whatever lines are received, CAN data delivered with the mode byte 43 has at most the
announced number of codes. -/
theorem C15_any (p : Proto) (n : Nat) (hp : p.family = .can n) (map : Dict (Option Nat) Nat)
    (lines : List Str) (ms : List Message) (h : p.call map lines = .ok ms) (m : Message) (hm : m ∈ ms)
    (k : UInt8) (rest : Bytes) (hd : m.data = 0x43 :: k :: rest) : rest.length ≤ 2 * k.toNat := by
  have hne : p ≠ .unknown := by rintro rfl; simp [Proto.family] at hp
  obtain ⟨t, ht⟩ := C10_has_sender p hne map lines ms h m hm (by rw [hd]; simp)
  obtain ⟨_, d, _, h2⟩ := C10_sound p n hp map lines ms h m hm t ht
  rw [h2] at hd
  match d, hd with
  | a :: k' :: r, hd =>
    simp only [dtcCut] at hd
    split at hd
    · simp only [List.cons.injEq] at hd
      obtain ⟨_, rfl, rfl⟩ := hd
      simp; omega
    · next hne => simp only [List.cons.injEq] at hd; exact absurd hd.1 hne

example : CanLine (.e11 0) (singleFrame [0x43, 0x01, 0x01, 0x33] [0, 0, 0]) "7E8 04 43 01 01 33 00 00 00".toList := by
  unfold CanLine Spells; decide +kernel

end Props
