import Verif.Lemmas.Tracking
import Verif.Props.Can
/-!
# C08, C09: what becomes of a segmented reply for every arrival order, loss and repetition
-/
namespace Props
open Py Spec Model

/-- The frames in the order of the numbers they are taken for. -/
theorem arrangement_exists {cs bs : List Nat} (h : Believed cs bs) (hp : bs.Perm (List.range' 1 bs.length)) :
    ∃ os : List Nat, os.length = bs.length ∧ (os.zip (List.range' 1 os.length)).Perm (cs.zip bs) := by
  have hl := believed_length h
  refine ⟨(sortBy Prod.snd (cs.zip bs)).map Prod.fst, by simp [hl], ?_⟩
  have h2 : (sortBy Prod.snd (cs.zip bs)).map Prod.snd = List.range' 1 bs.length := by
    have := sortBy_map id (Prod.snd : Nat × Nat → Nat) (cs.zip bs)
    rw [map_zip_snd _ _ hl, sortBy_eq_of_perm id hp (range'_lt _ _)] at this
    exact this.symm
  have h3 : ((sortBy Prod.snd (cs.zip bs)).map Prod.fst).length = bs.length := by simp [hl]
  rw [h3, ← h2]
  have : ((sortBy Prod.snd (cs.zip bs)).map Prod.fst).zip ((sortBy Prod.snd (cs.zip bs)).map Prod.snd)
      = sortBy Prod.snd (cs.zip bs) := by rw [List.zip_map']; exact List.map_id _
  rw [this]
  exact sortBy_perm _ _

/-- C09, the outcome in every case: whatever lines of a segmented reply were received, in any order and with any
repetitions, let `bs` be the numbers for which the consecutive frames are taken.  If the first frame was received
once and `bs` is 1, ..., m in some order, the frames are put in that order, and the data is what they carry in it, up to the announced
length (cut as in C15); otherwise nothing is delivered. -/
theorem C09_outcome (p : Proto) (e : Sender) (hp : e.On p) (map : Dict (Option Nat) Nat)
    (payload pad : Bytes) (hseg : Segmentable payload pad) (recvd : List (Str × Nat))
    (hr : Received e payload pad recvd) (bs : List Nat) (hb : Believed ((recvd.map Prod.snd).filter (· ≠ 0)) bs) :
    ((recvd.map Prod.snd).count 0 = 1 ∧ bs ≠ [] ∧ bs.Perm (List.range' 1 bs.length) →
      ∃ (os : List Nat) (m : Message), (os.zip (List.range' 1 os.length)).Perm (((recvd.map Prod.snd).filter (· ≠ 0)).zip bs) ∧
        p.call map (recvd.map Prod.fst) = .ok [m] ∧ m.txId = some e.ecu ∧
        m.data = dtcCut ((payload.take 6 ++ os.flatMap (block payload pad)).take payload.length)) ∧
    (¬ ((recvd.map Prod.snd).count 0 = 1 ∧ bs ≠ [] ∧ bs.Perm (List.range' 1 bs.length)) →
      p.call map (recvd.map Prod.fst) = .ok []) := by
  have h := call_believed hp map hseg hr bs hb
  refine ⟨?_, h.2⟩
  rintro ⟨h1, h2, h3⟩
  obtain ⟨os, hl, hos⟩ := arrangement_exists hb h3
  have hne : os ≠ [] := by rintro rfl; simp at hl; exact h2 (List.length_eq_zero_iff.1 hl.symm)
  obtain ⟨m, a, b, c⟩ := h.1 os h1 hne hos
  exact ⟨os, m, hos, a, b, c⟩

/-- There always is exactly one such `bs`. -/
theorem C09_outcome_total (is : List Nat) : ∃ bs, Believed is bs ∧ ∀ cs, Believed is cs → cs = bs := by
  obtain ⟨bs, h⟩ := believed_exists is
  exact ⟨bs, h, fun cs hc => believed_unique hc h⟩

theorem flatMap_blocks {f : Nat → Bytes} (os : List Nat) (h : ∀ o ∈ os, (f o).length = 7) (k r : Nat) (hr : r < 7) :
    (os.flatMap f)[7 * k + r]? = (os[k]?).bind (fun o => (f o)[r]?) := by
  induction os generalizing k with
  | nil => simp
  | cons o os ih =>
    have ho := h o (List.mem_cons_self ..)
    rw [List.flatMap_cons]
    cases k with
    | zero => rw [List.getElem?_append_left (by omega)]; simp
    | succ k =>
      rw [List.getElem?_append_right (by omega), ho, show 7 * (k + 1) + r - 7 = 7 * k + r by omega,
        ih (fun x hx => h x (List.mem_cons_of_mem _ hx))]
      simp

/-- `n` bytes, all zero but the one at `i`. -/
def mark (n i : Nat) : Bytes := (List.replicate n (0 : UInt8)).set i 1

theorem mark_get (n i k : Nat) (hk : k < n) : (mark n i)[k]? = some (if i = k then 1 else 0) := by
  unfold mark
  rw [List.getElem?_set]
  split
  · next h => subst h; simp [hk]
  · simp [hk]

theorem mark_append (n i k : Nat) (hi : i < n) : mark n i ++ List.replicate k (0 : UInt8) = mark (n + k) i := by
  unfold mark
  rw [← List.set_append_left _ _ (by simpa using hi), List.replicate_append_replicate]

/-- C08, exactly which arrival orders are harmless: for payloads of a given length (of which not mode 03), all
frames of which arrive once in the order `order`, the reply is reassembled whatever its contents if and only if
the numbers can be told from their last four bits along that order. -/
theorem C08_exactly (p : Proto) (e : Sender) (hp : e.On p) (map : Dict (Option Nat) Nat) (len : Nat) (h8 : 8 ≤ len)
    (hmax : len ≤ 4095) (order : List Nat) (hperm : order.Perm (List.range ((len - 6 + 6) / 7 + 1))) :
    (∀ payload pad recvd, payload.length = len → Segmentable payload pad → payload.head? ≠ some 0x43 →
      Received e payload pad recvd → recvd.map Prod.snd = order →
      ∃ m, p.call map (recvd.map Prod.fst) = .ok [m] ∧ m.data = payload) ↔
    Trackable (order.filter (· ≠ 0)) := by
  constructor
  · intro H
    obtain ⟨bs, hb⟩ := believed_exists (order.filter (· ≠ 0))
    by_cases hid : bs = order.filter (· ≠ 0)
    · rw [hid] at hb; exact (believed_self _).1 hb
    exfalso
    have hn : 1 ≤ (len - 6 + 6) / 7 := by omega
    obtain ⟨hc, hcl⟩ := complete_of_perm hn hperm
    -- what happens to a marked payload
    have key : ∀ i, 1 ≤ i → i < len → ∃ m, p.call map ((order.map (fun k =>
          (canText e (replyFrame (mark len i) (List.replicate (6 + 7 * ((len - 6 + 6) / 7) - len) 0) k), k))).map Prod.fst)
            = .ok [m] ∧ m.data = mark len i := by
      intro i hi1 hil
      have hml : (mark len i).length = len := by simp [mark]
      have hcc : consecutiveCount (mark len i) = (len - 6 + 6) / 7 := by unfold consecutiveCount; rw [hml]
      apply H _ (List.replicate (6 + 7 * ((len - 6 + 6) / 7) - len) 0) _ hml
      · exact ⟨by omega, by omega, by rw [hcc, hml, List.length_replicate]; omega⟩
      · rw [List.head?_eq_getElem?, mark_get len i 0 (by omega), if_neg (by omega)]; decide
      · apply received_text
        intro k hk
        rw [hperm.mem_iff, List.mem_range] at hk
        omega
      · rw [List.map_map]; exact List.map_id' _
    have hrec : ∀ i, 1 ≤ i → i < len → Received e (mark len i) (List.replicate (6 + 7 * ((len - 6 + 6) / 7) - len) 0)
        (order.map (fun k => (canText e (replyFrame (mark len i) (List.replicate (6 + 7 * ((len - 6 + 6) / 7) - len) 0) k), k))) := by
      intro i _ hil
      apply received_text
      intro k hk
      have hml : (mark len i).length = len := by simp [mark]
      rw [hperm.mem_iff, List.mem_range] at hk
      unfold consecutiveCount
      rw [hml]; omega
    have hsnd : ∀ i, (order.map (fun k => (canText e (replyFrame (mark len i) (List.replicate (6 + 7 * ((len - 6 + 6) / 7) - len) 0) k), k))).map
        Prod.snd = order := by
      intro i; rw [List.map_map]; exact List.map_id' _
    have hseg : ∀ i, Segmentable (mark len i) (List.replicate (6 + 7 * ((len - 6 + 6) / 7) - len) 0) := by
      intro i
      have hml : (mark len i).length = len := by simp [mark]
      exact ⟨by omega, by omega, by unfold consecutiveCount; rw [hml, List.length_replicate]; omega⟩
    by_cases hbp : bs.Perm (List.range' 1 bs.length)
    · obtain ⟨os, hol, hos⟩ := arrangement_exists hb hbp
      have hbl := believed_length hb
      have hon : os.length = (len - 6 + 6) / 7 := by omega
      -- the arrangement is not the identity
      have hmis : ∃ k j, os[k]? = some j ∧ j ≠ k + 1 := by
        apply Classical.byContradiction
        intro hall
        apply hid
        have hosr : os = List.range' 1 os.length := by
          apply List.ext_getElem?
          intro k
          by_cases hk : k < os.length
          · obtain ⟨j, hj⟩ : ∃ j, os[k]? = some j := ⟨os[k], List.getElem?_eq_getElem hk⟩
            have : j = k + 1 := Classical.byContradiction (fun h => hall ⟨k, j, hj, h⟩)
            rw [hj, this, List.getElem?_range' hk]
            congr 1; omega
          · rw [List.getElem?_eq_none (by omega), List.getElem?_eq_none (by simp; omega)]
        have hmem : ∀ z ∈ (order.filter (· ≠ 0)).zip bs, z.1 = z.2 := by
          intro z hz
          rw [← hos.mem_iff, ← hosr] at hz
          obtain ⟨k, hk, rfl⟩ := List.mem_iff_getElem.1 hz
          simp
        apply List.ext_getElem (by omega)
        intro k h1 h2
        have := hmem ((order.filter (· ≠ 0))[k], bs[k]) (by
          rw [List.mem_iff_getElem]
          exact ⟨k, by rw [List.length_zip]; omega, by rw [List.getElem_zip]⟩)
        exact this.symm
      obtain ⟨k, j, hkj, hne⟩ := hmis
      have hkl : k < os.length := (List.getElem?_eq_some_iff.1 hkj).1
      have hjm : j ∈ order.filter (· ≠ 0) := by
        have : (j, k + 1) ∈ os.zip (List.range' 1 os.length) := by
          rw [List.mem_iff_getElem]
          refine ⟨k, by simp; omega, ?_⟩
          obtain ⟨_, h⟩ := List.getElem?_eq_some_iff.1 hkj
          simp [h]; omega
        rw [hos.mem_iff] at this
        exact (List.of_mem_zip this).1
      have hosmem : ∀ o ∈ os, 1 ≤ o ∧ o ≤ (len - 6 + 6) / 7 := by
        intro o ho
        obtain ⟨i, hi, rfl⟩ := List.mem_iff_getElem.1 ho
        have : (os[i], i + 1) ∈ os.zip (List.range' 1 os.length) := by
          rw [List.mem_iff_getElem]
          refine ⟨i, by simp; omega, ?_⟩
          simp; omega
        rw [hos.mem_iff] at this
        have := (List.of_mem_zip this).1
        rw [List.mem_filter, hperm.mem_iff, List.mem_range] at this
        have h2 : ¬ os[i] = 0 := by simpa using this.2
        omega
      have hj := hosmem j (List.mem_of_getElem? hkj)
      have hil : 6 + 7 * (j - 1) < len := by omega
      obtain ⟨m, hm1, hm2⟩ := key (6 + 7 * (j - 1)) (by omega) hil
      have hcall := (call_believed hp map (hseg _) (hrec (6 + 7 * (j - 1)) (by omega) hil) bs (by rw [hsnd]; exact hb)).1 os
        (by rw [hsnd]; exact hc.1) (by rintro rfl; simp at hkl) (by rw [hsnd]; exact hos)
      obtain ⟨m', hm1', _, hm2'⟩ := hcall
      rw [hm1] at hm1'
      simp only [Except.ok.injEq, List.cons.injEq, and_true] at hm1'
      subst hm1'
      rw [hm2] at hm2'
      have hml : (mark len (6 + 7 * (j - 1))).length = len := by simp [mark]
      generalize hpadd : List.replicate (6 + 7 * ((len - 6 + 6) / 7) - len) (0 : UInt8) = pad at *
      have happ : mark len (6 + 7 * (j - 1)) ++ pad = mark (6 + 7 * ((len - 6 + 6) / 7)) (6 + 7 * (j - 1)) := by
        rw [← hpadd, mark_append _ _ _ hil]
        congr 1; omega
      have hblk : ∀ o ∈ os, (block (mark len (6 + 7 * (j - 1))) pad o).length = 7 := by
        intro o ho
        have := hosmem o ho
        unfold block
        rw [happ]
        simp [mark]
        omega
      rw [dtcCut_not43 (by
        rw [List.head?_eq_getElem?, List.getElem?_take_of_lt (by omega), List.getElem?_append_left (by simp [mark]; omega),
          List.getElem?_take_of_lt (by omega), mark_get _ _ _ (by omega), if_neg (by omega)]
        decide)] at hm2'
      have hget := congrArg (fun l : Bytes => l[6 + 7 * k]?) hm2'
      rw [mark_get _ _ _ (by omega), if_neg (by omega), hml, List.getElem?_take_of_lt (by omega),
        List.getElem?_append_right (by simp [mark]; omega)] at hget
      have h66 : 6 + 7 * k - ((mark len (6 + 7 * (j - 1))).take 6).length = 7 * k + 0 := by simp [mark]; omega
      rw [h66, flatMap_blocks os hblk k 0 (by omega), hkj] at hget
      simp only [Option.bind_some, block, happ] at hget
      rw [List.getElem?_take_of_lt (by omega), List.getElem?_drop, Nat.add_zero, mark_get _ _ _ (by omega), if_pos (by omega)] at hget
      simp at hget
    · obtain ⟨m, hm1, _⟩ := key 1 (by omega) (by omega)
      have := (call_believed hp map (hseg 1) (hrec 1 (by omega) (by omega)) bs (by rw [hsnd]; exact hb)).2
        (fun h => hbp h.2.2)
      rw [this] at hm1
      simp at hm1
  · intro ht payload pad recvd hlen hseg h43 hr hord
    have hcc : consecutiveCount payload = (len - 6 + 6) / 7 := by unfold consecutiveCount; rw [hlen]
    obtain ⟨m, h1, _, h3⟩ := C08_trackable_order_partial p e hp map payload pad hseg h43 recvd hr (by rw [hord, hcc]; exact hperm)
      (by rw [hord]; exact ht)
    exact ⟨m, h1, h3⟩

/-- Both sides occur: 118 bytes in order, and with the last two frames swapped. -/
example : Trackable ((List.range 17).filter (· ≠ 0)) ∧ ¬ Trackable (swapped.filter (· ≠ 0)) := by
  constructor
  · rw [filter_range]; exact trackable_range' 16
  · have h : swapped.filter (· ≠ 0) = List.range' 1 14 ++ [16, 15] := by decide
    rw [h]
    simp [List.range', Trackable, TrackFrom, InWindow]

/-- 125 different bytes: 17 consecutive frames. -/
def payload125 : Bytes := (List.range 125).map UInt8.ofNat

/-- Consecutive frames 1 and 17, which have the same last four bits, in each other's place. -/
def exchanged : List Nat := [0, 17] ++ List.range' 2 15 ++ [1]

/-- They are taken for each other. -/
example : Believed (exchanged.filter (· ≠ 0)) (List.range' 1 17) := by
  have h : exchanged.filter (· ≠ 0) = [17] ++ List.range' 2 15 ++ [1] := by decide
  rw [h]
  simp [List.range', Believed, BelievedFrom, InWindow]

/-- C08 is false of the code in a second way: a reply whose first and last consecutive frames are exchanged is not lost but
delivered with its bytes in the wrong order. -/
theorem C08_refuted_corrupt :
    Received (.e11 0) payload125 [] (exchanged.map (fun i => (canText (.e11 0) (replyFrame payload125 [] i), i))) ∧
    exchanged.Perm (List.range (consecutiveCount payload125 + 1)) ∧
    ∃ m, Proto.can11_500.call [] (exchanged.map (fun i => canText (.e11 0) (replyFrame payload125 [] i))) = .ok [m] ∧
      m.data.length = payload125.length ∧ m.data ≠ payload125 := by
  refine ⟨received_text _ _ _ _ (by decide +kernel), by decide +kernel, ?_⟩
  obtain ⟨m, h1, h2⟩ := map_eq_single
    (Proto.can11_500.call [] (exchanged.map (fun i => canText (.e11 0) (replyFrame payload125 [] i))))
    Message.data (payload125.take 6 ++ payload125.drop 118 ++ (payload125.drop 13).take 105 ++ (payload125.drop 6).take 7) (by decide +kernel)
  refine ⟨m, h1, ?_, ?_⟩ <;> rw [h2] <;> decide +kernel

end Props
