import Verif.Lemmas.CanCall
import Verif.Spec.Tracking
/-! Reassembly of segmented CAN replies whatever the frames are taken for. -/
namespace Model
open Py Spec

theorem believed_seq (prev i b : Nat) (hb : b % 16 = i % 16) (hw : InWindow prev b) : unwrapSeq prev (i % 16) = b := by
  rw [← hb]; exact unwrapSeq_eq prev b hw

theorem unwrapSeq_window (prev i : Nat) : unwrapSeq prev (i % 16) % 16 = i % 16 ∧ InWindow prev (unwrapSeq prev (i % 16)) := by
  unfold InWindow unwrapSeq
  simp only [Nat.shiftRight_eq_div_pow, Nat.shiftLeft_eq]
  split <;> omega

theorem believedFrom_exists (is : List Nat) : ∀ prev, ∃ bs, BelievedFrom prev is bs := by
  induction is with
  | nil => intro prev; exact ⟨[], trivial⟩
  | cons i is ih =>
    intro prev
    obtain ⟨bs, h⟩ := ih (unwrapSeq prev (i % 16))
    obtain ⟨h1, h2⟩ := unwrapSeq_window prev i
    exact ⟨_ :: bs, h1, h2, h⟩

theorem believed_exists (is : List Nat) : ∃ bs, Believed is bs := by
  cases is with
  | nil => exact ⟨[], trivial⟩
  | cons i is =>
    obtain ⟨bs, h⟩ := believedFrom_exists is (i % 16)
    exact ⟨_ :: bs, rfl, h⟩

theorem believedFrom_unique (is : List Nat) : ∀ prev bs cs, BelievedFrom prev is bs → BelievedFrom prev is cs → bs = cs := by
  induction is with
  | nil => intro prev bs cs h1 h2; cases bs <;> cases cs <;> first | rfl | exact h1.elim | exact h2.elim
  | cons i is ih =>
    intro prev bs cs h1 h2
    cases bs with
    | nil => exact h1.elim
    | cons b bs =>
      cases cs with
      | nil => exact h2.elim
      | cons c cs =>
        obtain ⟨a1, a2, a3⟩ := h1
        obtain ⟨b1, b2, b3⟩ := h2
        have hbc : b = c := by rw [← believed_seq prev i b a1 a2, believed_seq prev i c b1 b2]
        subst hbc
        rw [ih b bs cs a3 b3]

theorem believed_unique {is bs cs : List Nat} (h1 : Believed is bs) (h2 : Believed is cs) : bs = cs := by
  cases is with
  | nil => cases bs <;> cases cs <;> first | rfl | exact h1.elim | exact h2.elim
  | cons i is =>
    cases bs with
    | nil => exact h1.elim
    | cons b bs =>
      cases cs with
      | nil => exact h2.elim
      | cons c cs =>
        obtain ⟨rfl, a3⟩ := h1
        obtain ⟨rfl, b3⟩ := h2
        rw [believedFrom_unique is _ bs cs a3 b3]

theorem believedFrom_self (is : List Nat) : ∀ prev, BelievedFrom prev is is ↔ TrackFrom prev is := by
  induction is with
  | nil => intro prev; exact Iff.rfl
  | cons i is ih => intro prev; simp only [BelievedFrom, TrackFrom, ih, true_and]

/-- The frames are taken for what they are exactly along trackable orders. -/
theorem believed_self (is : List Nat) : Believed is is ↔ Trackable is := by
  cases is with
  | nil => exact Iff.rfl
  | cons i is =>
    simp only [Believed, Trackable, believedFrom_self]
    constructor
    · rintro ⟨h, h2⟩; exact ⟨by omega, h2⟩
    · rintro ⟨h, h2⟩; exact ⟨by omega, h2⟩

theorem believedFrom_length (is : List Nat) : ∀ prev bs, BelievedFrom prev is bs → bs.length = is.length := by
  induction is with
  | nil => intro prev bs h; cases bs <;> first | rfl | exact h.elim
  | cons i is ih =>
    intro prev bs h
    cases bs with
    | nil => exact h.elim
    | cons b bs => simp [ih b bs h.2.2]

theorem believed_length {is bs : List Nat} (h : Believed is bs) : bs.length = is.length := by
  cases is with
  | nil => cases bs <;> first | rfl | exact h.elim
  | cons i is =>
    cases bs with
    | nil => exact h.elim
    | cons b bs => simp [believedFrom_length is _ bs h.2]

/-- A frame with the number it is taken for. -/
def takenFor (z : (Frame × Nat) × Nat) : Frame := { z.1.1 with seqIndex := z.2 }

theorem unwrapFrom_believed (xs : List (Frame × Nat)) : ∀ (prev : Nat) (bs : List Nat),
    (∀ x ∈ xs, x.1.seqIndex = x.2 % 16) → BelievedFrom prev (xs.map Prod.snd) bs →
    unwrapFrom prev (xs.map Prod.fst) = (xs.zip bs).map takenFor := by
  induction xs with
  | nil => intros; rfl
  | cons x xs ih =>
    intro prev bs hx ht
    cases bs with
    | nil => exact ht.elim
    | cons b bs =>
      obtain ⟨h1, h2, h3⟩ := ht
      simp only [List.map_cons, unwrapFrom, List.zip_cons_cons]
      rw [hx x (List.mem_cons_self ..), believed_seq _ _ _ h1 h2, ih _ _ (fun y hy => hx y (List.mem_cons_of_mem _ hy)) h3]
      rfl

theorem unwrapAll_believed (xs : List (Frame × Nat)) (bs : List Nat) (hx : ∀ x ∈ xs, x.1.seqIndex = x.2 % 16)
    (ht : Believed (xs.map Prod.snd) bs) : unwrapAll (xs.map Prod.fst) = (xs.zip bs).map takenFor := by
  cases xs with
  | nil => rfl
  | cons x xs =>
    cases bs with
    | nil => exact ht.elim
    | cons b bs =>
      obtain ⟨h1, h3⟩ := ht
      have h0 : x.1.seqIndex = b := by rw [hx x (List.mem_cons_self ..), h1]
      simp only [List.map_cons, unwrapAll, List.zip_cons_cons]
      rw [h0, unwrapFrom_believed xs _ _ (fun y hy => hx y (List.mem_cons_of_mem _ hy)) h3]
      simp only [List.cons.injEq, and_true]
      rw [takenFor, ← h0]

theorem pairwise_zip_range' (os : List Nat) : ∀ s m, (os.zip (List.range' s m)).Pairwise (fun x y => x.2 < y.2) := by
  induction os with
  | nil => intros; simp
  | cons o os ih =>
    intro s m
    cases m with
    | zero => simp
    | succ m =>
      rw [List.range'_succ, List.zip_cons_cons, List.pairwise_cons]
      refine ⟨?_, ih _ _⟩
      intro y hy
      have := (List.of_mem_zip hy).2
      rw [List.mem_range'_1] at this
      exact this.1

theorem map_zip_snd {α β} (xs : List α) (bs : List β) (h : bs.length = xs.length) : (xs.zip bs).map Prod.snd = bs := by
  rw [List.map_snd_zip (by omega)]

theorem canMulti_believed {payload pad : Bytes} {xs : List (Frame × Nat)} (h : ReplyFrames payload pad xs)
    (bs : List Nat) (ht : Believed ((xs.map Prod.snd).filter (· ≠ 0)) bs) :
    (∀ os : List Nat, (xs.map Prod.snd).count 0 = 1 → os ≠ [] →
      (os.zip (List.range' 1 os.length)).Perm (((xs.map Prod.snd).filter (· ≠ 0)).zip bs) →
      canMulti (xs.map Prod.fst) = some ((payload.take 6 ++ os.flatMap (block payload pad)).take payload.length)) ∧
    (¬ ((xs.map Prod.snd).count 0 = 1 ∧ bs ≠ [] ∧ bs.Perm (List.range' 1 bs.length)) → canMulti (xs.map Prod.fst) = none) := by
  have hcount : (xs.map Prod.snd).count 0 = (xs.filter (fun x => x.2 = 0)).length := by
    rw [List.count, List.countP_map, List.countP_eq_length_filter]
    rfl
  have hcs : (xs.map Prod.snd).filter (· ≠ 0) = (xs.filter (fun x => x.2 ≠ 0)).map Prod.snd := by
    rw [List.filter_map]; rfl
  rw [hcs] at ht ⊢
  rw [hcount]
  unfold canMulti
  simp only [filter_ff h, filter_cf h]
  generalize hcf : xs.filter (fun x => x.2 ≠ 0) = cs at *
  have hcsmem : ∀ x ∈ cs, x ∈ xs ∧ x.2 ≠ 0 := by
    intro x hx
    rw [← hcf] at hx
    simpa using List.mem_filter.1 hx
  have hbl : bs.length = cs.length := by rw [believed_length ht, List.length_map]
  generalize hff : xs.filter (fun x => decide (x.2 = 0)) = ff
  match ff, hff with
  | [], _ => simp
  | a :: b :: l, _ => simp
  | [x], hff =>
    have hx : x ∈ xs ∧ x.2 = 0 := by
      have : x ∈ xs.filter (fun x => decide (x.2 = 0)) := by rw [hff]; exact List.mem_cons_self ..
      simpa using List.mem_filter.1 this
    simp only [List.map_cons, List.map_nil, List.length_cons, List.length_nil, List.length_map]
    have hun := unwrapAll_believed cs bs (fun y hy => h.seq y (hcsmem y hy).1 (hcsmem y hy).2) ht
    rw [hun]
    have hidx : ((cs.zip bs).map takenFor).map Frame.seqIndex = bs := by
      rw [List.map_map]; exact map_zip_snd cs bs hbl
    have hcon := contiguous_sorted ((cs.zip bs).map takenFor)
    have hzl : ((cs.zip bs).map takenFor).length = bs.length := by rw [List.length_map, List.length_zip]; omega
    rw [hidx, hzl] at hcon
    constructor
    · intro os _ hos hperm
      have hol : os.length = cs.length := by
        have := hperm.length_eq
        simp only [List.length_zip, List.length_range', List.length_map] at this
        omega
      have hosl : os.length ≠ 0 := by simpa using hos
      have hbp : bs.Perm (List.range' 1 bs.length) := by
        have := hperm.map Prod.snd
        rw [map_zip_snd _ _ (by simp), map_zip_snd _ _ (by simp [hbl]), hol, ← hbl] at this
        exact this.symm
      rw [if_neg (by omega), if_pos (hcon.2 ⟨by omega, hbp⟩)]
      rw [foldl_data, h.len x hx.1 hx.2, Option.getD_some, h.data x hx.1, hx.2]
      congr 2
      have hfst : (replyFrame payload pad 0).drop 2 = payload.take 6 := by
        simp only [replyFrame, if_true, firstFrame, List.cons_append, List.nil_append, List.drop_succ_cons, List.drop_zero]
      rw [hfst]
      congr 1
      have hzip : (cs.map Prod.snd).zip bs = (cs.zip bs).map (fun z => (z.1.2, z.2)) := by
        rw [List.zip_map_left]; rfl
      rw [sortBy_map]
      have hsrt : (sortBy (fun z => (takenFor z).seqIndex) (cs.zip bs)).map (fun z : (Frame × Nat) × Nat => (z.1.2, z.2))
          = os.zip (List.range' 1 os.length) := by
        have := sortBy_map Prod.snd (fun z : (Frame × Nat) × Nat => (z.1.2, z.2)) (cs.zip bs)
        rw [← hzip] at this
        refine Eq.trans this.symm ?_
        exact sortBy_eq_of_perm Prod.snd hperm.symm (pairwise_zip_range' _ _ _)
      have hos' : os = (sortBy (fun z => (takenFor z).seqIndex) (cs.zip bs)).map (fun z => z.1.2) := by
        have := congrArg (List.map Prod.fst) hsrt
        rw [List.map_fst_zip (by simp), List.map_map] at this
        exact this.symm
      rw [hos', List.flatMap_map, List.flatMap_map]
      have hpt : ∀ z ∈ sortBy (fun z => (takenFor z).seqIndex) (cs.zip bs),
          (takenFor z).data.drop 1 = block payload pad z.1.2 := by
        intro z hz
        rw [mem_sortBy] at hz
        have hy := (List.of_mem_zip hz).1
        obtain ⟨hy1, hy2⟩ := hcsmem z.1 hy
        have hd := h.data z.1 hy1
        simp only [replyFrame, hy2, if_false, consecutiveFrame] at hd
        simp only [takenFor, hd, List.drop_succ_cons, List.drop_zero, block]
      revert hpt
      generalize sortBy (fun z => (takenFor z).seqIndex) (cs.zip bs) = l
      intro hpt
      induction l with
      | nil => rfl
      | cons f l ih =>
        rw [List.flatMap_cons, List.flatMap_cons, hpt f (List.mem_cons_self ..),
          ih (fun g hg => hpt g (List.mem_cons_of_mem _ hg))]
    · intro hneg
      by_cases hc0 : cs.length = 0
      · rw [if_pos hc0]
      · rw [if_neg hc0, if_neg]
        intro hc
        obtain ⟨h1, h2⟩ := hcon.1 hc
        exact hneg ⟨trivial, by intro h0; rw [h0] at h1; simp at h1, h2⟩

theorem canParseMessage_believed {payload pad : Bytes} {xs : List (Frame × Nat)} (h : ReplyFrames payload pad xs)
    (h6 : 6 ≤ payload.length) (hne : xs ≠ []) (bs : List Nat) (ht : Believed ((xs.map Prod.snd).filter (· ≠ 0)) bs) :
    (∀ os : List Nat, (xs.map Prod.snd).count 0 = 1 → os ≠ [] →
      (os.zip (List.range' 1 os.length)).Perm (((xs.map Prod.snd).filter (· ≠ 0)).zip bs) →
      canParseMessage (xs.map Prod.fst)
        = .ok (some (dtcCut ((payload.take 6 ++ os.flatMap (block payload pad)).take payload.length)))) ∧
    (¬ ((xs.map Prod.snd).count 0 = 1 ∧ bs ≠ [] ∧ bs.Perm (List.range' 1 bs.length)) → canParseMessage (xs.map Prod.fst) = .ok none) := by
  have hm := canMulti_believed h bs ht
  match xs, hne with
  | [x], _ =>
    have hty := h.ty x (List.mem_cons_self ..)
    have hbl := believed_length ht
    constructor
    · intro os h1 h2 h3
      exfalso
      have hl := h3.length_eq
      have hosl : os.length ≠ 0 := by simpa using h2
      by_cases hx : x.2 = 0
      · simp [hx] at hl; exact hosl (by simp [hl])
      · simp [hx] at h1
    · intro _
      simp only [List.map_cons, List.map_nil, canParseMessage, hty]
      by_cases hx : x.2 = 0 <;> simp [hx, frameTypeFF, frameTypeSF, frameTypeCF] <;> rfl
  | x :: y :: xs, _ =>
    have hdef : ∀ a b l, canParseMessage (a :: b :: l) =
      match canMulti (a :: b :: l) with
      | none => .ok none
      | some data => (canTrimDtc data).map some := by
      intro a b l
      simp only [canParseMessage, bind, Except.bind, pure, Except.pure]
      cases canMulti (a :: b :: l) with
      | none => rfl
      | some d => simp only; cases canTrimDtc d <;> rfl
    simp only [List.map_cons] at hm ⊢
    rw [hdef]
    constructor
    · intro os h1 h2 h3
      rw [hm.1 os h1 h2 h3]
      simp only
      rw [canTrimDtc_eq _ (by simp; omega)]
      rfl
    · intro hc
      rw [hm.2 hc]

/-- The parse of whatever was received of a segmented reply, in any order. -/
theorem call_believed {e : Sender} {p : Proto} (hp : e.On p) (map : Dict (Option Nat) Nat)
    {payload pad : Bytes} (hseg : Segmentable payload pad) {recvd : List (Str × Nat)}
    (hr : Received e payload pad recvd) (bs : List Nat) (ht : Believed ((recvd.map Prod.snd).filter (· ≠ 0)) bs) :
    (∀ os : List Nat, (recvd.map Prod.snd).count 0 = 1 → os ≠ [] →
      (os.zip (List.range' 1 os.length)).Perm (((recvd.map Prod.snd).filter (· ≠ 0)).zip bs) →
      ∃ m, p.call map (recvd.map Prod.fst) = .ok [m] ∧ m.txId = some e.ecu ∧
        m.data = dtcCut ((payload.take 6 ++ os.flatMap (block payload pad)).take payload.length)) ∧
    (¬ ((recvd.map Prod.snd).count 0 = 1 ∧ bs ≠ [] ∧ bs.Perm (List.range' 1 bs.length)) →
      p.call map (recvd.map Prod.fst) = .ok []) := by
  obtain ⟨xs, h1, h2, h3, h4, h5⟩ := received_frames hp hseg hr
  obtain ⟨n, hn⟩ := on_family hp
  have h6 : 6 ≤ payload.length := by have := hseg.min; omega
  cases xs with
  | nil =>
    have : recvd = [] := by simpa using h2.symm
    subst this
    refine ⟨fun os hc => ?_, fun _ => rfl⟩
    simp at hc
  | cons x xs =>
    have hall : ∀ f ∈ framesOf p (recvd.map Prod.fst), f.txId = some e.ecu := by
      rw [h1]
      intro f hf
      obtain ⟨y, hy, rfl⟩ := List.mem_map.1 hf
      exact h4 y hy
    have hne : framesOf p (recvd.map Prod.fst) ≠ [] := by rw [h1]; simp
    have hpm := canParseMessage_believed h3 h6 (by simp) bs (by rw [h2]; exact ht)
    rw [h2, ← h1, ← parseMessage_can hn] at hpm
    constructor
    · intro os a1 a2 a3
      have := call_single p map _ _ hall h5 _ hne (hpm.1 os a1 a2 a3)
      refine ⟨_, this, ?_, rfl⟩
      apply ecuMessage_txId
      rw [fromTx_all _ _ hall]; exact hne
    · intro hc
      exact call_single p map _ _ hall h5 _ hne (hpm.2 hc)

end Model
