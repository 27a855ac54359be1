import Verif.Lemmas.Can
/-! Reassembly of segmented CAN replies. -/
namespace Model
open Py Spec

theorem unwrapSeq_eq (prev i : Nat) (h : InWindow prev i) : unwrapSeq prev (i % 16) = i := by
  unfold InWindow at h
  unfold unwrapSeq
  simp only [Nat.shiftRight_eq_div_pow, Nat.shiftLeft_eq]
  split <;> omega

/-- A frame with its true number. -/
def renumber (x : Frame × Nat) : Frame := { x.1 with seqIndex := x.2 }

theorem unwrapFrom_eq (xs : List (Frame × Nat)) : ∀ (prev : Nat),
    (∀ x ∈ xs, x.1.seqIndex = x.2 % 16) → TrackFrom prev (xs.map Prod.snd) →
    unwrapFrom prev (xs.map Prod.fst) = xs.map renumber := by
  induction xs with
  | nil => intros; rfl
  | cons x xs ih =>
    intro prev hx ht
    simp only [List.map_cons, TrackFrom] at ht
    simp only [List.map_cons, unwrapFrom]
    rw [hx x (List.mem_cons_self ..), unwrapSeq_eq _ _ ht.1,
      ih _ (fun y hy => hx y (List.mem_cons_of_mem _ hy)) ht.2]
    rfl

theorem unwrapAll_eq (xs : List (Frame × Nat)) (hx : ∀ x ∈ xs, x.1.seqIndex = x.2 % 16)
    (ht : Trackable (xs.map Prod.snd)) : unwrapAll (xs.map Prod.fst) = xs.map renumber := by
  cases xs with
  | nil => rfl
  | cons x xs =>
    simp only [List.map_cons, Trackable] at ht
    have h0 : x.1.seqIndex = x.2 := by rw [hx x (List.mem_cons_self ..)]; omega
    simp only [List.map_cons, unwrapAll]
    rw [h0, unwrapFrom_eq xs _ (fun y hy => hx y (List.mem_cons_of_mem _ hy)) ht.2]
    simp only [List.cons.injEq, and_true]
    rw [renumber, ← h0]

theorem contiguous_range' (l : List Nat) (m : Nat) :
    contiguous l 1 m = true ↔ l = List.range' 1 m ∧ 1 ≤ m := by
  rw [contiguous_iff]
  constructor
  · rintro ⟨n, rfl, rfl⟩
    refine ⟨?_, by omega⟩
    rw [List.range'_eq_map_range, Nat.add_comm]
  · rintro ⟨rfl, h⟩
    refine ⟨m - 1, ?_, by omega⟩
    rw [List.range'_eq_map_range, show m - 1 + 1 = m by omega]

theorem range'_lt (s m : Nat) : (List.range' s m).Pairwise (fun x y => x < y) := by
  exact List.pairwise_lt_range'

theorem sortBy_seq (fs : List Frame) :
    (sortBy Frame.seqIndex fs).map Frame.seqIndex = sortBy id (fs.map Frame.seqIndex) := by
  rw [sortBy_map]; rfl

theorem contiguous_sorted (fs : List Frame) :
    contiguous ((sortBy Frame.seqIndex fs).map Frame.seqIndex) 1 (sortBy Frame.seqIndex fs).length = true ↔
      1 ≤ fs.length ∧ (fs.map Frame.seqIndex).Perm (List.range' 1 fs.length) := by
  rw [contiguous_range', sortBy_seq, (sortBy_perm _ _).length_eq]
  constructor
  · rintro ⟨h, h1⟩
    exact ⟨h1, h ▸ (sortBy_perm id _).symm⟩
  · rintro ⟨h1, h⟩
    exact ⟨sortBy_eq_of_perm id h (range'_lt _ _), h1⟩

theorem chunks_eq (q : Bytes) (m : Nat) :
    (List.range' 1 m).flatMap (fun i => (q.drop (6 + 7 * (i - 1))).take 7) = (q.drop 6).take (7 * m) := by
  induction m with
  | zero => simp
  | succ m ih =>
    rw [List.range'_concat, List.flatMap_append, ih]
    simp only [List.flatMap_cons, List.flatMap_nil, List.append_nil]
    rw [show 6 + 7 * (1 + 1 * m - 1) = 6 + 7 * m by omega, show 7 * (m + 1) = 7 * m + 7 by omega,
      List.take_add, List.drop_drop]

theorem foldl_data (fs : List Frame) (a : Bytes) :
    fs.foldl (fun acc f => acc ++ f.data.drop 1) a = a ++ fs.flatMap (fun f => f.data.drop 1) := by
  induction fs generalizing a with
  | nil => simp
  | cons f fs ih => rw [List.foldl_cons, ih, List.flatMap_cons, List.append_assoc]

/-- What is known of the frames received from one ECU that sends a segmented reply. -/
structure ReplyFrames (payload pad : Bytes) (xs : List (Frame × Nat)) : Prop where
  data : ∀ x ∈ xs, x.1.data = replyFrame payload pad x.2
  ty : ∀ x ∈ xs, x.1.type = some (if x.2 = 0 then frameTypeFF else frameTypeCF)
  len : ∀ x ∈ xs, x.2 = 0 → x.1.dataLen = some payload.length
  seq : ∀ x ∈ xs, x.2 ≠ 0 → x.1.seqIndex = x.2 % 16

theorem filter_ff {payload pad : Bytes} {xs : List (Frame × Nat)} (h : ReplyFrames payload pad xs) :
    (xs.map Prod.fst).filter (fun f => f.type == some frameTypeFF)
      = (xs.filter (fun x => x.2 = 0)).map Prod.fst := by
  rw [List.filter_map]
  congr 1
  apply List.filter_congr
  intro x hx
  simp only [Function.comp, h.ty x hx]
  by_cases h0 : x.2 = 0 <;> simp [h0, frameTypeFF, frameTypeCF]

theorem filter_cf {payload pad : Bytes} {xs : List (Frame × Nat)} (h : ReplyFrames payload pad xs) :
    (xs.map Prod.fst).filter (fun f => f.type == some frameTypeCF)
      = (xs.filter (fun x => x.2 ≠ 0)).map Prod.fst := by
  rw [List.filter_map]
  congr 1
  apply List.filter_congr
  intro x hx
  simp only [Function.comp, h.ty x hx]
  by_cases h0 : x.2 = 0 <;> simp [h0, frameTypeFF, frameTypeCF]

theorem take_glue (payload pad : Bytes) (k : Nat) (h6 : 6 ≤ payload.length) :
    (payload.take 6 ++ ((payload ++ pad).drop 6).take k).take payload.length = payload.take (6 + k) := by
  have h1 : payload.take 6 = (payload ++ pad).take 6 := by
    rw [List.take_append_of_le_length h6]
  rw [h1, ← List.take_add, List.take_take, Nat.min_comm, ← List.take_take,
    List.take_append_of_le_length (Nat.le_refl _), List.take_length]

theorem canMulti_reply {payload pad : Bytes} {xs : List (Frame × Nat)} (h : ReplyFrames payload pad xs)
    (h6 : 6 ≤ payload.length)
    (ht : Trackable ((xs.map Prod.snd).filter (· ≠ 0))) :
    (Complete (xs.map Prod.snd) → canMulti (xs.map Prod.fst)
      = some (payload.take (6 + 7 * ((xs.map Prod.snd).filter (· ≠ 0)).length))) ∧
    (¬ Complete (xs.map Prod.snd) → canMulti (xs.map Prod.fst) = none) := by
  have hcount : (xs.map Prod.snd).count 0 = (xs.filter (fun x => x.2 = 0)).length := by
    rw [List.count, List.countP_map, List.countP_eq_length_filter]
    rfl
  have hcs : (xs.map Prod.snd).filter (· ≠ 0) = (xs.filter (fun x => x.2 ≠ 0)).map Prod.snd := by
    rw [List.filter_map]; rfl
  have hcslen : ((xs.map Prod.snd).filter (· ≠ 0)).length = (xs.filter (fun x => x.2 ≠ 0)).length := by
    rw [hcs, List.length_map]
  rw [hcs] at ht
  unfold Complete
  rw [hcount, hcslen, hcs]
  unfold canMulti
  simp only [filter_ff h, filter_cf h]
  generalize hcf : xs.filter (fun x => x.2 ≠ 0) = cs at *
  have hcsmem : ∀ x ∈ cs, x ∈ xs ∧ x.2 ≠ 0 := by
    intro x hx
    rw [← hcf] at hx
    simpa using List.mem_filter.1 hx
  generalize hff : xs.filter (fun x => decide (x.2 = 0)) = ff
  match ff, hff with
  | [], _ => simp
  | a :: b :: l, _ => simp
  | [x], hff =>
    have hx : x ∈ xs ∧ x.2 = 0 := by
      have : x ∈ xs.filter (fun x => decide (x.2 = 0)) := by rw [hff]; exact List.mem_cons_self ..
      simpa using List.mem_filter.1 this
    simp only [List.map_cons, List.map_nil, List.length_cons, List.length_nil, List.length_map]
    have hun := unwrapAll_eq cs (fun y hy => h.seq y (hcsmem y hy).1 (hcsmem y hy).2) ht
    rw [hun]
    have hidx : (cs.map renumber).map Frame.seqIndex = cs.map Prod.snd := by
      rw [List.map_map]; rfl
    have hcon := contiguous_sorted (cs.map renumber)
    rw [hidx, List.length_map] at hcon
    by_cases hc0 : cs.length = 0
    · rw [if_pos hc0]
      constructor
      · rintro ⟨_, h1, _⟩; omega
      · intro _; rfl
    · rw [if_neg hc0]
      by_cases hperm : (cs.map Prod.snd).Perm (List.range' 1 cs.length)
      · rw [if_pos (hcon.2 ⟨by omega, hperm⟩)]
        constructor
        · intro _
          rw [foldl_data, h.len x hx.1 hx.2, Option.getD_some, h.data x hx.1, hx.2]
          have hsorted : (sortBy Frame.seqIndex (cs.map renumber)).map Frame.seqIndex
              = List.range' 1 cs.length := by
            rw [sortBy_seq, hidx]
            exact sortBy_eq_of_perm id hperm (range'_lt _ _)
          have hdata : (sortBy Frame.seqIndex (cs.map renumber)).flatMap (fun f => f.data.drop 1)
              = ((payload ++ pad).drop 6).take (7 * cs.length) := by
            rw [← chunks_eq, ← hsorted, List.flatMap_map]
            have hpt : ∀ f ∈ sortBy Frame.seqIndex (cs.map renumber),
                f.data.drop 1 = ((payload ++ pad).drop (6 + 7 * (f.seqIndex - 1))).take 7 := by
              intro f hf
              rw [mem_sortBy] at hf
              obtain ⟨y, hy, rfl⟩ := List.mem_map.1 hf
              obtain ⟨hy1, hy2⟩ := hcsmem y hy
              have hd := h.data y hy1
              simp only [replyFrame, hy2, if_false, consecutiveFrame] at hd
              simp only [renumber, hd, List.drop_succ_cons, List.drop_zero]
            clear hsorted
            revert hpt
            generalize sortBy Frame.seqIndex (cs.map renumber) = l
            intro hpt
            induction l with
            | nil => rfl
            | cons f l ih =>
              rw [List.flatMap_cons, List.flatMap_cons, hpt f (List.mem_cons_self ..),
                ih (fun g hg => hpt g (List.mem_cons_of_mem _ hg))]
          rw [hdata]
          simp only [replyFrame, if_true, firstFrame, List.cons_append, List.nil_append,
            List.drop_succ_cons, List.drop_zero]
          rw [take_glue payload pad _ h6]
        · intro hneg
          exact absurd ⟨by simp, by omega, hperm⟩ hneg
      · rw [if_neg (fun hc => hperm (hcon.1 hc).2)]
        constructor
        · rintro ⟨_, _, h3⟩; exact absurd h3 hperm
        · intro _; rfl

theorem canTrimDtc_eq (d : Bytes) (h : 2 ≤ d.length) : canTrimDtc d = .ok (dtcCut d) := by
  match d, h with
  | a :: k :: rest, _ =>
    simp only [canTrimDtc, idx, List.getElem?_cons_zero, List.getElem?_cons_succ, bind, Except.bind,
      pure, Except.pure, dtcCut]
    split
    · congr 1
      simp [Nat.mul_comm]
    · rfl

theorem canParseMessage_reply {payload pad : Bytes} {xs : List (Frame × Nat)}
    (h : ReplyFrames payload pad xs) (h6 : 6 ≤ payload.length) (hne : xs ≠ [])
    (ht : Trackable ((xs.map Prod.snd).filter (· ≠ 0))) :
    (Complete (xs.map Prod.snd) → canParseMessage (xs.map Prod.fst)
      = .ok (some (dtcCut (payload.take (6 + 7 * ((xs.map Prod.snd).filter (· ≠ 0)).length))))) ∧
    (¬ Complete (xs.map Prod.snd) → canParseMessage (xs.map Prod.fst) = .ok none) := by
  have hm := canMulti_reply h h6 ht
  match xs, hne with
  | [x], _ =>
    have hty := h.ty x (List.mem_cons_self ..)
    have hnc : ¬ Complete ([x].map Prod.snd) := by
      rintro ⟨h1, h2, _⟩
      by_cases hx : x.2 = 0 <;> simp [hx] at h1 h2
    refine ⟨fun hc => absurd hc hnc, fun _ => ?_⟩
    simp only [List.map_cons, List.map_nil, canParseMessage, hty]
    by_cases hx : x.2 = 0 <;> simp [hx, frameTypeFF, frameTypeSF, frameTypeCF] <;> rfl
  | x :: y :: xs, _ =>
    have hdef : ∀ a b l, canParseMessage (a :: b :: l) =
      match canMulti (a :: b :: l) with
      | none => .ok none
      | some data => (canTrimDtc data).map some := by
      intro a b l
      simp only [canParseMessage, bind, Except.bind, pure, Except.pure]
      cases canMulti (a :: b :: l) with
      | none => rfl
      | some d => simp only; cases canTrimDtc d <;> rfl
    simp only [List.map_cons] at hm ⊢
    rw [hdef]
    constructor
    · intro hc
      rw [hm.1 hc]
      simp only
      rw [canTrimDtc_eq _ (by simp; omega)]
      rfl
    · intro hc
      rw [hm.2 hc]

end Model
