import Verif.Lemmas.CanCall
/-! Soundness of CAN reassembly: a delivered message is explained by its frames. -/
namespace Model
open Py Spec

theorem unwrapSeq_mod (prev curr : Nat) : unwrapSeq prev curr % 16 = curr % 16 := by
  unfold unwrapSeq
  simp only [Nat.shiftRight_eq_div_pow, Nat.shiftLeft_eq]
  split <;> omega

/-- Same payload, sequence numbers equal modulo 16. -/
def SameCf (f g : Frame) : Prop := f.data = g.data ∧ f.seqIndex % 16 = g.seqIndex % 16

theorem unwrapFrom_data (prev : Nat) (fs : List Frame) :
    (unwrapFrom prev fs).map Frame.data = fs.map Frame.data := by
  induction fs generalizing prev with
  | nil => rfl
  | cons f fs ih => simp [unwrapFrom, ih]

theorem unwrapAll_data (fs : List Frame) : (unwrapAll fs).map Frame.data = fs.map Frame.data := by
  cases fs with
  | nil => rfl
  | cons f fs => simp [unwrapAll, unwrapFrom_data]

theorem unwrapFrom_mem (prev : Nat) (fs : List Frame) :
    ∀ g ∈ unwrapFrom prev fs, ∃ f ∈ fs, SameCf g f := by
  induction fs generalizing prev with
  | nil => simp [unwrapFrom]
  | cons f fs ih =>
    intro g hg
    simp only [unwrapFrom, List.mem_cons] at hg
    rcases hg with rfl | hg
    · exact ⟨f, List.mem_cons_self .., rfl, unwrapSeq_mod _ _⟩
    · obtain ⟨f', h1, h2⟩ := ih _ g hg
      exact ⟨f', List.mem_cons_of_mem _ h1, h2⟩

theorem unwrapAll_mem (fs : List Frame) : ∀ g ∈ unwrapAll fs, ∃ f ∈ fs, SameCf g f := by
  cases fs with
  | nil => simp [unwrapAll]
  | cons f fs =>
    intro g hg
    simp only [unwrapAll, List.mem_cons] at hg
    rcases hg with rfl | hg
    · exact ⟨g, List.mem_cons_self .., rfl, rfl⟩
    · obtain ⟨f', h1, h2⟩ := unwrapFrom_mem _ _ g hg
      exact ⟨f', List.mem_cons_of_mem _ h1, h2⟩

theorem canFrame_shape {f : Frame} (h : CanFrame f) : ∃ a b r, f.data = a :: b :: r := by
  match hd : f.data with
  | [] => have := h.len2; simp [hd] at this
  | [_] => have := h.len2; simp [hd] at this
  | a :: b :: r => exact ⟨a, b, r, rfl⟩

theorem isFirst_iff {f : Frame} (h : CanFrame f) : isFirst f.data = (f.type == some frameTypeFF) := by
  obtain ⟨a, b, r, hd⟩ := canFrame_shape h
  have ht := h.ty
  rw [hd] at ht
  simp only [List.getD_cons_zero] at ht
  rw [ht, hd]
  simp only [isFirst, List.head?_cons, Option.map_some, frameTypeFF]
  rw [Bool.eq_iff_iff]
  simp only [beq_iff_eq, Option.some.injEq]
  omega

theorem isConsecutive_iff {f : Frame} (h : CanFrame f) :
    isConsecutive f.data = (f.type == some frameTypeCF) := by
  obtain ⟨a, b, r, hd⟩ := canFrame_shape h
  have ht := h.ty
  rw [hd] at ht
  simp only [List.getD_cons_zero] at ht
  rw [ht, hd]
  simp only [isConsecutive, List.head?_cons, Option.map_some, frameTypeCF]
  rw [Bool.eq_iff_iff]
  simp only [beq_iff_eq, Option.some.injEq]
  omega

theorem filter_data (fs : List Frame) (P : Bytes → Bool) (Q : Frame → Bool)
    (h : ∀ f ∈ fs, P f.data = Q f) : (fs.map Frame.data).filter P = (fs.filter Q).map Frame.data := by
  rw [List.filter_map]
  congr 1
  exact List.filter_congr (fun f hf => h f hf)

theorem getElem?_map_eq {α β} (f : α → β) (l : List α) (i : Nat) (b : β) (h : (l.map f)[i]? = some b) :
    ∃ a, l[i]? = some a ∧ f a = b := by
  rw [List.getElem?_map, Option.map_eq_some_iff] at h
  exact h

theorem canMulti_sound (fs : List Frame) (hg : ∀ f ∈ fs, CanFrame f) (d : Bytes)
    (h : canMulti fs = some d) : Explains (fs.map Frame.data) d ∧ d ≠ [] := by
  unfold canMulti at h
  simp only at h
  generalize hff : fs.filter (fun f => f.type == some frameTypeFF) = ff at h
  match ff, hff, h with
  | [], _, h => simp at h
  | _ :: _ :: _, _, h => simp at h
  | [first], hff, h =>
    simp only at h
    generalize hcf : fs.filter (fun f => f.type == some frameTypeCF) = cf at h
    have hfirst : first ∈ fs ∧ first.type = some frameTypeFF := by
      have : first ∈ fs.filter (fun f => f.type == some frameTypeFF) := by rw [hff]; exact List.mem_cons_self ..
      simpa using List.mem_filter.1 this
    have hcfm : ∀ f ∈ cf, f ∈ fs ∧ f.type = some frameTypeCF := by
      intro f hf
      rw [← hcf] at hf
      simpa using List.mem_filter.1 hf
    split at h
    · simp at h
    · next hlen =>
      split at h
      · next hcon =>
        injection h with h
        obtain ⟨a, b, r, hd⟩ := canFrame_shape (hg first hfirst.1)
        have hty := (hg first hfirst.1).ty
        rw [hfirst.2, hd] at hty
        simp only [List.getD_cons_zero, frameTypeFF, Option.some.injEq] at hty
        have ha : a.toNat / 16 = 1 := by omega
        have hlenff := (hg first hfirst.1).ff (by rw [hd]; exact ha)
        have hann : first.dataLen.getD 0 = announced first.data := by
          rw [hlenff, hd]; rfl
        have hpci := (hg first hfirst.1).pci
        have hannpos : announced first.data ≠ 0 := by
          rw [hd] at hpci ⊢
          simp [pciOk] at hpci
          simp only [announced]
          omega
        rw [contiguous_range', (sortBy_perm _ _).length_eq] at hcon
        obtain ⟨hidx, hpos⟩ := hcon
        have hlen' : (unwrapAll cf).length = cf.length := by
          have := congrArg List.length (unwrapAll_data cf)
          simpa using this
        rw [hlen'] at hidx hpos
        have hmemS : ∀ g ∈ sortBy Frame.seqIndex (unwrapAll cf),
            g.data.head?.map UInt8.toNat = some (0x20 + g.seqIndex % 16) ∧ 1 ≤ (g.data.drop 1).length := by
          intro g hgm
          rw [mem_sortBy] at hgm
          obtain ⟨f, hf, hs1, hs2⟩ := unwrapAll_mem cf g hgm
          obtain ⟨hf1, hf2⟩ := hcfm f hf
          obtain ⟨a', b', r', hd'⟩ := canFrame_shape (hg f hf1)
          have hty' := (hg f hf1).ty
          rw [hf2, hd'] at hty'
          simp only [List.getD_cons_zero, frameTypeCF, Option.some.injEq] at hty'
          have hseq := (hg f hf1).cf (by rw [hd']; simp only [List.getD_cons_zero]; omega)
          rw [hd'] at hseq
          simp only [List.getD_cons_zero] at hseq
          rw [hs1, hd']
          refine ⟨?_, by simp⟩
          simp only [List.head?_cons, Option.map_some, Option.some.injEq]
          rw [hs2, hseq]
          omega
        have hnonempty : sortBy Frame.seqIndex (unwrapAll cf) ≠ [] := by
          intro h0
          have := congrArg List.length h0
          rw [(sortBy_perm _ _).length_eq, hlen'] at this
          exact hlen this
        rw [foldl_data, hann] at h
        have hflat : (sortBy Frame.seqIndex (unwrapAll cf)).flatMap (fun f => f.data.drop 1)
            = ((sortBy Frame.seqIndex (unwrapAll cf)).map Frame.data).flatMap (List.drop 1) := by
          rw [List.flatMap_map]
        constructor
        · refine .segmented first.data ((sortBy Frame.seqIndex (unwrapAll cf)).map Frame.data) ?_ ?_ ?_ ?_ ?_
          · rw [filter_data fs isFirst _ (fun f hf => isFirst_iff (hg f hf)), hff]; rfl
          · rw [filter_data fs isConsecutive _ (fun f hf => isConsecutive_iff (hg f hf)), hcf, ← unwrapAll_data cf]
            exact (sortBy_perm _ _).map _
          · simpa using hnonempty
          · intro i d' hi
            obtain ⟨g, hg1, rfl⟩ := getElem?_map_eq _ _ _ _ hi
            have hgm : g ∈ sortBy Frame.seqIndex (unwrapAll cf) := List.mem_of_getElem? hg1
            rw [(hmemS g hgm).1]
            have hi2 : ((sortBy Frame.seqIndex (unwrapAll cf)).map Frame.seqIndex)[i]? = some g.seqIndex := by
              rw [List.getElem?_map, hg1]; rfl
            rw [hidx] at hi2
            have hlt : i < cf.length := by
              have := (List.getElem?_eq_some_iff.1 hi2).1
              simpa using this
            rw [List.getElem?_range' hlt] at hi2
            injection hi2 with hi2
            rw [← hi2]
            congr 2
            omega
          · rw [← h, hflat]
        · rw [← h]
          intro h0
          have h0 := congrArg List.length h0
          rw [List.length_take, List.length_append] at h0
          have hfl : 1 ≤ ((sortBy Frame.seqIndex (unwrapAll cf)).flatMap (fun f => f.data.drop 1)).length := by
            match hS : sortBy Frame.seqIndex (unwrapAll cf), hnonempty with
            | g :: gs, _ =>
              rw [List.flatMap_cons, List.length_append]
              have := (hmemS g (by rw [hS]; exact List.mem_cons_self ..)).2
              omega
          simp only [List.length_nil] at h0
          omega
      · simp at h

theorem canTrimDtc_ok {d r : Bytes} (h : canTrimDtc d = .ok r) : r = dtcCut d ∧ d ≠ [] ∧ d ≠ [0x43] := by
  match d with
  | [] => simp [canTrimDtc, idx, bind, Except.bind] at h
  | [x] =>
    by_cases hx : x = 0x43
    · subst hx; simp [canTrimDtc, idx, bind, Except.bind] at h
    · simp [canTrimDtc, idx, bind, Except.bind, hx, pure, Except.pure] at h
      simp [← h, dtcCut, hx]
  | a :: k :: rest =>
    rw [canTrimDtc_eq _ (by simp)] at h
    injection h with h
    exact ⟨h.symm, by simp, by simp⟩

theorem dtcCut_ne {d : Bytes} (h : d ≠ []) : dtcCut d ≠ [] := by
  match d with
  | [] => exact absurd rfl h
  | [x] => simp [dtcCut]
  | a :: k :: rest =>
    simp only [dtcCut]
    split <;> simp

/-- The data of the message before the mode-03 cut. -/
def rawData (fs : List Frame) : Option Bytes :=
  match fs with
  | [frame] =>
    if frame.type ≠ some frameTypeSF then none
    else some (slice frame.data 1 (1 + frame.dataLen.getD 0))
  | _ => canMulti fs

theorem canParseMessage_eq (fs : List Frame) : canParseMessage fs =
    match rawData fs with
    | none => .ok none
    | some d => (canTrimDtc d).map some := by
  match fs with
  | [f] =>
    simp only [canParseMessage, rawData, bind, Except.bind, pure, Except.pure]
    by_cases h : f.type = some frameTypeSF
    · simp only [h, ne_eq, not_true, if_false]; cases canTrimDtc _ <;> rfl
    · simp only [ne_eq, h, not_false_iff, if_true]
  | [] => rfl
  | a :: b :: l =>
    simp only [canParseMessage, rawData, bind, Except.bind, pure, Except.pure]
    cases canMulti (a :: b :: l) with
    | none => rfl
    | some d => simp only; cases canTrimDtc d <;> rfl

theorem rawData_sound (fs : List Frame) (hg : ∀ f ∈ fs, CanFrame f) (d : Bytes)
    (h : rawData fs = some d) : Explains (fs.map Frame.data) d ∧ d ≠ [] := by
  unfold rawData at h
  split at h
  · next f =>
    split at h
    · simp at h
    · next ht =>
      injection h with h
      have hf := hg f (List.mem_cons_self ..)
      obtain ⟨a, b, r, hd⟩ := canFrame_shape hf
      have hty := hf.ty
      have ht : f.type = some frameTypeSF := by simpa using ht
      rw [ht, hd] at hty
      simp only [List.getD_cons_zero, frameTypeSF, Option.some.injEq] at hty
      have ha : a.toNat / 16 = 0 := by omega
      have hl := hf.sf (by rw [hd]; exact ha)
      have hpci := hf.pci
      rw [hd] at hl hpci
      simp only [List.getD_cons_zero] at hl
      simp [pciOk] at hpci
      rw [hl, hd, Option.getD_some, slice_cons, show a.toNat % 16 = a.toNat by omega] at h
      refine ⟨.single a (b :: r) (by simp [hd]) (by omega) h.symm, ?_⟩
      rw [← h]
      intro h0
      have := congrArg List.length h0
      simp at this
      omega
  · exact canMulti_sound fs hg d h

theorem canParseMessage_sound (fs : List Frame) (hg : ∀ f ∈ fs, CanFrame f) (r : Bytes)
    (h : canParseMessage fs = .ok (some r)) :
    r ≠ [] ∧ ∃ d, Explains (fs.map Frame.data) d ∧ r = dtcCut d := by
  rw [canParseMessage_eq] at h
  split at h
  · simp at h
  · next d hd =>
    cases ht : canTrimDtc d with
    | error e => rw [ht] at h; simp [Except.map] at h
    | ok r' =>
      rw [ht] at h
      simp only [Except.map, Except.ok.injEq, Option.some.injEq] at h
      subst h
      obtain ⟨h1, h2, _⟩ := canTrimDtc_ok ht
      exact ⟨by rw [h1]; exact dtcCut_ne h2, d, (rawData_sound fs hg d hd).1, h1⟩

theorem oneMessage_mem {p : Proto} {map : Dict (Option Nat) Nat} {fs : List Frame} {t : Option Nat}
    {m : Message} (h : m ∈ oneMessage p map fs t) :
    p.parseMessage (fromTx fs t) = .ok (some m.data) ∧ fromTx fs t ≠ [] ∧ m = ecuMessage map fs t m.data := by
  unfold oneMessage at h
  split at h
  · simp at h
  · next hne =>
    split at h
    · next d hd => rw [List.mem_singleton] at h; subst h; exact ⟨hd, hne, rfl⟩
    · simp at h

theorem goodFrames_can {p : Proto} {n : Nat} (hn : p.family = .can n) (lines : List Str) (t : Option Nat) :
    ∀ f ∈ fromTx (framesOf p lines) t, CanFrame f := by
  have hp : p ≠ .unknown := by rintro rfl; simp [Proto.family] at hn
  intro f hf
  have := (framesOf_good p hp lines f (mem_fromTx hf).1).1
  unfold GoodFrame at this
  rwa [hn] at this

end Model
