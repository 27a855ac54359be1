import Verif.Lemmas.CanSound
import Verif.Lemmas.Tracking
/-!
# Reassembly of arbitrary CAN frames, exactly
-/
namespace Model
open Py Spec

/-- The bytes of a frame and its number. -/
def numbered (f : Frame) : Bytes × Nat := (f.data, f.seqIndex)

theorem canFrame_seq {f : Frame} (h : CanFrame f) (ht : f.type = some frameTypeCF) : f.seqIndex = seqOf f.data % 16 := by
  obtain ⟨a, b, r, hd⟩ := canFrame_shape h
  have hty := h.ty
  rw [ht, hd] at hty
  simp only [List.getD_cons_zero, frameTypeCF, Option.some.injEq] at hty
  have := h.cf (by rw [hd]; simp only [List.getD_cons_zero]; omega)
  rw [this, hd]
  simp only [List.getD_cons_zero, seqOf]
  omega

theorem unwrapAll_numbered (cf : List Frame) (hc : ∀ f ∈ cf, CanFrame f ∧ f.type = some frameTypeCF) (bs : List Nat)
    (hb : Believed ((cf.map Frame.data).map seqOf) bs) : (unwrapAll cf).map numbered = (cf.map Frame.data).zip bs := by
  have h := unwrapAll_believed (cf.map (fun f => (f, seqOf f.data))) bs
    (by
      intro x hx
      obtain ⟨f, hf, rfl⟩ := List.mem_map.1 hx
      exact canFrame_seq (hc f hf).1 (hc f hf).2)
    (by simpa [List.map_map, Function.comp_def] using hb)
  have h0 : (cf.map (fun f => (f, seqOf f.data))).map Prod.fst = cf := by simp [List.map_map, Function.comp_def]
  rw [h0] at h
  rw [h, List.zip_map_left, List.zip_map_left, List.map_map, List.map_map]
  rfl

/-- The consecutive frames in the order of their numbers. -/
theorem sorted_numbered (cf : List Frame) (hc : ∀ f ∈ cf, CanFrame f ∧ f.type = some frameTypeCF) (bs : List Nat)
    (hb : Believed ((cf.map Frame.data).map seqOf) bs) :
    (sortBy Frame.seqIndex (unwrapAll cf)).map numbered = sortBy Prod.snd ((cf.map Frame.data).zip bs) := by
  rw [← unwrapAll_numbered cf hc bs hb, sortBy_map]; rfl

theorem pairwise_zip_range {α} (os : List α) : ∀ s m, (os.zip (List.range' s m)).Pairwise (fun x y => x.2 < y.2) := by
  induction os with
  | nil => intros; simp
  | cons o os ih =>
    intro s m
    cases m with
    | zero => simp
    | succ m =>
      rw [List.range'_succ, List.zip_cons_cons, List.pairwise_cons]
      refine ⟨?_, ih _ _⟩
      intro y hy
      have := (List.of_mem_zip hy).2
      rw [List.mem_range'_1] at this
      exact this.1

theorem canMulti_exact (fs : List Frame) (hg : ∀ f ∈ fs, CanFrame f) (d : Bytes) :
    canMulti fs = some d ↔ ∃ (first : Bytes) (bs : List Nat) (cfs : List Bytes), (fs.map Frame.data).filter isFirst = [first] ∧
      Believed (((fs.map Frame.data).filter isConsecutive).map seqOf) bs ∧ bs ≠ [] ∧ cfs.length = bs.length ∧
      (cfs.zip (List.range' 1 bs.length)).Perm (((fs.map Frame.data).filter isConsecutive).zip bs) ∧
      d = (first.drop 2 ++ cfs.flatMap (List.drop 1)).take (announced first) := by
  rw [filter_data fs isFirst _ (fun f hf => isFirst_iff (hg f hf)), filter_data fs isConsecutive _ (fun f hf => isConsecutive_iff (hg f hf))]
  unfold canMulti
  simp only
  have hffm : ∀ f ∈ fs.filter (fun f => f.type == some frameTypeFF), f ∈ fs ∧ f.type = some frameTypeFF := by
    intro f hf; simpa using List.mem_filter.1 hf
  have hcfm : ∀ f ∈ fs.filter (fun f => f.type == some frameTypeCF), CanFrame f ∧ f.type = some frameTypeCF := by
    intro f hf
    have := List.mem_filter.1 hf
    exact ⟨hg f this.1, by simpa using this.2⟩
  generalize fs.filter (fun f => f.type == some frameTypeFF) = ff at hffm ⊢
  generalize fs.filter (fun f => f.type == some frameTypeCF) = cf at hcfm ⊢
  match ff with
  | [] => simp
  | _ :: _ :: _ => simp
  | [first] =>
    obtain ⟨bs0, hb0⟩ := believed_exists ((cf.map Frame.data).map seqOf)
    have hlb := believed_length hb0
    simp only [List.length_map] at hlb
    have hS := sorted_numbered cf hcfm bs0 hb0
    have hann : first.dataLen.getD 0 = announced first.data := by
      obtain ⟨h1, h2⟩ := hffm first (List.mem_cons_self ..)
      obtain ⟨a, b, r, hd⟩ := canFrame_shape (hg first h1)
      have hty := (hg first h1).ty
      rw [h2, hd] at hty
      simp only [List.getD_cons_zero, frameTypeFF, Option.some.injEq] at hty
      rw [(hg first h1).ff (by rw [hd]; simp only [List.getD_cons_zero]; omega), hd]; rfl
    have hlen : (unwrapAll cf).length = cf.length := by
      have := congrArg List.length (unwrapAll_data cf)
      simpa using this
    have hSi : (sortBy Frame.seqIndex (unwrapAll cf)).map Frame.seqIndex = (sortBy Prod.snd ((cf.map Frame.data).zip bs0)).map Prod.snd := by
      rw [← hS, List.map_map]; rfl
    have hSd : (sortBy Frame.seqIndex (unwrapAll cf)).map Frame.data = (sortBy Prod.snd ((cf.map Frame.data).zip bs0)).map Prod.fst := by
      rw [← hS, List.map_map]; rfl
    simp only [List.map_cons, List.map_nil, List.cons.injEq, and_true]
    rw [foldl_data, hann]
    have hflat : (sortBy Frame.seqIndex (unwrapAll cf)).flatMap (fun f => f.data.drop 1)
        = ((sortBy Frame.seqIndex (unwrapAll cf)).map Frame.data).flatMap (List.drop 1) := by rw [List.flatMap_map]
    rw [hflat, hSd, hSi]
    have hSl : (sortBy Frame.seqIndex (unwrapAll cf)).length = bs0.length := by rw [(sortBy_perm _ _).length_eq, hlen, hlb]
    rw [hSl]
    constructor
    · intro h
      split at h
      · simp at h
      · next hz =>
        split at h
        · next hcon =>
          rw [contiguous_range'] at hcon
          injection h with h
          refine ⟨first.data, bs0, (sortBy Prod.snd ((cf.map Frame.data).zip bs0)).map Prod.fst, rfl, hb0, ?_, ?_, ?_, h.symm⟩
          · rintro rfl; simp at hcon
          · rw [List.length_map, (sortBy_perm _ _).length_eq, List.length_zip, List.length_map]; omega
          · rw [← hcon.1, List.zip_map']
            rw [show (fun x : Bytes × Nat => (x.1, x.2)) = id from rfl, List.map_id]
            exact sortBy_perm _ _
        · simp at h
    · rintro ⟨fi, bs, cfs, rfl, hb, hn, hl, hp, rfl⟩
      have := believed_unique hb hb0
      subst this
      have hsort := sortBy_eq_of_perm Prod.snd hp.symm (pairwise_zip_range cfs 1 _)
      rw [hsort, map_zip_snd _ _ (by simp [hl]), List.map_fst_zip (by simp [hl])]
      have hpos : 1 ≤ bs.length := by
        rcases Nat.eq_zero_or_pos bs.length with h | h
        · exact absurd (List.length_eq_zero_iff.1 h) hn
        · exact h
      rw [if_neg (by omega), if_pos ((contiguous_range' _ _).2 ⟨rfl, hpos⟩)]

theorem rawData_exact (fs : List Frame) (hg : ∀ f ∈ fs, CanFrame f) (d : Bytes) :
    rawData fs = some d ↔ Assembles (fs.map Frame.data) d := by
  have hcm := canMulti_exact fs hg d
  constructor
  · intro h
    unfold rawData at h
    split at h
    · obtain ⟨h1, -⟩ := rawData_sound _ hg d (by unfold rawData; exact h)
      rcases h1 with ⟨a, rest, h1, h2, h3⟩ | ⟨first, cfs, h1, h2, h3, h4, h5⟩
      · exact .single a rest h1 h2 h3
      · next f =>
        exfalso
        have hne := h3
        rw [← List.length_pos_iff, h2.length_eq] at hne
        simp only [List.map_cons, List.map_nil] at h1 hne
        by_cases hf : isFirst f.data = true
        · have : isConsecutive f.data = false := by
            unfold isFirst at hf; unfold isConsecutive
            simp only [beq_iff_eq] at hf
            rw [hf]; rfl
          simp [this] at hne
        · simp [hf] at h1
    · obtain ⟨first, bs, cfs, h1, h2, h3, h4, h5, h6⟩ := hcm.1 h
      exact .segmented first bs cfs h1 h2 h3 h4 h5 h6
  · rintro (⟨a, rest, h1, h2, h3⟩ | ⟨first, bs, cfs, h1, h2, h3, h4, h5, h6⟩)
    · obtain ⟨f, rfl⟩ : ∃ f, fs = [f] := by
        have := congrArg List.length h1
        simp only [List.length_map, List.length_cons, List.length_nil] at this
        exact List.length_eq_one_iff.1 this
      simp only [List.map_cons, List.map_nil, List.cons.injEq, and_true] at h1
      have hf := hg f (List.mem_cons_self ..)
      have hty := hf.ty
      rw [h1] at hty
      simp only [List.getD_cons_zero] at hty
      have hl := hf.sf (by rw [h1]; simp only [List.getD_cons_zero]; omega)
      rw [h1] at hl
      simp only [List.getD_cons_zero] at hl
      unfold rawData
      simp only
      rw [if_neg (by rw [hty]; simp only [frameTypeSF, ne_eq, not_not, Option.some.injEq]; omega), hl, Option.getD_some, h1, slice_cons, h3,
        show a.toNat % 16 = a.toNat by omega]
    · have hm := hcm.2 ⟨first, bs, cfs, h1, h2, h3, h4, h5, h6⟩
      unfold rawData
      split
      · next f =>
        exfalso
        unfold canMulti at hm
        simp only at hm
        by_cases hF : f.type = some frameTypeFF
        · have : ¬ f.type = some frameTypeCF := by rw [hF]; decide
          simp [hF, frameTypeFF, frameTypeCF] at hm
        · simp [hF] at hm
      · exact hm

/-- At most one thing can be put together from given frames. -/
theorem assembles_unique {own : List Bytes} {d d' : Bytes} (h : Assembles own d) (h' : Assembles own d') : d = d' := by
  rcases h with ⟨a, rest, h1, h2, h3⟩ | ⟨first, bs, cfs, h1, h2, h3, h4, h5, h6⟩ <;>
    rcases h' with ⟨a', rest', h1', h2', h3'⟩ | ⟨first', bs', cfs', h1', h2', h3', h4', h5', h6'⟩
  · rw [h1] at h1'; cases h1'; rw [h3, h3']
  · exfalso
    rw [h1] at h1'
    have : isFirst (a :: rest) = false := by
      simp only [isFirst, List.head?_cons, Option.map_some]
      rw [beq_eq_false_iff_ne]
      intro h; simp only [Option.some.injEq] at h; omega
    simp [this] at h1'
  · exfalso
    rw [h1'] at h1
    have : isFirst (a' :: rest') = false := by
      simp only [isFirst, List.head?_cons, Option.map_some]
      rw [beq_eq_false_iff_ne]
      intro h; simp only [Option.some.injEq] at h; omega
    simp [this] at h1
  · rw [h1] at h1'; cases h1'
    have := believed_unique h2 h2'
    subst this
    have e1 := sortBy_eq_of_perm Prod.snd h5.symm (pairwise_zip_range cfs 1 _)
    have e2 := sortBy_eq_of_perm Prod.snd h5'.symm (pairwise_zip_range cfs' 1 _)
    have e3 := congrArg (List.map Prod.fst) (e1.symm.trans e2)
    rw [List.map_fst_zip (by simp [h4]), List.map_fst_zip (by simp [h4'])] at e3
    rw [h6, h6', e3]

end Model
