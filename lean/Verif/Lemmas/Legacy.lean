import Verif.Lemmas.CanSound
/-! Legacy reassembly in terms of the data bytes of the frames. -/
namespace Model
open Py Spec

/-- The order byte of a line. -/
def ord (d : Bytes) : Nat := (d.getD 2 0).toNat

/-- `legacyParseMessage` as a function of the data bytes. -/
def legacyOf : List Bytes → Except Exc (Option Bytes)
  | [] => .error .indexError
  | d :: ds =>
    if ∃ x ∈ ds, x.head? ≠ d.head? then .ok none
    else if d.head? = some 0x43 then .ok (some ([0x43, 0x00] ++ (d :: ds).flatMap (List.drop 1)))
    else if ds = [] then .ok (some d)
    else if ∃ x ∈ d :: ds, x.length < 3 then .error .indexError
    else
      if (sortBy ord (d :: ds)).map ord = List.range' 1 (d :: ds).length then
        match sortBy ord (d :: ds) with
        | [] => .error .indexError
        | g :: gs => .ok (some (g.eraseIdx 2 ++ gs.flatMap (List.drop 3)))
      else .ok none

theorem modeBytes_eq (fs : List Frame) (h : ∀ f ∈ fs, 2 ≤ f.data.length) :
    modeBytes fs = .ok (fs.map (fun f => f.data.headD 0)) := by
  induction fs with
  | nil => rfl
  | cons f fs ih =>
    have hf := h f (List.mem_cons_self ..)
    match hd : f.data with
    | [] => simp [hd] at hf
    | a :: r =>
      simp only [modeBytes, hd, idx, List.getElem?_cons_zero, bind, Except.bind, pure, Except.pure,
        ih (fun g hg => h g (List.mem_cons_of_mem _ hg)), List.map_cons]
      rfl

theorem seqBytes_ok (fs : List Frame) :
    (∃ r, seqBytes fs = .ok r) ↔ ∀ f ∈ fs, 3 ≤ f.data.length := by
  induction fs with
  | nil => simp [seqBytes]
  | cons f fs ih =>
    simp only [seqBytes, bind, Except.bind, pure, Except.pure, List.forall_mem_cons]
    by_cases hf : 3 ≤ f.data.length
    · rw [idx_ok (show 2 < f.data.length by omega)]
      simp only
      rw [← ih]
      cases seqBytes fs with
      | error e => simp
      | ok r => simp [hf]
    · rw [idx_error (show f.data.length ≤ 2 by omega)]
      simp [hf]

theorem seqBytes_error (fs : List Frame) (e : Exc) (h : seqBytes fs = .error e) : e = .indexError := by
  induction fs with
  | nil => simp [seqBytes] at h
  | cons f fs ih =>
    simp only [seqBytes, bind, Except.bind, pure, Except.pure] at h
    split at h
    · next e' he =>
      injection h with h
      subst h
      unfold idx at he
      split at he <;> simp at he
      exact he.symm
    · split at h
      · next e' he => injection h with h; subst h; exact ih he
      · simp at h

theorem seqByte_eq (f : Frame) : seqByte f = ord f.data := by
  unfold seqByte ord
  rw [List.getD_eq_getElem?_getD]

theorem foldl_drop (k : Nat) (fs : List Frame) (a : Bytes) :
    fs.foldl (fun acc f => acc ++ f.data.drop k) a = a ++ (fs.map Frame.data).flatMap (List.drop k) := by
  induction fs generalizing a with
  | nil => simp
  | cons f fs ih => rw [List.foldl_cons, ih, List.map_cons, List.flatMap_cons, List.append_assoc]

theorem sortBy_seqByte (fs : List Frame) :
    (sortBy seqByte fs).map Frame.data = sortBy ord (fs.map Frame.data) := by
  rw [sortBy_map]
  congr 2

theorem sortBy_ord_ne (ds : List Bytes) (h : ds ≠ []) : sortBy ord ds ≠ [] := by
  intro h0
  have := (sortBy_perm ord ds).length_eq
  rw [h0] at this
  exact h (List.eq_nil_of_length_eq_zero this.symm)

theorem legacy_tail (fs : List Frame) (hne : fs ≠ []) :
    (if contiguous ((sortBy seqByte fs).map seqByte) 1 (sortBy seqByte fs).length then
        match sortBy seqByte fs with
        | [] => .error .indexError
        | g :: gs => .ok (some (gs.foldl (fun acc f => acc ++ f.data.drop 3) (g.data.eraseIdx 2)))
      else .ok none : Except Exc (Option Bytes)) =
    (if (sortBy ord (fs.map Frame.data)).map ord = List.range' 1 (fs.map Frame.data).length then
        match sortBy ord (fs.map Frame.data) with
        | [] => .error .indexError
        | g :: gs => .ok (some (g.eraseIdx 2 ++ gs.flatMap (List.drop 3)))
      else .ok none) := by
  have hS := sortBy_seqByte fs
  have hlen : (sortBy seqByte fs).length = fs.length := (sortBy_perm _ _).length_eq
  have hmap : (sortBy seqByte fs).map seqByte = (sortBy ord (fs.map Frame.data)).map ord := by
    rw [← hS, List.map_map]
    apply List.map_congr_left
    intro f _
    exact seqByte_eq f
  have hpos : 1 ≤ fs.length := by
    match fs, hne with
    | _ :: _, _ => simp
  have hiff : contiguous ((sortBy seqByte fs).map seqByte) 1 (sortBy seqByte fs).length = true ↔
      (sortBy ord (fs.map Frame.data)).map ord = List.range' 1 (fs.map Frame.data).length := by
    rw [contiguous_range', hmap, hlen, List.length_map]
    exact ⟨fun h => h.1, fun h => ⟨h, hpos⟩⟩
  by_cases hc : contiguous ((sortBy seqByte fs).map seqByte) 1 (sortBy seqByte fs).length = true
  · rw [if_pos hc, if_pos (hiff.1 hc)]
    rw [← hS]
    cases sortBy seqByte fs with
    | nil => rfl
    | cons g gs => simp only [List.map_cons]; rw [foldl_drop]
  · rw [if_neg hc, if_neg (fun h => hc (hiff.2 h))]

theorem legacyParseMessage_eq (fs : List Frame) (h : ∀ f ∈ fs, 2 ≤ f.data.length) :
    legacyParseMessage fs = legacyOf (fs.map Frame.data) := by
  cases fs with
  | nil => rfl
  | cons f fs =>
    have hf := h f (List.mem_cons_self ..)
    match hd : f.data with
    | [] => simp [hd] at hf
    | a :: r =>
      unfold legacyParseMessage
      simp only [idx, List.getElem?_cons_zero, hd, bind, Except.bind, pure, Except.pure, List.drop_succ_cons,
        List.drop_zero, modeBytes_eq fs (fun g hg => h g (List.mem_cons_of_mem _ hg)), List.map_cons]
      unfold legacyOf
      have hdiff : (fs.length + 1 > 1 ∧ ¬ ((fs.map (fun f => f.data.headD 0)).all (fun b => a == b)) = true) ↔
          ∃ x ∈ fs.map Frame.data, x.head? ≠ (a :: r).head? := by
        rw [List.all_eq_true]
        simp only [List.mem_map, forall_exists_index, and_imp, forall_apply_eq_imp_iff₂, beq_iff_eq]
        constructor
        · rintro ⟨_, h2⟩
          apply Classical.byContradiction
          intro hno
          apply h2
          intro g hg
          have hgl := h g (List.mem_cons_of_mem _ hg)
          apply Classical.byContradiction
          intro hne
          apply hno
          refine ⟨g.data, ⟨g, hg, rfl⟩, ?_⟩
          match hgd : g.data with
          | [] => simp [hgd] at hgl
          | b :: _ => rw [hgd] at hne; simp at hne ⊢; exact fun h => hne h.symm
        · rintro ⟨x, ⟨g, hg, rfl⟩, hx⟩
          refine ⟨by have := List.length_pos_of_mem hg; omega, ?_⟩
          intro hall
          have := hall g hg
          have hgl := h g (List.mem_cons_of_mem _ hg)
          match hgd : g.data with
          | [] => simp [hgd] at hgl
          | b :: _ => rw [hgd] at hx this; simp at hx this; exact hx this.symm
      simp only [List.length_cons]
      by_cases hx : ∃ x ∈ fs.map Frame.data, x.head? ≠ (a :: r).head?
      · rw [if_pos (hdiff.2 hx), if_pos hx]
      · rw [if_neg (fun h => hx (hdiff.1 h)), if_neg hx]
        by_cases h43 : a = 0x43
        · rw [if_pos h43, if_pos (show (a :: r).head? = some 0x43 by simp [h43])]
          rw [foldl_drop]
          simp [hd]
        · rw [if_neg h43, if_neg (show ¬ (a :: r).head? = some 0x43 by simp [h43])]
          cases fs with
          | nil => simp [hd]
          | cons g gs =>
            rw [if_neg (show ¬ (g :: gs).map Frame.data = [] by simp)]
            by_cases hshort : ∃ x ∈ (a :: r) :: (g :: gs).map Frame.data, x.length < 3
            · rw [if_pos hshort]
              have hno : ¬ ∀ x ∈ f :: g :: gs, 3 ≤ x.data.length := by
                rintro hall
                obtain ⟨x, hx, hxl⟩ := hshort
                rw [← hd, ← List.map_cons, List.mem_map] at hx
                obtain ⟨y, hy, rfl⟩ := hx
                have := hall y hy
                omega
              rw [← seqBytes_ok] at hno
              cases hs : seqBytes (f :: g :: gs) with
              | error e => simp [seqBytes_error _ _ hs]
              | ok r => exact absurd ⟨r, hs⟩ hno
            · rw [if_neg hshort]
              have hall : ∀ x ∈ f :: g :: gs, 3 ≤ x.data.length := by
                intro x hx
                apply Nat.le_of_not_lt
                intro hl
                apply hshort
                refine ⟨x.data, ?_, hl⟩
                rw [← hd, ← List.map_cons]
                exact List.mem_map.2 ⟨x, hx, rfl⟩
              obtain ⟨r', hr'⟩ := (seqBytes_ok _).2 hall
              rw [hr']
              simp only
              have := legacy_tail (f :: g :: gs) (by simp)
              simp only [List.map_cons, hd, List.length_cons] at this
              simp only [List.map_cons, List.length_cons]
              rw [← this]
              rfl

end Model
