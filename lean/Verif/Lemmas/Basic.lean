import Verif.Py.Basic
/-! Helper lemmas about `Py/Basic.lean`: dictionaries and the stable sort. -/
namespace Py

namespace Dict
variable {κ ν : Type} [DecidableEq κ]

@[simp] theorem get?_nil (k : κ) : get? ([] : Dict κ ν) k = none := rfl

theorem get?_cons (k' : κ) (v : ν) (d : Dict κ ν) (k : κ) :
    get? ((k', v) :: d) k = if k' = k then some v else get? d k := rfl

theorem get?_set (d : Dict κ ν) (k : κ) (v : ν) (k' : κ) :
    get? (set d k v) k' = if k = k' then some v else get? d k' := by
  induction d with
  | nil => rfl
  | cons e d ih =>
    obtain ⟨a, b⟩ := e
    unfold set
    split
    · next h => subst h; by_cases h2 : a = k' <;> simp [get?_cons, h2]
    · next h =>
      rw [get?_cons, ih, get?_cons]
      by_cases h2 : a = k'
      · subst h2; rw [if_pos rfl, if_neg (fun h' => h h'.symm), if_pos rfl]
      · rw [if_neg h2, if_neg h2]

theorem get?_pop (d : Dict κ ν) (k : κ) (k' : κ) (hn : (keys d).Nodup) :
    get? (pop d k) k' = if k = k' then none else get? d k' := by
  induction d with
  | nil => simp [pop]
  | cons e d ih =>
    obtain ⟨a, b⟩ := e
    simp only [keys, List.map_cons, List.nodup_cons] at hn
    unfold pop
    split
    · next h =>
      subst h
      by_cases h2 : a = k'
      · subst h2
        rw [if_pos rfl]
        have : ∀ (d : Dict κ ν), a ∉ keys d → get? d a = none := by
          intro d
          induction d with
          | nil => intro _; rfl
          | cons e d ih =>
            intro h
            simp only [keys, List.map_cons, List.mem_cons, not_or] at h
            rw [get?_cons, if_neg (fun h' => h.1 h'.symm)]; exact ih h.2
        exact this d hn.1
      · rw [if_neg h2, get?_cons, if_neg h2]
    · next h =>
      rw [get?_cons, get?_cons, ih hn.2]
      by_cases h2 : a = k'
      · subst h2; rw [if_pos rfl, if_neg (fun h' => h h'.symm), if_pos rfl]
      · rw [if_neg h2, if_neg h2]

theorem get?_isSome_iff (d : Dict κ ν) (k : κ) : (get? d k).isSome ↔ k ∈ keys d := by
  induction d with
  | nil => simp [keys]
  | cons e d ih =>
    obtain ⟨a, b⟩ := e
    rw [get?_cons]
    simp only [keys, List.map_cons, List.mem_cons]
    by_cases h : a = k
    · simp [h]
    · rw [if_neg h, ih]
      constructor
      · intro h'; exact .inr h'
      · rintro (h' | h')
        · exact absurd h'.symm h
        · exact h'

theorem mem_iff (d : Dict κ ν) (k : κ) : mem d k = true ↔ k ∈ keys d := get?_isSome_iff d k

theorem get?_eq_none_iff (d : Dict κ ν) (k : κ) : get? d k = none ↔ k ∉ keys d := by
  rw [← get?_isSome_iff]; cases get? d k <;> simp

theorem keys_set (d : Dict κ ν) (k : κ) (v : ν) :
    keys (set d k v) = if k ∈ keys d then keys d else keys d ++ [k] := by
  induction d with
  | nil => simp [set, keys]
  | cons e d ih =>
    obtain ⟨a, b⟩ := e
    unfold set
    split
    · next h => subst h; simp [keys]
    · next h =>
      simp only [keys, List.map_cons, List.mem_cons] at ih ⊢
      rw [ih]
      have h' : ¬ k = a := fun h' => h h'.symm
      by_cases h2 : k ∈ d.map Prod.fst <;> simp [h2, h']

theorem keys_set_nodup (d : Dict κ ν) (k : κ) (v : ν) (h : (keys d).Nodup) :
    (keys (set d k v)).Nodup := by
  rw [keys_set]
  split
  · exact h
  · next h2 =>
    rw [List.nodup_append]
    refine ⟨h, by simp, ?_⟩
    intro a ha b hb
    simp at hb; subst hb
    exact fun h3 => h2 (h3 ▸ ha)

theorem mem_keys_set (d : Dict κ ν) (k : κ) (v : ν) (k' : κ) :
    k' ∈ keys (set d k v) ↔ k' = k ∨ k' ∈ keys d := by
  rw [keys_set]
  split
  · next h =>
    constructor
    · exact .inr
    · rintro (rfl | h') <;> assumption
  · simp [or_comm]

end Dict

/-! ### sortBy -/

theorem insertBy_perm {α} (key : α → Nat) (a : α) (l : List α) :
    (insertBy key a l).Perm (a :: l) := by
  induction l with
  | nil => exact List.Perm.refl _
  | cons b l ih =>
    unfold insertBy
    split
    · exact List.Perm.refl _
    · exact (ih.cons b).trans (List.Perm.swap a b l)

theorem sortBy_perm {α} (key : α → Nat) (l : List α) : (sortBy key l).Perm l := by
  induction l with
  | nil => exact List.Perm.refl _
  | cons a l ih => exact (insertBy_perm key a _).trans (ih.cons a)

theorem insertBy_sorted {α} (key : α → Nat) (a : α) (l : List α)
    (h : l.Pairwise (fun x y => key x ≤ key y)) :
    (insertBy key a l).Pairwise (fun x y => key x ≤ key y) := by
  induction l with
  | nil => simp [insertBy]
  | cons b l ih =>
    unfold insertBy
    rw [List.pairwise_cons] at h
    split
    · next hle =>
      rw [List.pairwise_cons]
      refine ⟨?_, List.pairwise_cons.2 h⟩
      intro c hc
      rcases List.mem_cons.1 hc with rfl | hc
      · exact hle
      · exact Nat.le_trans hle (h.1 c hc)
    · next hle =>
      rw [List.pairwise_cons]
      refine ⟨?_, ih h.2⟩
      intro c hc
      rcases List.mem_cons.1 ((insertBy_perm key a l).mem_iff.1 hc) with rfl | hc
      · omega
      · exact h.1 c hc

theorem sortBy_sorted {α} (key : α → Nat) (l : List α) :
    (sortBy key l).Pairwise (fun x y => key x ≤ key y) := by
  induction l with
  | nil => simp [sortBy]
  | cons a l ih => exact insertBy_sorted key a _ ih

@[simp] theorem sortBy_length {α} (key : α → Nat) (l : List α) : (sortBy key l).length = l.length :=
  (sortBy_perm key l).length_eq

@[simp] theorem mem_sortBy {α} (key : α → Nat) (l : List α) (a : α) : a ∈ sortBy key l ↔ a ∈ l :=
  (sortBy_perm key l).mem_iff

/-- Sorting any arrangement of a strictly sorted list gives that list. -/
theorem sortBy_eq_of_perm {α} (key : α → Nat) {l s : List α} (hp : l.Perm s)
    (hs : s.Pairwise (fun x y => key x < key y)) : sortBy key l = s := by
  have hperm : (sortBy key l).Perm s := (sortBy_perm key l).trans hp
  have hinj : ∀ a ∈ s, ∀ b ∈ s, key a = key b → a = b := by
    clear hperm hp
    induction s with
    | nil => simp
    | cons x s ih =>
      rw [List.pairwise_cons] at hs
      intro a ha b hb hab
      rcases List.mem_cons.1 ha with ha' | ha' <;> rcases List.mem_cons.1 hb with hb' | hb'
      · rw [ha', hb']
      · rw [ha'] at hab; have := hs.1 b hb'; omega
      · rw [hb'] at hab; have := hs.1 a ha'; omega
      · exact ih hs.2 a ha' b hb' hab
  refine List.Perm.eq_of_pairwise (le := fun x y => key x ≤ key y) ?_ (sortBy_sorted key l) ?_ hperm
  · intro a b ha hb h1 h2
    exact hinj a (hperm.mem_iff.1 ha) b hb (Nat.le_antisymm h1 h2)
  · exact hs.imp (fun h => Nat.le_of_lt h)

theorem insertBy_map {α β} (key : β → Nat) (f : α → β) (a : α) (l : List α) :
    insertBy key (f a) (l.map f) = (insertBy (fun x => key (f x)) a l).map f := by
  induction l with
  | nil => rfl
  | cons b l ih =>
    simp only [List.map_cons, insertBy]
    split
    · rfl
    · simp [ih]

theorem sortBy_map {α β} (key : β → Nat) (f : α → β) (l : List α) :
    sortBy key (l.map f) = (sortBy (fun x => key (f x)) l).map f := by
  induction l with
  | nil => rfl
  | cons a l ih => simp only [List.map_cons, sortBy, ih, insertBy_map]

end Py
