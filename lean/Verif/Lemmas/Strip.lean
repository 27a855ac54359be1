import Verif.Spec.Vin
/-!
# Stripping both ends of a list
-/
namespace Py
open Spec
variable {α : Type}

theorem dropWhile_all (p : α → Bool) (a l : List α) (h : ∀ x ∈ a, p x = true) :
    (a ++ l).dropWhile p = l.dropWhile p := by
  induction a with
  | nil => rfl
  | cons x a ih =>
    simp only [List.cons_append, List.dropWhile_cons, h x (List.mem_cons_self ..), if_true]
    exact ih (fun y hy => h y (List.mem_cons_of_mem _ hy))

theorem dropWhile_id (p : α → Bool) (l : List α) (h : ∀ x, l.head? = some x → p x = false) : l.dropWhile p = l := by
  cases l with
  | nil => rfl
  | cons x l => simp [h x rfl]

theorem dropWhile_head (p : α → Bool) (l : List α) (x : α) (h : (l.dropWhile p).head? = some x) : p x = false := by
  induction l with
  | nil => cases h
  | cons y l ih =>
    by_cases hy : p y = true
    · rw [List.dropWhile_cons_of_pos hy] at h; exact ih h
    · rw [List.dropWhile_cons_of_neg hy] at h
      simp only [List.head?_cons, Option.some.injEq] at h
      subst h; simpa using hy

theorem dropWhile_split (p : α → Bool) (l : List α) : ∃ a, l = a ++ l.dropWhile p ∧ ∀ x ∈ a, p x = true := by
  refine ⟨l.takeWhile p, (List.takeWhile_append_dropWhile).symm, fun x hx => ?_⟩
  induction l with
  | nil => cases hx
  | cons y l ih =>
    by_cases hy : p y = true
    · rw [List.takeWhile_cons_of_pos hy] at hx
      rcases List.mem_cons.1 hx with rfl | hx
      · exact hy
      · exact ih hx
    · rw [List.takeWhile_cons_of_neg hy] at hx; cases hx

theorem dropWhile_suffix_last (p : α → Bool) (l : List α) (x : α) (h : (l.dropWhile p).getLast? = some x) :
    l.getLast? = some x := by
  obtain ⟨a, e, -⟩ := dropWhile_split p l
  rw [e, List.getLast?_append, h]; rfl

theorem stripBy_trimmed (p : α → Bool) (l : List α) : Trimmed p l (stripBy p l) := by
  obtain ⟨a, ha, hpa⟩ := dropWhile_split p l
  obtain ⟨b, hb, hpb⟩ := dropWhile_split p (l.dropWhile p).reverse
  have e : l.dropWhile p = stripBy p l ++ b.reverse := by
    have := congrArg List.reverse hb
    simpa [stripBy] using this
  refine ⟨a, b.reverse, ?_, hpa, fun x hx => hpb x (by simpa using hx), ?_, ?_⟩
  · rw [List.append_assoc, ← e]; exact ha
  · intro x hx
    apply dropWhile_head p l x
    rw [e, List.head?_append, hx]; rfl
  · intro x hx
    apply dropWhile_head p (l.dropWhile p).reverse x
    simpa [stripBy, List.getLast?_reverse] using hx

theorem trimmed_unique (p : α → Bool) (l s : List α) (h : Trimmed p l s) : stripBy p l = s := by
  obtain ⟨a, b, rfl, ha, hb, hh, hl⟩ := h
  unfold stripBy
  rw [List.append_assoc, dropWhile_all p a _ ha]
  cases s with
  | nil =>
    have : ([] ++ b).dropWhile p = [] := by
      have := dropWhile_all p b [] hb
      simpa using this
    rw [this]; rfl
  | cons x s =>
    have e1 : (x :: s ++ b).dropWhile p = x :: s ++ b := dropWhile_id p _ (by simpa using hh)
    have e2 : (x :: s).reverse.dropWhile p = (x :: s).reverse := by
      apply dropWhile_id
      intro y hy
      exact hl y (by rw [← List.head?_reverse]; exact hy)
    rw [e1, List.reverse_append, dropWhile_all p b.reverse _ (by simpa using hb), e2, List.reverse_reverse]

theorem stripBy_id (p : α → Bool) (l : List α) (hh : ∀ x, l.head? = some x → p x = false)
    (hl : ∀ x, l.getLast? = some x → p x = false) : stripBy p l = l :=
  trimmed_unique p l l ⟨[], [], by simp, by simp, by simp, hh, hl⟩

theorem stripBy_pad (p : α → Bool) (a l b : List α) (ha : ∀ x ∈ a, p x = true) (hb : ∀ x ∈ b, p x = true) :
    stripBy p (a ++ l ++ b) = stripBy p l := by
  obtain ⟨a', b', e, ha', hb', hh, hl⟩ := stripBy_trimmed p l
  apply trimmed_unique
  generalize stripBy p l = s at *
  subst e
  refine ⟨a ++ a', b' ++ b, ?_, ?_, ?_, hh, hl⟩
  · simp
  · intro x hx; rcases List.mem_append.1 hx with h | h
    · exact ha x h
    · exact ha' x h
  · intro x hx; rcases List.mem_append.1 hx with h | h
    · exact hb' x h
    · exact hb x h

end Py
