import Verif.Lemmas.Header
/-!
# Deciding whether a command was acknowledged in a concrete history
-/
namespace Model
open Py Spec

deriving instance DecidableEq for Event

/-- The first reply with lines. -/
def firstReply : History → Option (List Str)
  | .read (some b) :: t => if cleanLines b = [] then firstReply t else some (cleanLines b)
  | _ => none

/-- `cmd` was answered with the (non-empty) `lines` somewhere. -/
def repliedB (cmd : Bytes) (lines : List Str) : History → Bool
  | [] => false
  | .write b true :: t => (b == line cmd && firstReply t == some lines) || repliedB cmd lines t
  | _ :: t => repliedB cmd lines t

theorem repliedB_cons {cmd : Bytes} {lines : List Str} {e : Event} {h : History} (hr : repliedB cmd lines h = true) :
    repliedB cmd lines (e :: h) = true := by
  unfold repliedB
  split
  · rename_i he; cases he
  · rename_i he; cases he; simp [hr]
  · rename_i he; cases he; exact hr

theorem repliedB_of {h : History} {cmd : Bytes} {lines : List Str} (hl : lines ≠ []) (hr : Replied h cmd lines) : repliedB cmd lines h = true := by
  obtain ⟨pre, bs, b, post, rfl, h1, h2⟩ := hr
  induction pre with
  | cons e pre ih => exact repliedB_cons ih
  | nil =>
    have hne := hl
    have : firstReply (bs.map (fun b => Event.read (some b)) ++ .read (some b) :: post) = some lines := by
      clear hl
      induction bs with
      | nil =>
        have h3 := linesOf_unique h1
        simp only [List.map_nil, List.nil_append, firstReply]
        rw [if_neg (by rw [← h3]; exact hne), ← h3]
      | cons x bs ih =>
        have h3 := (linesOf_unique (h2 x (by simp))).symm
        simp only [List.map_cons, List.cons_append, firstReply]
        rw [if_pos h3]
        exact ih (fun y hy => h2 y (by simp [hy]))
    simp [repliedB, this]

/-- Every change of the header in a concrete history was answered `OK`. -/
def obedientB : History → Bool
  | [] => true
  | .write b true :: t => (b.take 6 != ascii "AT SH " || firstReply t == some ["OK".toList]) && obedientB t
  | _ :: t => obedientB t

theorem obedientB_tail {e : Event} {h : History} (ho : obedientB (e :: h) = true) : obedientB h = true := by
  unfold obedientB at ho
  split at ho
  · rename_i he; cases he
  · rename_i he; cases he; simp at ho; exact ho.2
  · rename_i he; cases he; exact ho

theorem firstReply_reads {bs : List Bytes} (h : ∀ x ∈ bs, LinesOf x []) (t : History) :
    firstReply (bs.map (fun b => Event.read (some b)) ++ t) = firstReply t := by
  induction bs with
  | nil => rfl
  | cons x bs ih =>
    have h3 := (linesOf_unique (h x (by simp))).symm
    simp only [List.map_cons, List.cons_append, firstReply]
    rw [if_pos h3]
    exact ih (fun y hy => h y (by simp [hy]))

theorem obedient_of {h : History} (ho : obedientB h = true) : Obedient h := by
  rintro x lines ⟨pre, bs, b, post, rfl, h1, h2, h3⟩
  induction pre with
  | cons e pre ih => exact ih (obedientB_tail ho)
  | nil =>
    simp only [List.nil_append, obedientB, Bool.and_eq_true, Bool.or_eq_true, bne_iff_ne, beq_iff_eq] at ho
    have ho := ho.1
    rw [firstReply_reads h2] at ho
    have hl := linesOf_unique h1
    rcases ho with ho | ho
    · exact absurd (by simp [line, headerLine, ascii]) ho
    · unfold firstReply at ho
      by_cases hc : cleanLines b = []
      · rw [if_pos hc] at ho
        unfold firstReply at ho
        split at ho
        · exact absurd rfl (h3 _ _)
        · cases ho
      · rw [if_neg hc] at ho
        rw [hl]; exact Option.some.inj ho

end Model
