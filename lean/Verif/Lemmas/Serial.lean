import Verif.Spec.Serial
import Verif.Lemmas.Strip
/-!
# Reading lines from the adapter
-/
namespace Model
open Py Spec

theorem splitCRLF_ne (s : Str) : splitCRLF s ≠ [] := by
  induction s with
  | nil => simp [splitCRLF]
  | cons c s ih =>
    unfold splitCRLF
    split
    · simp
    · split <;> simp

theorem splitCRLF_eq (s : Str) : splitCRLF s = s.splitOnP (fun c => c == '\r' || c == '\n') := by
  induction s with
  | nil => rfl
  | cons c s ih =>
    rw [List.splitOnP_cons, splitCRLF]
    by_cases h : c = '\r' ∨ c = '\n'
    · rw [if_pos h, if_pos (by simpa using h), ih]
    · rw [if_neg h, if_neg (by simpa using h), ih]
      have := splitCRLF_ne s
      rw [ih] at this
      obtain ⟨a, l, e⟩ := List.exists_cons_of_ne_nil this
      rw [e]; rfl

theorem cleanLines_spec (b : Bytes) : LinesOf b (cleanLines b) := by
  unfold LinesOf parts cleanLines replyText
  simp only [splitCRLF_eq]
  have : (fun s : Str => !s.isEmpty) = (fun l : Str => decide (l ≠ [])) := by
    funext s; cases s <;> rfl
  rw [this, List.forall₂_map_right_iff]
  exact List.forall₂_same.2 (fun s _ => stripBy_trimmed isSpace s)

theorem linesOf_unique {b : Bytes} {l : List Str} (h : LinesOf b l) : l = cleanLines b := by
  unfold LinesOf parts replyText at h
  unfold cleanLines
  simp only [splitCRLF_eq]
  have : (fun s : Str => !s.isEmpty) = (fun l : Str => decide (l ≠ [])) := by
    funext s; cases s <;> rfl
  rw [this]
  revert h
  generalize List.filter (fun l : Str => decide (l ≠ [])) _ = ps
  intro h
  induction h with
  | nil => rfl
  | cons h1 _ ih => rw [List.map_cons, ← ih]; congr 1; exact (trimmed_unique _ _ _ h1).symm

end Model

namespace Model
open Py Spec

/-! ## decoding never invents a NUL -/

/-- States of the decoder that lead to valid code points from 80 on. -/
def GoodPend (p : Pend) : Prop :=
  0x80 ≤ p.lo ∧ p.hi ≤ 0xBF ∧
  ((p.need = 1 ∧ ((2 ≤ p.acc ∧ p.acc ≤ 0x35F) ∨ (0x380 ≤ p.acc ∧ p.acc ≤ 0x43FF))) ∨
   (p.need = 2 ∧ ((p.acc = 0 ∧ 0xA0 ≤ p.lo) ∨ (p.acc = 0xD ∧ p.hi ≤ 0x9F) ∨ (1 ≤ p.acc ∧ p.acc ≤ 0xF ∧ p.acc ≠ 0xD) ∨
      (0x10 ≤ p.acc ∧ p.acc ≤ 0x10F))) ∨
   (p.need = 3 ∧ ((p.acc = 0 ∧ 0x90 ≤ p.lo) ∨ (1 ≤ p.acc ∧ p.acc ≤ 3) ∨ (p.acc = 4 ∧ p.hi ≤ 0x8F))))

theorem utf8Start_good (b : UInt8) (p : Pend) (h : utf8Start b = .pend p) : GoodPend p := by
  unfold utf8Start at h
  simp only at h
  repeat' split at h
  all_goals first
    | (cases h; done)
    | (injection h with h; subst h; unfold GoodPend; simp; done)
    | (injection h with h; subst h; unfold GoodPend; simp; omega)

theorem char_toNat_ofNat (n : Nat) (h : n.isValidChar) : (Char.ofNat n).toNat = n := by
  unfold Char.ofNat
  rw [dif_pos h]
  simp [Char.toNat, Char.ofNatAux]

theorem utf8Start_nul (b : UInt8) (h : utf8Start b = .char (Char.ofNat 0)) : b = 0 := by
  unfold utf8Start at h
  simp only at h
  repeat' split at h
  all_goals first
    | (cases h; done)
    | skip
  next hb =>
    injection h with h
    have h2 := congrArg Char.toNat h
    rw [char_toNat_ofNat _ (by unfold Nat.isValidChar; omega), char_toNat_ofNat _ (by unfold Nat.isValidChar; omega)] at h2
    exact UInt8.toNat_inj.1 (by simpa using h2)

theorem utf8Ignore_nul (st : Option Pend) (hst : ∀ p, st = some p → GoodPend p) (bs : Bytes)
    (h : Char.ofNat 0 ∈ utf8Ignore st bs) : (0 : UInt8) ∈ bs := by
  induction bs generalizing st with
  | nil => unfold utf8Ignore at h; cases st <;> cases h
  | cons b bs ih =>
    have start : Char.ofNat 0 ∈ (match utf8Start b with
        | .char c => c :: utf8Ignore none bs
        | .pend p => utf8Ignore (some p) bs
        | .bad => utf8Ignore none bs) → (0 : UInt8) ∈ b :: bs := by
      intro h
      cases hs : utf8Start b with
      | char c =>
        rw [hs] at h
        rcases List.mem_cons.1 h with h | h
        · rw [← h] at hs
          rw [utf8Start_nul b hs]; exact List.mem_cons_self ..
        · exact List.mem_cons_of_mem _ (ih none (by simp) h)
      | pend p =>
        rw [hs] at h
        exact List.mem_cons_of_mem _ (ih (some p) (by simpa using utf8Start_good b p hs) h)
      | bad =>
        rw [hs] at h
        exact List.mem_cons_of_mem _ (ih none (by simp) h)
    cases st with
    | none => rw [utf8Ignore] at h; exact start h
    | some p =>
      have hp := hst p rfl
      rw [utf8Ignore] at h
      split at h
      · next hr =>
        split at h
        · next h1 =>
          rcases List.mem_cons.1 h with h | h
          · exfalso
            have h2 := congrArg Char.toNat h
            unfold GoodPend at hp
            rw [char_toNat_ofNat _ (by unfold Nat.isValidChar; omega), char_toNat_ofNat _ (by unfold Nat.isValidChar; omega)] at h2
            omega
          · exact List.mem_cons_of_mem _ (ih none (by simp) h)
        · next h1 =>
          refine List.mem_cons_of_mem _ (ih _ ?_ h)
          intro q hq
          injection hq with hq
          subst hq
          unfold GoodPend at hp ⊢
          simp only
          omega
      · exact start h

theorem splitOnP_mem (p : Char → Bool) (s l : Str) (h : l ∈ s.splitOnP p) : ∀ c ∈ l, c ∈ s ∧ p c = false := by
  induction s generalizing l with
  | nil => simp only [List.splitOnP_nil, List.mem_singleton] at h; subst h; simp
  | cons a s ih =>
    rw [List.splitOnP_cons] at h
    intro c hc
    split at h
    · rcases List.mem_cons.1 h with rfl | h
      · cases hc
      · obtain ⟨h1, h2⟩ := ih l h c hc; exact ⟨List.mem_cons_of_mem _ h1, h2⟩
    · next hp =>
      cases hs : s.splitOnP p with
      | nil => rw [hs] at h; cases h
      | cons x xs =>
        rw [hs] at h
        simp only [List.modifyHead_cons, List.mem_cons] at h
        rcases h with rfl | h
        · rcases List.mem_cons.1 hc with rfl | hc
          · exact ⟨List.mem_cons_self .., by simpa using hp⟩
          · obtain ⟨h1, h2⟩ := ih x (by rw [hs]; exact List.mem_cons_self ..) c hc
            exact ⟨List.mem_cons_of_mem _ h1, h2⟩
        · obtain ⟨h1, h2⟩ := ih l (by rw [hs]; exact List.mem_cons_of_mem _ h) c hc
          exact ⟨List.mem_cons_of_mem _ h1, h2⟩

theorem trimmed_sub {α} (p : α → Bool) (l s : List α) (h : Trimmed p l s) : ∀ x ∈ s, x ∈ l := by
  obtain ⟨a, b, rfl, -⟩ := h
  intro x hx; simp [hx]

theorem replyText_nul (b : Bytes) : Char.ofNat 0 ∉ replyText b := by
  intro h
  unfold replyText at h
  simp only at h
  have := utf8Ignore_nul none (by simp) _ h
  split at this
  · have := List.dropLast_subset _ this; simp at this
  · simp at this

/-! ## the read loop -/

theorem readLoop_chunks (marker : Bytes) (acc : Bytes) (cs : List Bytes) (rest : List (Option Bytes))
    (hne : ∀ c ∈ cs, c ≠ []) (hno : ∀ k, k < cs.length → isIn marker (acc ++ (cs.take k).flatten) = false ∨ k = 0)
    (hend : isIn marker (acc ++ cs.flatten) = true) (hcs : cs ≠ []) :
    readLoop marker acc (cs.map some ++ rest) = some (acc ++ cs.flatten) := by
  induction cs generalizing acc with
  | nil => exact absurd rfl hcs
  | cons c cs ih =>
    simp only [List.map_cons, List.cons_append, readLoop]
    rw [if_neg (by simp [hne c (List.mem_cons_self ..)])]
    by_cases hc : cs = []
    · subst hc
      simp only [List.flatten_cons, List.flatten_nil, List.append_nil] at hend ⊢
      rw [if_pos hend]
    · have h1 := hno 1 (by have := List.length_pos_iff.2 hc; simp; omega)
      simp only [List.take_succ_cons, List.take_zero, List.flatten_cons, List.flatten_nil, List.append_nil] at h1
      rcases h1 with h1 | h1
      · rw [if_neg (by simp [h1])]
        rw [ih (acc ++ c) (fun d hd => hne d (List.mem_cons_of_mem _ hd)) ?_ (by simpa using hend) hc]
        · simp
        · intro k hk
          have := hno (k + 1) (by simp; omega)
          simp only [List.take_succ_cons, List.flatten_cons] at this
          rcases this with h | h
          · left; simpa using h
          · omega
      · omega

end Model
