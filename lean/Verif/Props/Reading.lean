import Verif.Model.Reading
import Verif.Lemmas.Serial
import Verif.Props.Chunks
import Mathlib.Tactic.IntervalCases
import Mathlib.Order.Iterate
/-!
# C102: reading a reply comes to an end
-/
namespace Props
open Py Model Spec

/-- The first `n` outcomes. -/
def firstReads (port : Nat → Option Bytes) (n : Nat) : List (Option Bytes) := (List.range n).map port

/-- The bytes received in the first `n` reads. -/
def bytesSoFar (port : Nat → Option Bytes) (n : Nat) : Bytes := ((List.range n).map (fun k => (port k).getD [])).flatten

/-- Read number `n` fails, gives nothing, or completes a text with the end marker. -/
def Ends (port : Nat → Option Bytes) (marker : Bytes) (n : Nat) : Prop :=
  port n = none ∨ port n = some [] ∨ marker <:+: bytesSoFar port (n + 1)

theorem bytesSoFar_succ (port : Nat → Option Bytes) (n : Nat) : bytesSoFar port (n + 1) = bytesSoFar port n ++ (port n).getD [] := by
  unfold bytesSoFar
  rw [List.range_succ, List.map_append, List.flatten_append]
  simp

theorem isIn_iff (m b : Bytes) : isIn m b = true ↔ m <:+: b := by
  induction b with
  | nil =>
    unfold isIn
    simp
  | cons x b ih =>
    unfold isIn
    rw [Bool.or_eq_true, ih, List.isPrefixOf_iff_prefix, List.infix_cons_iff]

theorem after_running (port : Nat → Option Bytes) (marker : Bytes) (n : Nat) (h : ∀ k < n, ¬ Ends port marker k) :
    Reading.after port marker n = .running (bytesSoFar port n) n := by
  induction n with
  | zero => rfl
  | succ n ih =>
    rw [Reading.after, ih (fun k hk => h k (by omega))]
    have hn := h n (by omega)
    simp only [Ends, not_or] at hn
    obtain ⟨h1, h2, h3⟩ := hn
    cases hp : port n with
    | none => exact absurd hp h1
    | some data =>
      rw [bytesSoFar_succ, hp, Option.getD_some] at h3 ⊢
      simp only [Reading.step, hp]
      rw [if_neg (by rintro hc; rw [List.isEmpty_iff] at hc; exact h2 (by rw [hp, hc])), if_neg (by rw [isIn_iff]; exact h3)]

theorem after_finished (port : Nat → Option Bytes) (marker : Bytes) (n m : Nat) (r : Option Bytes) (h : Reading.after port marker n = .finished r) (hm : n ≤ m) :
    Reading.after port marker m = .finished r := by
  induction m, hm using Nat.le_induction with
  | base => exact h
  | succ m _ ih => rw [Reading.after, ih]; rfl

/-- The list model of one call gives what the endless port gives. -/
theorem loop_agrees (port : Nat → Option Bytes) (marker : Bytes) (rest : List (Option Bytes)) : ∀ (d k : Nat) (buf : Bytes) (r : Option Bytes),
    (Reading.step port marker)^[d] (.running buf k) = .finished r → readLoop marker buf ((List.range' k d).map port ++ rest) = r
  | 0, k, buf, r, h => by cases h
  | d + 1, k, buf, r, h => by
    rw [Function.iterate_succ_apply] at h
    rw [List.range'_succ, List.map_cons, List.cons_append]
    have stay : ∀ x, (Reading.step port marker)^[d] (.finished x) = .finished x := by
      intro x
      exact Function.iterate_fixed rfl d
    cases hp : port k with
    | none =>
      simp only [Reading.step, hp] at h
      rw [stay] at h
      injection h with h
    | some data =>
      simp only [Reading.step, hp] at h
      rw [readLoop]
      by_cases h1 : data.isEmpty = true
      · rw [if_pos h1] at h ⊢
        rw [stay] at h
        injection h
      · rw [if_neg h1] at h ⊢
        by_cases h2 : isIn marker (buf ++ data) = true
        · rw [if_pos h2] at h ⊢
          rw [stay] at h
          injection h
        · rw [if_neg h2] at h ⊢
          exact loop_agrees port marker rest d (k + 1) _ r h

theorem after_iterate (port : Nat → Option Bytes) (marker : Bytes) (n : Nat) :
    Reading.after port marker n = (Reading.step port marker)^[n] (.running [] 0) := by
  induction n with
  | zero => rfl
  | succ n ih => rw [Reading.after, ih, Function.iterate_succ_apply']

/-- What the first read at which the loop can end makes of it. -/
theorem C102_ends_partial (port : Nat → Option Bytes) (marker : Bytes) (n : Nat) (hn : Ends port marker n) (hfirst : ∀ k < n, ¬ Ends port marker k) :
    ∃ r, (∀ m, n < m → Reading.after port marker m = .finished r) ∧
      (port n = none → r = none) ∧ (port n = some [] → r = some (bytesSoFar port n)) ∧
      (∀ data, port n = some data → data ≠ [] → r = some (bytesSoFar port (n + 1))) := by
  have h := after_running port marker n hfirst
  cases hp : port n with
  | none =>
    refine ⟨none, fun m hm => after_finished port marker (n + 1) m _ ?_ hm, fun _ => rfl, fun hc => (by cases hc), fun d hc => (by cases hc)⟩
    rw [Reading.after, h]
    simp only [Reading.step, hp]
  | some data =>
    by_cases he : data = []
    · subst he
      refine ⟨some (bytesSoFar port n), fun m hm => after_finished port marker (n + 1) m _ ?_ hm, fun hc => (by cases hc), fun _ => rfl,
        fun d hd hne => absurd (by injection hd with hd; exact hd.symm) hne⟩
      rw [Reading.after, h]
      simp [Reading.step, hp]
    · have hm : marker <:+: bytesSoFar port (n + 1) := by
        rcases hn with hn | hn | hn
        · rw [hp] at hn; cases hn
        · rw [hp] at hn; injection hn with hn; exact absurd hn he
        · exact hn
      refine ⟨some (bytesSoFar port (n + 1)), fun m hlt => after_finished port marker (n + 1) m _ ?_ hlt, fun hc => (by cases hc),
        fun hc => absurd (by injection hc) he, fun _ _ _ => rfl⟩
      rw [Reading.after, h]
      rw [bytesSoFar_succ, hp, Option.getD_some] at hm ⊢
      simp only [Reading.step, hp]
      rw [if_neg (by simpa using he), if_pos ((isIn_iff _ _).2 hm)]

/-- C102: the loop ends only for one of these reasons; and then the outcome is the one that the device model, which gives the outcomes
of the reads of a call as a list, computes. -/
theorem C102_only (port : Nat → Option Bytes) (marker : Bytes) (m : Nat) (r : Option Bytes) (h : Reading.after port marker m = .finished r) :
    (∃ n < m, Ends port marker n) ∧ ∀ rest, readLoop marker [] (firstReads port m ++ rest) = r := by
  constructor
  · by_contra hc
    have := after_running port marker m (fun k hk he => hc ⟨k, hk, he⟩)
    rw [this] at h
    cases h
  · intro rest
    rw [after_iterate] at h
    have := loop_agrees port marker rest m 0 [] r h
    rwa [← List.range_eq_range'] at this

/-- C102 refuted: an adapter that goes on sending without a prompt and without a pause keeps the loop, and so the call, going for ever. -/
theorem C102_ends_refuted : ∃ port : Nat → Option Bytes, ∀ n r, Reading.after port elmPrompt n ≠ .finished r := by
  refine ⟨fun _ => some (ascii "A"), fun n r h => ?_⟩
  obtain ⟨⟨k, -, hk⟩, -⟩ := C102_only _ _ n r h
  rcases hk with hk | hk | hk
  · cases hk
  · have : some (ascii "A") = some [] := hk
    revert this
    decide
  · rw [← isIn_iff, isIn_prompt] at hk
    unfold bytesSoFar at hk
    rw [List.mem_flatten] at hk
    obtain ⟨l, hl, hm⟩ := hk
    obtain ⟨i, -, rfl⟩ := List.mem_map.1 hl
    have : (0x3E : UInt8) ∈ ascii "A" := hm
    revert this
    decide

/-- A port that gives `41`, `0C`, the prompt, then nothing: the loop ends with the third read. -/
def shortPort : Nat → Option Bytes
  | 0 => some (ascii "41")
  | 1 => some (ascii "0C")
  | 2 => some (ascii ">")
  | _ => some []

example : Ends shortPort elmPrompt 2 ∧ (∀ k < 2, ¬ Ends shortPort elmPrompt k) ∧
    Reading.after shortPort elmPrompt 3 = .finished (some (ascii "410C>")) := by
  refine ⟨Or.inr (Or.inr ?_), fun k hk => ?_, by decide⟩
  · rw [← isIn_iff]; decide
  · unfold Ends
    rw [← isIn_iff]
    interval_cases k <;> decide

end Props
