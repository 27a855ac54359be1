import Mathlib.Data.List.Infix
import Verif.Lemmas.Utf8
import Verif.Props.Serial
import Verif.Props.Commands
/-!
# C105: what is read of replies and commands that are not plain ASCII
-/
namespace Props
open Py Model Spec

theorem utf8_nul {s : Str} (h : Char.ofNat 0 ∉ s) : (0 : UInt8) ∉ utf8 s := by
  intro h0
  obtain ⟨c, hc, hb⟩ := List.mem_flatMap.1 h0
  by_cases hl : c.toNat < 0x80
  · rw [encode_ascii c hl, List.mem_singleton] at hb
    have := congrArg UInt8.toNat hb
    have e : (UInt8.ofNat c.toNat).toNat = c.toNat := by simp [UInt8.toNat_ofNat']; omega
    rw [e] at this
    apply h
    have : c.toNat = 0 := this.symm
    rw [← this, Char.ofNat_toNat]; exact hc
  · obtain ⟨q, p, b, h1, h2, h3, h4, -⟩ := encode_chain c (by omega)
    have hpos : ∀ {q p}, Chain q p → (0x80 ≤ p.lo ∧ ∀ x ∈ q, 0x80 ≤ x.toNat) := by
      intro q p h
      induction h with
      | start b p h =>
        rcases start_pend h with ⟨h1, -, rfl⟩ | ⟨h1, -, rfl⟩ | ⟨h1, -, rfl⟩ <;> simp only [List.mem_singleton, forall_eq] <;>
          refine ⟨?_, by omega⟩ <;> (try split) <;> omega
      | step q p b h _ hb ih =>
        refine ⟨Nat.le_refl _, fun x hx => ?_⟩
        rcases List.mem_append.1 hx with hx | hx
        · exact ih.2 x hx
        · rw [List.mem_singleton.1 hx]; have := ih.1; omega
    obtain ⟨g1, g2⟩ := hpos h2
    rw [h1, List.mem_append, List.mem_singleton] at hb
    rcases hb with hb | hb
    · have := g2 _ hb
      simp at this
    · rw [← hb] at h4
      have := h4.1
      simp only [UInt8.toNat_zero] at this
      omega

/-- C105: a reply that is any text in UTF-8, ended by the prompt, is read as that text. -/
theorem C105_text (s : Str) (h0 : Char.ofNat 0 ∉ s) : replyText (utf8 s ++ [0x3E]) = s := by
  rw [C39_prompt _ (utf8_nul h0)]
  have := ignore_utf8 s []
  simpa [utf8Ignore] using this

/-- C105: whatever bytes a reply consists of, the ASCII characters of the text that is read are its ASCII bytes, in order: bytes
outside ASCII can neither hide nor make up any of them. -/
theorem C105_ascii (b : Bytes) : (replyText b).filter (fun c => c.toNat < 0x80) = asciiChars (relevant b) :=
  (ignore_ascii _).1

/-- C105: every character that is read is encoded in the reply. -/
theorem C105_encoded (b : Bytes) (c : Char) (h : c ∈ replyText b) : String.utf8EncodeChar c <:+: relevant b :=
  (ignore_infix c _).1 h

/-- C105: bytes that are not part of any encoded character, anywhere in an ASCII reply, leave no trace. -/
theorem C105_noise (b : Bytes) (h : NoForeign (relevant b)) : replyText b = asciiChars (relevant b) := by
  rw [← C105_ascii, List.filter_eq_self.2]
  intro c hc
  have := C105_encoded b c hc
  simp only [decide_eq_true_eq]
  by_contra hn
  exact h c (by omega) this

/-- C105: so two ASCII replies that differ only by such bytes have the same lines. -/
theorem C105_lines (b b' : Bytes) (h : NoForeign (relevant b)) (h' : NoForeign (relevant b'))
    (he : asciiChars (relevant b) = asciiChars (relevant b')) (lines : List Str) : LinesOf b lines ↔ LinesOf b' lines := by
  unfold LinesOf
  rw [C105_noise b h, C105_noise b' h', he]

/-- C105: asking a command (even one the user made up) for its mode raises exactly if it has two bytes or more and is not UTF-8, then
UnicodeDecodeError; and likewise its PID, from three bytes on. -/
theorem C105_command (c : OBDCommand) (e : Exc) :
    (c.mode = .error e ↔ e = .unicodeDecodeError ∧ 2 ≤ c.command.length ∧ ¬ ∃ s, c.command = utf8 s) ∧
    (c.pid = .error e ↔ e = .unicodeDecodeError ∧ 3 ≤ c.command.length ∧ ¬ ∃ s, c.command = utf8 s) := by
  have hex : ∀ e, c.hexCommand = .error e ↔ e = .unicodeDecodeError ∧ ¬ ∃ s, c.command = utf8 s := by
    intro e
    unfold OBDCommand.hexCommand
    cases hs : utf8Strict none c.command with
    | ok s =>
      simp only [bind, Except.bind, pure, Except.pure, reduceCtorEq, false_iff, not_and, not_not]
      exact fun _ => ⟨s, (strict_iff _ s).1 hs⟩
    | error e' =>
      simp only [bind, Except.bind, Except.error.injEq]
      have := strict_err _ _ _ hs
      subst this
      constructor
      · rintro rfl
        refine ⟨rfl, ?_⟩
        rintro ⟨s, h⟩
        rw [(strict_iff _ s).2 h] at hs; cases hs
      · rintro ⟨rfl, -⟩; rfl
  have key : ∀ (k : Nat) (f : Option Nat), ((do
      if c.command.length ≥ k then
        if ← c.hexCommand then return f else return none
      else return none : Except Exc (Option Nat)) = .error e ↔
        e = .unicodeDecodeError ∧ k ≤ c.command.length ∧ ¬ ∃ s, c.command = utf8 s) := by
    intro k f
    by_cases hk : k ≤ c.command.length
    · rw [if_pos hk]
      cases hc : c.hexCommand with
      | error e' =>
        have := (hex e').1 hc
        simp only [bind, Except.bind, Except.error.injEq]
        constructor
        · rintro rfl; exact ⟨this.1, hk, this.2⟩
        · rintro ⟨rfl, -⟩; exact this.1
      | ok b =>
        have : ∃ s, c.command = utf8 s := by
          by_contra hn
          have := (hex .unicodeDecodeError).2 ⟨rfl, hn⟩
          rw [hc] at this; cases this
        simp only [bind, Except.bind]
        constructor
        · intro h; split at h <;> cases h
        · rintro ⟨-, -, h⟩; exact absurd this h
    · rw [if_neg hk]
      simp only [pure, Except.pure, reduceCtorEq, false_iff, not_and]
      exact fun _ h => absurd h hk
  exact ⟨key 2 _, key 3 _⟩

/-! Concrete cases. -/

/-- A text with a character of each length is read as it is. -/
example : replyText (utf8 "Ü41 €\r😀 OK".toList ++ [0x3E]) = "Ü41 €\r😀 OK".toList := C105_text _ (by decide)

/-- Stray bytes in a reply of an ECU: half a character, impossible bytes, a continuation byte. -/
def noisy : Bytes := ascii "41 0C" ++ [0xE2, 0x82] ++ ascii " 1A" ++ [0xFF, 0xC0] ++ ascii " F8" ++ [0x80] ++ ascii "\r\r>"

theorem noisy_relevant : relevant noisy = ascii "41 0C" ++ [0xE2, 0x82] ++ ascii " 1A" ++ [0xFF, 0xC0] ++ ascii " F8" ++ [0x80] ++ ascii "\r\r" := by
  decide +kernel

theorem noForeign_of {l : Bytes} (h : (l.tails.all fun t => [1, 2, 3, 4].all fun k => match utf8Strict none (t.take k) with
    | .ok [c] => decide (c.toNat < 0x80)
    | _ => true) = true) : NoForeign l := by
  rintro c hc ⟨u, v, rfl⟩
  have ht : String.utf8EncodeChar c ++ v ∈ (u ++ String.utf8EncodeChar c ++ v).tails := by
    rw [List.mem_tails, List.append_assoc]; exact List.suffix_append _ _
  have h1 := List.all_eq_true.1 h _ ht
  have hk : (String.utf8EncodeChar c).length ∈ [1, 2, 3, 4] := by
    unfold String.utf8EncodeChar
    simp only
    repeat' split
    all_goals simp
  have h2 := List.all_eq_true.1 h1 _ hk
  rw [List.take_left, ← List.append_nil (String.utf8EncodeChar c), strict_char, utf8Strict] at h2
  simp only [Except.map, decide_eq_true_eq] at h2
  omega

/-- The same reply without the stray bytes has the same lines. -/
example (lines : List Str) : LinesOf noisy lines ↔ LinesOf (ascii "41 0C 1A F8\r\r>") lines :=
  C105_lines _ _ (noForeign_of (by decide +kernel)) (noForeign_of (by decide +kernel)) (by decide +kernel) lines

example : replyText noisy = "41 0C 1A F8\r\r".toList ∧ asciiChars (relevant noisy) = "41 0C 1A F8\r\r".toList := by
  constructor <;> decide +kernel

/-- A command that is not UTF-8, one that is (but not hexadecimal), and one that is too short to be looked at. -/
example : ({ name := "X", desc := "", command := [0x30, 0xFF], bytes := 0, decode := .rawString } : OBDCommand).mode = .error .unicodeDecodeError ∧
    ({ name := "X", desc := "", command := [0xC3, 0x9C], bytes := 0, decode := .rawString } : OBDCommand).mode = .ok none ∧
    ({ name := "X", desc := "", command := [0xFF], bytes := 0, decode := .rawString } : OBDCommand).mode = .ok none := by
  refine ⟨?_, ?_, ?_⟩ <;> rfl

end Props
