import Verif.Spec.Utf8
import Verif.Lemmas.Serial
/-!
# Python's `decode` and the UTF-8 encoding of Lean's library
-/
namespace Props
open Py Model Spec

/-- The bytes `q` bring the decoder into state `p`. -/
inductive Chain : Bytes → Pend → Prop
  | start (b : UInt8) (p : Pend) (h : utf8Start b = .pend p) : Chain [b] p
  | step (q : Bytes) (p : Pend) (b : UInt8) (h : Chain q p) (hn : p.need ≠ 1) (hb : p.lo ≤ b.toNat ∧ b.toNat ≤ p.hi) :
      Chain (q ++ [b]) ⟨p.need - 1, p.acc * 64 + (b.toNat - 0x80), 0x80, 0xBF⟩

theorem start_pend {b : UInt8} {p : Pend} (h : utf8Start b = .pend p) :
    (0xC2 ≤ b.toNat ∧ b.toNat < 0xE0 ∧ p = ⟨1, b.toNat - 0xC0, 0x80, 0xBF⟩) ∨
    (0xE0 ≤ b.toNat ∧ b.toNat < 0xF0 ∧ p = ⟨2, b.toNat - 0xE0, if b.toNat = 0xE0 then 0xA0 else 0x80, if b.toNat = 0xED then 0x9F else 0xBF⟩) ∨
    (0xF0 ≤ b.toNat ∧ b.toNat < 0xF5 ∧ p = ⟨3, b.toNat - 0xF0, if b.toNat = 0xF0 then 0x90 else 0x80, if b.toNat = 0xF4 then 0x8F else 0xBF⟩) := by
  unfold utf8Start at h
  simp only at h
  split at h
  · cases h
  split at h
  · cases h
  split at h
  · injection h with h; left; exact ⟨by omega, by omega, h.symm⟩
  split at h
  · next h1 => injection h with h; right; left; exact ⟨by omega, by omega, by rw [← h, h1]; rfl⟩
  split at h
  · next h1 => injection h with h; right; left; exact ⟨by omega, by omega, by rw [← h, h1]; rfl⟩
  split at h
  · next h1 h2 h3 => injection h with h; right; left; exact ⟨by omega, by omega, by rw [← h, if_neg h1, if_neg h2]⟩
  split at h
  · next h1 => injection h with h; right; right; exact ⟨by omega, by omega, by rw [← h, h1]; rfl⟩
  split at h
  · next h1 h2 => injection h with h; right; right; exact ⟨by omega, by omega, by rw [← h, if_neg h1, if_neg (by omega)]⟩
  split at h
  · next h1 => injection h with h; right; right; exact ⟨by omega, by omega, by rw [← h, h1]; rfl⟩
  · cases h

theorem pend_start (b : UInt8) :
    (0xC2 ≤ b.toNat → b.toNat < 0xE0 → utf8Start b = .pend ⟨1, b.toNat - 0xC0, 0x80, 0xBF⟩) ∧
    (0xE0 ≤ b.toNat → b.toNat < 0xF0 → utf8Start b = .pend ⟨2, b.toNat - 0xE0, if b.toNat = 0xE0 then 0xA0 else 0x80, if b.toNat = 0xED then 0x9F else 0xBF⟩) ∧
    (0xF0 ≤ b.toNat → b.toNat < 0xF5 → utf8Start b = .pend ⟨3, b.toNat - 0xF0, if b.toNat = 0xF0 then 0x90 else 0x80, if b.toNat = 0xF4 then 0x8F else 0xBF⟩) := by
  unfold utf8Start
  simp only
  refine ⟨fun h1 h2 => ?_, fun h1 h2 => ?_, fun h1 h2 => ?_⟩
  · rw [if_neg (by omega), if_neg (by omega), if_pos (by omega)]
  · rw [if_neg (by omega), if_neg (by omega), if_neg (by omega)]
    by_cases h3 : b.toNat = 0xE0
    · rw [if_pos h3, h3]; rfl
    · rw [if_neg h3]
      by_cases h4 : b.toNat = 0xED
      · rw [if_pos h4, h4]; rfl
      · rw [if_neg h4, if_pos (by omega), if_neg h3, if_neg h4]
  · rw [if_neg (by omega), if_neg (by omega), if_neg (by omega), if_neg (by omega), if_neg (by omega), if_neg (by omega)]
    by_cases h3 : b.toNat = 0xF0
    · rw [if_pos h3, h3]; rfl
    · rw [if_neg h3]
      by_cases h4 : b.toNat = 0xF4
      · rw [if_neg (by omega), if_pos h4, h4]; rfl
      · rw [if_pos (by omega), if_neg h3, if_neg h4]

theorem byte_eq {n : Nat} {b : UInt8} (h : n = b.toNat) : UInt8.ofNat n = b := by
  subst h; simp

theorem val_ofNat {n : Nat} (h : n.isValidChar) : (Char.ofNat n).val.toNat = n := char_toNat_ofNat n h

/-- A completed sequence is the encoding of the character it gives. -/
theorem chain_encode {q : Bytes} {p : Pend} (h : Chain q p) (hn : p.need = 1) (b : UInt8) (hb : p.lo ≤ b.toNat ∧ b.toNat ≤ p.hi) :
    String.utf8EncodeChar (Char.ofNat (p.acc * 64 + (b.toNat - 0x80))) = q ++ [b] ∧ 0x80 ≤ p.acc * 64 + (b.toNat - 0x80) ∧
      (p.acc * 64 + (b.toNat - 0x80)).isValidChar := by
  cases h with
  | start b0 p h =>
    rcases start_pend h with ⟨h1, h2, rfl⟩ | ⟨h1, h2, rfl⟩ | ⟨h1, h2, rfl⟩
    · simp only at hb hn ⊢
      have hv : ((b0.toNat - 0xC0) * 64 + (b.toNat - 0x80)).isValidChar := by unfold Nat.isValidChar; omega
      refine ⟨?_, by omega, hv⟩
      unfold String.utf8EncodeChar
      simp only [val_ofNat hv]
      rw [if_neg (by omega), if_pos (by omega)]
      simp only [List.cons_append, List.nil_append, List.cons.injEq, and_true]
      exact ⟨byte_eq (by omega), byte_eq (by omega)⟩
    · cases hn
    · cases hn
  | step q p b1 h hn1 hb1 =>
    cases h with
    | start b0 p h =>
      rcases start_pend h with ⟨h1, h2, rfl⟩ | ⟨h1, h2, rfl⟩ | ⟨h1, h2, rfl⟩
      · exact absurd rfl hn1
      · simp only at hb hb1 ⊢
        have hx : (b0.toNat = 0xE0 → 0xA0 ≤ b1.toNat) ∧ 0x80 ≤ b1.toNat ∧ (b0.toNat = 0xED → b1.toNat ≤ 0x9F) ∧ b1.toNat ≤ 0xBF := by
          obtain ⟨g1, g2⟩ := hb1
          split at g1 <;> split at g2 <;> omega
        have hv : (((b0.toNat - 0xE0) * 64 + (b1.toNat - 0x80)) * 64 + (b.toNat - 0x80)).isValidChar := by
          unfold Nat.isValidChar; omega
        refine ⟨?_, by omega, hv⟩
        unfold String.utf8EncodeChar
        simp only [val_ofNat hv]
        rw [if_neg (by omega), if_neg (by omega), if_pos (by omega)]
        simp only [List.cons_append, List.nil_append, List.cons.injEq, and_true]
        exact ⟨byte_eq (by omega), byte_eq (by omega), byte_eq (by omega)⟩
      · cases hn
    | step q p b2 h hn2 hb2 =>
      cases h with
      | start b0 p h =>
        rcases start_pend h with ⟨h1, h2, rfl⟩ | ⟨h1, h2, rfl⟩ | ⟨h1, h2, rfl⟩
        · exact absurd rfl hn2
        · exact absurd rfl hn1
        · simp only at hb hb1 hb2 ⊢
          have hx : (b0.toNat = 0xF0 → 0x90 ≤ b2.toNat) ∧ 0x80 ≤ b2.toNat ∧ (b0.toNat = 0xF4 → b2.toNat ≤ 0x8F) ∧ b2.toNat ≤ 0xBF := by
            obtain ⟨g1, g2⟩ := hb2
            split at g1 <;> split at g2 <;> omega
          have hv : ((((b0.toNat - 0xF0) * 64 + (b2.toNat - 0x80)) * 64 + (b1.toNat - 0x80)) * 64 + (b.toNat - 0x80)).isValidChar := by
            unfold Nat.isValidChar; omega
          refine ⟨?_, by omega, hv⟩
          unfold String.utf8EncodeChar
          simp only [val_ofNat hv]
          rw [if_neg (by omega), if_neg (by omega), if_neg (by omega)]
          simp only [List.cons_append, List.nil_append, List.cons.injEq, and_true]
          exact ⟨byte_eq (by omega), byte_eq (by omega), byte_eq (by omega), byte_eq (by omega)⟩
      | step q p b3 h hn3 hb3 =>
        exfalso
        have : p.need ≤ 3 := by
          clear hn hn1 hn2 hn3 hb hb1 hb2 hb3
          induction h with
          | start b0 p h => rcases start_pend h with ⟨-, -, rfl⟩ | ⟨-, -, rfl⟩ | ⟨-, -, rfl⟩ <;> simp
          | step q p b h _ _ ih => simp only; omega
        simp only at hn hn1 hn2
        omega

/-- Encodings outside ASCII are completed sequences. -/
theorem encode_chain (c : Char) (hc : 0x80 ≤ c.toNat) : ∃ q p b, String.utf8EncodeChar c = q ++ [b] ∧ Chain q p ∧ p.need = 1 ∧
    (p.lo ≤ b.toNat ∧ b.toNat ≤ p.hi) ∧ c = Char.ofNat (p.acc * 64 + (b.toNat - 0x80)) := by
  have hv := c.valid
  have hcv : c.toNat = c.val.toNat := rfl
  have hval : c.val.toNat < 0xD800 ∨ 0xDFFF < c.val.toNat ∧ c.val.toNat < 0x110000 := hv
  have hof : ∀ n, n = c.val.toNat → c = Char.ofNat n := by
    intro n h; subst h; exact (Char.ofNat_toNat c).symm
  have tn : ∀ n, n < 256 → (UInt8.ofNat n).toNat = n := fun n h => by simp [UInt8.toNat_ofNat']; omega
  unfold String.utf8EncodeChar
  simp only
  generalize hw : c.val.toNat = v at *
  rw [if_neg (by omega)]
  by_cases h1 : v ≤ 0x7FF
  · rw [if_pos h1]
    have e0 := tn (v / 64 % 0x20 + 0xC0) (by omega)
    have e1 := tn (v % 0x40 + 0x80) (by omega)
    refine ⟨[_], _, _, rfl, .start _ _ ((pend_start _).1 (by rw [e0]; omega) (by rw [e0]; omega)), rfl, ?_, hof _ ?_⟩
    · rw [e1]; simp only; omega
    · rw [e1]; simp only [e0]; omega
  · rw [if_neg h1]
    by_cases h2 : v ≤ 0xFFFF
    · rw [if_pos h2]
      have e0 := tn (v / 4096 % 0x10 + 0xE0) (by omega)
      have e1 := tn (v / 64 % 0x40 + 0x80) (by omega)
      have e2 := tn (v % 0x40 + 0x80) (by omega)
      refine ⟨[_, _], _, _, rfl, .step [_] _ _ (.start _ _ ((pend_start _).2.1 (by rw [e0]; omega) (by rw [e0]; omega))) (by simp) ?_, rfl, ?_, hof _ ?_⟩
      · rw [e1]; simp only [e0]
        constructor <;> split <;> omega
      · rw [e2]; simp only; omega
      · rw [e2]; simp only [e0, e1]; omega
    · rw [if_neg h2]
      have e0 := tn (v / 262144 % 0x08 + 0xF0) (by omega)
      have e1 := tn (v / 4096 % 0x40 + 0x80) (by omega)
      have e2 := tn (v / 64 % 0x40 + 0x80) (by omega)
      have e3 := tn (v % 0x40 + 0x80) (by omega)
      refine ⟨[_, _, _], _, _, rfl, .step [_, _] _ _ (.step [_] _ _ (.start _ _ ((pend_start _).2.2 (by rw [e0]; omega) (by rw [e0]; omega))) (by simp) ?_)
        (by simp) ?_, rfl, ?_, hof _ ?_⟩
      · rw [e1]; simp only [e0]
        constructor <;> split <;> omega
      · rw [e2]; simp only; omega
      · rw [e3]; simp only; omega
      · rw [e3]; simp only [e0, e1, e2]; omega

theorem encode_ascii (c : Char) (hc : c.toNat < 0x80) : String.utf8EncodeChar c = [UInt8.ofNat c.toNat] := by
  have hcv : c.toNat = c.val.toNat := rfl
  unfold String.utf8EncodeChar
  simp only
  rw [if_pos (by omega), hcv]

theorem start_ascii {b : UInt8} (h : b.toNat < 0x80) : utf8Start b = .char (Char.ofNat b.toNat) := by
  unfold utf8Start; simp only; rw [if_pos h]

theorem start_char {b : UInt8} {c : Char} (h : utf8Start b = .char c) : b.toNat < 0x80 ∧ c = Char.ofNat b.toNat := by
  unfold utf8Start at h
  simp only at h
  repeat' split at h
  all_goals first
    | (cases h; done)
    | skip
  next hb => injection h with h; exact ⟨hb, h.symm⟩

theorem strict_chain {q : Bytes} {p : Pend} (h : Chain q p) : ∀ bs, utf8Strict none (q ++ bs) = utf8Strict (some p) bs := by
  induction h with
  | start b p h => intro bs; rw [List.singleton_append, utf8Strict, h]
  | step q p b h hn hb ih =>
    intro bs
    rw [List.append_assoc, ih, List.singleton_append, utf8Strict, if_pos hb, if_neg hn]

theorem ignore_chain {q : Bytes} {p : Pend} (h : Chain q p) : ∀ bs, utf8Ignore none (q ++ bs) = utf8Ignore (some p) bs := by
  induction h with
  | start b p h => intro bs; rw [List.singleton_append, utf8Ignore, h]
  | step q p b h hn hb ih =>
    intro bs
    rw [List.append_assoc, ih, List.singleton_append, utf8Ignore, if_pos hb, if_neg hn]

theorem strict_char (c : Char) (bs : Bytes) : utf8Strict none (String.utf8EncodeChar c ++ bs) = (utf8Strict none bs).map (c :: ·) := by
  by_cases hc : c.toNat < 0x80
  · have e : (UInt8.ofNat c.toNat).toNat = c.toNat := by simp [UInt8.toNat_ofNat']; omega
    rw [encode_ascii c hc, List.singleton_append, utf8Strict, start_ascii (by rw [e]; exact hc), e, Char.ofNat_toNat]
  · obtain ⟨q, p, b, h1, h2, h3, h4, h5⟩ := encode_chain c (by omega)
    rw [h1, List.append_assoc, strict_chain h2, List.singleton_append, utf8Strict, if_pos h4, if_pos h3, ← h5]

theorem ignore_char (c : Char) (bs : Bytes) : utf8Ignore none (String.utf8EncodeChar c ++ bs) = c :: utf8Ignore none bs := by
  by_cases hc : c.toNat < 0x80
  · have e : (UInt8.ofNat c.toNat).toNat = c.toNat := by simp [UInt8.toNat_ofNat']; omega
    rw [encode_ascii c hc, List.singleton_append, utf8Ignore, start_ascii (by rw [e]; exact hc), e, Char.ofNat_toNat]
  · obtain ⟨q, p, b, h1, h2, h3, h4, h5⟩ := encode_chain c (by omega)
    rw [h1, List.append_assoc, ignore_chain h2, List.singleton_append, utf8Ignore, if_pos h4, if_pos h3, ← h5]

theorem strict_utf8 (s : Str) : utf8Strict none (utf8 s) = .ok s := by
  induction s with
  | nil => rw [utf8, List.flatMap_nil, utf8Strict]
  | cons c s ih =>
    unfold utf8 at ih ⊢
    rw [List.flatMap_cons, strict_char, ih]; rfl

theorem ignore_utf8 (s : Str) (bs : Bytes) : utf8Ignore none (utf8 s ++ bs) = s ++ utf8Ignore none bs := by
  induction s with
  | nil => rfl
  | cons c s ih =>
    unfold utf8 at ih ⊢
    rw [List.flatMap_cons, List.append_assoc, ignore_char, ih]; rfl

theorem strict_sound : ∀ (bs : Bytes), (∀ s, utf8Strict none bs = .ok s → bs = utf8 s) ∧
    ∀ q p, Chain q p → ∀ s, utf8Strict (some p) bs = .ok s → q ++ bs = utf8 s := by
  intro bs
  induction bs with
  | nil =>
    refine ⟨fun s h => ?_, fun q p _ s h => ?_⟩
    · rw [utf8Strict] at h; cases h; rfl
    · rw [utf8Strict] at h; cases h
  | cons b bs ih =>
    have push : ∀ (c : Char) (s : Str), (utf8Strict none bs).map (c :: ·) = .ok s → ∃ s', s = c :: s' ∧ bs = utf8 s' := by
      intro c s h
      cases hs : utf8Strict none bs with
      | error e => rw [hs] at h; cases h
      | ok s' =>
        rw [hs] at h
        simp only [Except.map, Except.ok.injEq] at h
        exact ⟨s', h.symm, ih.1 s' hs⟩
    refine ⟨fun s h => ?_, fun q p hch s h => ?_⟩
    · rw [utf8Strict] at h
      cases hs : utf8Start b with
      | char c =>
        rw [hs] at h
        obtain ⟨s', rfl, h2⟩ := push c s h
        obtain ⟨h3, rfl⟩ := start_char hs
        have hv : b.toNat.isValidChar := by unfold Nat.isValidChar; omega
        have e : (Char.ofNat b.toNat).toNat = b.toNat := char_toNat_ofNat _ hv
        unfold utf8 at h2 ⊢
        rw [List.flatMap_cons, encode_ascii _ (by rw [e]; exact h3), e, ← h2]
        simp
      | pend p =>
        rw [hs] at h
        exact ih.2 [b] p (.start b p hs) s h
      | bad => rw [hs] at h; cases h
    · rw [utf8Strict] at h
      split at h
      · next hb =>
        split at h
        · next hn =>
          obtain ⟨s', rfl, h2⟩ := push _ s h
          have := (chain_encode hch hn b hb).1
          unfold utf8 at h2 ⊢
          rw [List.flatMap_cons, this, ← h2, List.append_assoc]; rfl
        · next hn =>
          have := ih.2 _ _ (.step q p b hch hn hb) s h
          rw [← this, List.append_assoc]; rfl
      · cases h

/-- `bytes.decode()` succeeds exactly on encodings, with the text that was encoded. -/
theorem strict_iff (bs : Bytes) (s : Str) : utf8Strict none bs = .ok s ↔ bs = utf8 s :=
  ⟨(strict_sound bs).1 s, fun h => by rw [h]; exact strict_utf8 s⟩

theorem strict_err : ∀ (bs : Bytes) (st : Option Pend) (e : Exc), utf8Strict st bs = .error e → e = .unicodeDecodeError := by
  intro bs
  induction bs with
  | nil => intro st e h; cases st <;> rw [utf8Strict] at h <;> cases h; rfl
  | cons b bs ih =>
    have push : ∀ (c : Char) (e : Exc), (utf8Strict none bs).map (c :: ·) = .error e → e = .unicodeDecodeError := by
      intro c e h
      cases hs : utf8Strict none bs with
      | error e' => rw [hs] at h; cases h; exact ih none _ hs
      | ok s' => rw [hs] at h; cases h
    intro st e h
    cases st with
    | none =>
      rw [utf8Strict] at h
      cases hs : utf8Start b with
      | char c => rw [hs] at h; exact push c e h
      | pend p => rw [hs] at h; exact ih _ e h
      | bad => rw [hs] at h; cases h; rfl
    | some p =>
      rw [utf8Strict] at h
      split at h
      · split at h
        · exact push _ e h
        · exact ih _ e h
      · cases h; rfl

/-- `bytes.decode("utf-8", "ignore")` gives only characters that are encoded in the bytes. -/
theorem ignore_infix (c : Char) : ∀ (bs : Bytes), (c ∈ utf8Ignore none bs → String.utf8EncodeChar c <:+: bs) ∧
    ∀ q p, Chain q p → c ∈ utf8Ignore (some p) bs → String.utf8EncodeChar c <:+: q ++ bs := by
  intro bs
  induction bs with
  | nil =>
    refine ⟨fun h => ?_, fun q p _ h => ?_⟩ <;> rw [utf8Ignore] at h <;> cases h
  | cons b bs ih =>
    have start : c ∈ (match utf8Start b with
        | .char c => c :: utf8Ignore none bs
        | .pend p => utf8Ignore (some p) bs
        | .bad => utf8Ignore none bs) → String.utf8EncodeChar c <:+: b :: bs := by
      intro h
      cases hs : utf8Start b with
      | char c' =>
        rw [hs] at h
        rcases List.mem_cons.1 h with rfl | h
        · obtain ⟨h3, rfl⟩ := start_char hs
          have hv : b.toNat.isValidChar := by unfold Nat.isValidChar; omega
          have e : (Char.ofNat b.toNat).toNat = b.toNat := char_toNat_ofNat _ hv
          rw [encode_ascii _ (by rw [e]; exact h3), e]
          exact ⟨[], bs, by simp⟩
        · exact List.IsInfix.trans (ih.1 h) (List.suffix_cons b bs).isInfix
      | pend p => rw [hs] at h; exact ih.2 [b] p (.start b p hs) h
      | bad => rw [hs] at h; exact List.IsInfix.trans (ih.1 h) (List.suffix_cons b bs).isInfix
    refine ⟨fun h => ?_, fun q p hch h => ?_⟩
    · rw [utf8Ignore] at h; exact start h
    · rw [utf8Ignore] at h
      split at h
      · next hb =>
        split at h
        · next hn =>
          rcases List.mem_cons.1 h with hc | h
          · rw [hc, (chain_encode hch hn b hb).1]
            exact ⟨[], bs, by simp⟩
          · exact List.IsInfix.trans (ih.1 h) ⟨q ++ [b], [], by simp⟩
        · next hn =>
          have := ih.2 _ _ (.step q p b hch hn hb) h
          rwa [List.append_assoc, List.singleton_append] at this
      · exact List.IsInfix.trans (start h) (List.suffix_append q (b :: bs)).isInfix

/-- `bytes.decode("utf-8", "ignore")` keeps exactly the ASCII characters, in order. -/
theorem ignore_ascii : ∀ (bs : Bytes), (utf8Ignore none bs).filter (fun c => c.toNat < 0x80) = asciiChars bs ∧
    ∀ q p, Chain q p → (utf8Ignore (some p) bs).filter (fun c => c.toNat < 0x80) = asciiChars bs := by
  intro bs
  induction bs with
  | nil => exact ⟨by rw [utf8Ignore]; rfl, fun q p _ => by rw [utf8Ignore]; rfl⟩
  | cons b bs ih =>
    have start : (match utf8Start b with
        | .char c => c :: utf8Ignore none bs
        | .pend p => utf8Ignore (some p) bs
        | .bad => utf8Ignore none bs).filter (fun c => c.toNat < 0x80) = asciiChars (b :: bs) := by
      have hi : ¬ b.toNat < 0x80 → asciiChars (b :: bs) = asciiChars bs := by
        intro h; unfold asciiChars; rw [List.filter_cons_of_neg (by simpa using h)]
      cases hs : utf8Start b with
      | char c' =>
        obtain ⟨h3, rfl⟩ := start_char hs
        have hv : b.toNat.isValidChar := by unfold Nat.isValidChar; omega
        have e : (Char.ofNat b.toNat).toNat = b.toNat := char_toNat_ofNat _ hv
        simp only
        rw [List.filter_cons_of_pos (by rw [e]; simpa using h3), ih.1]
        unfold asciiChars
        rw [List.filter_cons_of_pos (by simpa using h3)]; rfl
      | pend p =>
        simp only
        rw [ih.2 [b] p (.start b p hs), hi]
        rcases start_pend hs with ⟨h, -⟩ | ⟨h, -⟩ | ⟨h, -⟩ <;> omega
      | bad =>
        simp only
        rw [ih.1, hi]
        intro h
        rw [start_ascii h] at hs; cases hs
    refine ⟨by rw [utf8Ignore]; exact start, fun q p hch => ?_⟩
    rw [utf8Ignore]
    split
    · next hb =>
      have hlo : ∀ {q p}, Chain q p → 0x80 ≤ p.lo := by
        intro q p h
        cases h with
        | start b p h => rcases start_pend h with ⟨-, -, rfl⟩ | ⟨-, -, rfl⟩ | ⟨-, -, rfl⟩ <;> simp only <;> (try split) <;> omega
        | step => exact Nat.le_refl _
      have hi : asciiChars (b :: bs) = asciiChars bs := by
        have := hlo hch
        unfold asciiChars; rw [List.filter_cons_of_neg (by simp; omega)]
      rw [hi]
      split
      · next hn =>
        obtain ⟨-, h2, h3⟩ := chain_encode hch hn b hb
        rw [List.filter_cons_of_neg (by rw [char_toNat_ofNat _ h3]; simpa using h2), ih.1]
      · next hn => exact ih.2 _ _ (.step q p b hch hn hb)
    · exact start

end Props
