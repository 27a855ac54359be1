import Verif.Lemmas.Serial
/-!
# C39: serial input is split into clean lines
-/
namespace Props
open Py Model Spec

/-- What one read gives: either the port raised, or the lines of the bytes received. -/
theorem C39_lines (dev : Device) (marker : Bytes) (w : EW) (p : Port) (hp : w.elm.port = some p) :
    (∃ b, (w.read dev marker).2.hist = w.hist ++ [.read (some b)] ∧ LinesOf b (w.read dev marker).1) ∨
    ((w.read dev marker).2.hist = w.hist ++ [.read none, .close] ∧ (w.read dev marker).1 = []) := by
  unfold EW.read
  rw [hp]
  simp only
  cases readLoop marker [] (dev.read w.hist) with
  | some b => exact Or.inl ⟨b, rfl, cleanLines_spec b⟩
  | none => exact Or.inr ⟨rfl, rfl⟩

/-- C39: lines contain no carriage return, line feed or NUL, and no blanks at the ends. -/
theorem C39_clean (b : Bytes) (lines : List Str) (h : LinesOf b lines) :
    ∀ l ∈ lines, '\r' ∉ l ∧ '\n' ∉ l ∧ Char.ofNat 0 ∉ l ∧
      (∀ c, l.head? = some c → isSpace c = false) ∧ (∀ c, l.getLast? = some c → isSpace c = false) := by
  intro l hl
  obtain ⟨s, hs, ht⟩ : ∃ s ∈ parts (replyText b), Trimmed isSpace s l := by
    unfold LinesOf at h
    revert hl
    generalize parts (replyText b) = ps at h
    induction h with
    | nil => intro hl; cases hl
    | cons h1 _ ih =>
      intro hl
      rcases List.mem_cons.1 hl with rfl | hl
      · exact ⟨_, List.mem_cons_self .., h1⟩
      · obtain ⟨s, hs, ht⟩ := ih hl; exact ⟨s, List.mem_cons_of_mem _ hs, ht⟩
  have hsub := trimmed_sub _ _ _ ht
  have hmem := splitOnP_mem _ _ _ (List.mem_of_mem_filter hs)
  refine ⟨?_, ?_, ?_, ?_, ?_⟩
  · intro hc; simpa using (hmem _ (hsub _ hc)).2
  · intro hc; simpa using (hmem _ (hsub _ hc)).2
  · intro hc; exact replyText_nul b (hmem _ (hsub _ hc)).1
  · obtain ⟨_, _, -, -, -, h, -⟩ := ht; exact h
  · obtain ⟨_, _, -, -, -, -, h⟩ := ht; exact h

example : LinesOf (ascii "\x00SEARCHING...\r41 00 BE \r\r>") ["SEARCHING...".toList, "41 00 BE".toList] := by
  have : cleanLines (ascii "\x00SEARCHING...\r41 00 BE \r\r>") = ["SEARCHING...".toList, "41 00 BE".toList] := by decide +kernel
  rw [← this]; exact cleanLines_spec _

/-- C39: the lines are determined by the bytes. -/
theorem C39_unique (b : Bytes) (l l' : List Str) (h : LinesOf b l) (h' : LinesOf b l') : l = l' :=
  (linesOf_unique h).trans (linesOf_unique h').symm

theorem isIn_prompt (l : Bytes) : isIn elmPrompt l = true ↔ (0x3E : UInt8) ∈ l := by
  have e : elmPrompt = [0x3E] := by decide
  rw [e]
  induction l with
  | nil => simp [isIn]
  | cons a l ih => simp [isIn, List.isPrefixOf, ih]

/-- C39: the bytes up to the prompt are received whole, however they are split into chunks
and whatever the adapter would send afterwards. -/
theorem C39_chunks (dev : Device) (w : EW) (p : Port) (hp : w.elm.port = some p) (body : Bytes)
    (hb : (0x3E : UInt8) ∉ body) (cs : List Bytes) (rest : List (Option Bytes)) (hne : ∀ c ∈ cs, c ≠ [])
    (hcs : cs.flatten = body ++ [0x3E]) (hr : dev.read w.hist = cs.map some ++ rest) :
    (w.read dev elmPrompt).2.hist = w.hist ++ [.read (some (body ++ [0x3E]))] ∧
      LinesOf (body ++ [0x3E]) (w.read dev elmPrompt).1 := by
  have hnil : cs ≠ [] := by intro e; rw [e] at hcs; simp at hcs
  have hloop : readLoop elmPrompt [] (cs.map some ++ rest) = some (body ++ [0x3E]) := by
    have := readLoop_chunks elmPrompt [] cs rest hne ?_ ?_ hnil
    · simpa [hcs] using this
    · intro k hk
      left
      have hpre : (cs.take k).flatten <+: body := by
        have h1 : cs.flatten = (cs.take k).flatten ++ (cs.drop k).flatten := by
          rw [← List.flatten_append, List.take_append_drop]
        have h2 : (cs.drop k).flatten ≠ [] := by
          obtain ⟨c, t, e⟩ := List.exists_cons_of_ne_nil (l := cs.drop k) (by
            intro e; have := congrArg List.length e; simp at this; omega)
          rw [e]
          have := hne c (List.mem_of_mem_drop (by rw [e]; exact List.mem_cons_self ..))
          simp [this]
        have h3 : (cs.take k).flatten <+: body ++ [0x3E] := by rw [← hcs, h1]; exact List.prefix_append _ _
        apply List.prefix_of_prefix_length_le h3 (List.prefix_append _ _)
        have := congrArg List.length (h1.symm.trans hcs)
        have hpos := List.length_pos_iff.2 h2
        simp only [List.length_append, List.length_singleton] at this
        omega
      have : ¬ (isIn elmPrompt ([] ++ (cs.take k).flatten) = true) := by
        rw [isIn_prompt]
        intro hm
        exact hb (hpre.subset (by simpa using hm))
      simpa using this
    · rw [isIn_prompt]; simp [hcs]
  unfold EW.read
  rw [hp]
  simp only [hr, hloop]
  exact ⟨trivial, cleanLines_spec _⟩

/-- C39: a prompt that ends the reply is not part of the text. -/
theorem C39_prompt (body : Bytes) (h0 : (0 : UInt8) ∉ body) :
    replyText (body ++ [0x3E]) = utf8Ignore none body := by
  have : body.filter (fun x => x != 0) = body := by
    rw [List.filter_eq_self]
    intro x hx
    simpa using fun (e : x = 0) => h0 (e ▸ hx)
  simp [replyText, List.filter_append, this]

/-- C39: without a prompt, everything received before the silence counts. -/
theorem C39_timeout (dev : Device) (w : EW) (p : Port) (hp : w.elm.port = some p)
    (cs : List Bytes) (rest : List (Option Bytes)) (hne : ∀ c ∈ cs, c ≠ [])
    (hcs : (0x3E : UInt8) ∉ cs.flatten) (hr : dev.read w.hist = cs.map some ++ some [] :: rest ∨ dev.read w.hist = cs.map some) :
    (w.read dev elmPrompt).2.hist = w.hist ++ [.read (some cs.flatten)] ∧ LinesOf cs.flatten (w.read dev elmPrompt).1 := by
  have main : ∀ acc, (0x3E : UInt8) ∉ acc → readLoop elmPrompt acc (dev.read w.hist) = some (acc ++ cs.flatten) := by
    have step : ∀ (cs : List Bytes) (tail : List (Option Bytes)) (acc : Bytes), (∀ c ∈ cs, c ≠ []) → (0x3E : UInt8) ∉ cs.flatten →
        (0x3E : UInt8) ∉ acc → (tail = [] ∨ ∃ r, tail = some [] :: r) →
        readLoop elmPrompt acc (cs.map some ++ tail) = some (acc ++ cs.flatten) := by
      intro cs tail
      induction cs with
      | nil =>
        intro acc _ _ _ ht
        rcases ht with rfl | ⟨r, rfl⟩ <;> simp [readLoop]
      | cons c cs ih =>
        intro acc h1 h2 h3 ht
        simp only [List.flatten_cons, List.mem_append, not_or] at h2
        simp only [List.map_cons, List.cons_append, readLoop]
        rw [if_neg (by simp [h1 c (List.mem_cons_self ..)]), if_neg (by
          rw [isIn_prompt]; simp [h3, h2.1])]
        rw [ih (acc ++ c) (fun d hd => h1 d (List.mem_cons_of_mem _ hd)) h2.2 (by simp [h3, h2.1]) ht]
        simp
    intro acc ha
    rcases hr with hr | hr <;> rw [hr]
    · exact step cs _ acc hne hcs ha (Or.inr ⟨rest, rfl⟩)
    · have := step cs [] acc hne hcs ha (Or.inl rfl)
      simpa using this
  unfold EW.read
  rw [hp]
  simp only [main [] (by simp), List.nil_append]
  exact ⟨trivial, cleanLines_spec _⟩

example : LinesOf (ascii "41 00 BE \r\n  NO DATA\r\r>") ["41 00 BE".toList, "NO DATA".toList] := by
  have : cleanLines (ascii "41 00 BE \r\n  NO DATA\r\r>") = ["41 00 BE".toList, "NO DATA".toList] := by decide +kernel
  rw [← this]; exact cleanLines_spec _

end Props
