import Verif.Model.Show
import Verif.Spec.PyValue
import Verif.Props.Repr
import Verif.Props.Printed
/-!
# C106: what printing a response shows
-/
namespace Props
open Py Model Spec

private theorem inter_cons {α : Type} (sep x y : List α) (r : List (List α)) :
    sep.intercalate (x :: y :: r) = x ++ (sep ++ sep.intercalate (y :: r)) := by
  simp [List.intercalate]

/-- A separated list of items, then the closing bracket, is read back. -/
private theorem items_text {α : Type} (item : Str → Option (α × Str)) (text : α → Str) (close : Char) (hc : close ≠ ',')
    (hi : ∀ a s, item (text a ++ s) = some (a, s)) : ∀ (l : List α) (n : Nat) (s : Str), l ≠ [] → l.length ≤ n →
    items item close n (", ".toList.intercalate (l.map text) ++ close :: s) = some (l, s)
  | [], _, _, h, _ => absurd rfl h
  | _ :: _, 0, _, _, h => by simp at h
  | [a], n + 1, s, _, _ => by
    have : ", ".toList.intercalate ([a].map text) = text a := by simp [List.intercalate]
    rw [this]
    simp only [items, hi, Option.bind_eq_bind, Option.bind_some]
    split
    · rename_i e; injection e with e; exact absurd e hc
    · rename_i e; injection e with e; exact absurd e hc
    · rename_i e; injection e with e1 e2; subst e1; subst e2; simp
    · rename_i e; cases e
  | a :: b :: l, n + 1, s, _, h => by
    rw [List.map_cons, List.map_cons, inter_cons, List.append_assoc]
    simp only [items, hi, Option.bind_eq_bind, Option.bind_some]
    have := items_text item text close hc hi (b :: l) n s (by simp) (by simpa using h)
    rw [List.map_cons] at this
    have e : (", ".toList ++ ", ".toList.intercalate (text b :: l.map text)) ++ close :: s =
        ',' :: ' ' :: (", ".toList.intercalate (text b :: l.map text) ++ close :: s) := rfl
    rw [e]
    simp only [this, Option.map_some]

private theorem inter_len {α : Type} (text : α → Str) (hp : ∀ a, text a ≠ []) : ∀ l : List α,
    l.length ≤ (", ".toList.intercalate (l.map text)).length
  | [] => by simp
  | [a] => by
    have : ", ".toList.intercalate ([a].map text) = text a := by simp [List.intercalate]
    rw [this]
    exact List.length_pos_iff.2 (hp a)
  | a :: b :: l => by
    have := inter_len text hp (b :: l)
    rw [List.map_cons, List.map_cons, inter_cons]
    rw [List.map_cons] at this
    simp only [List.length_append, List.length_cons] at this ⊢
    have h2 : (", ".toList).length = 2 := rfl
    omega

private theorem head_ne (l : Str) (h : l ≠ []) : ∃ c r, l = c :: r := by
  cases l with
  | nil => exact absurd rfl h
  | cons c r => exact ⟨c, r, rfl⟩

/-- A list display is read back. -/
private theorem list_text {α : Type} (item : Str → Option (α × Str)) (text : α → Str)
    (hi : ∀ a s, item (text a ++ s) = some (a, s)) (hp : ∀ a, ∃ c r, text a = c :: r ∧ c ≠ ']') (l : List α) (s : Str) :
    display item '[' ']' (listText (l.map text) ++ s) = some (l, s) := by
  have hne : ∀ a, text a ≠ [] := fun a => by obtain ⟨c, r, e, -⟩ := hp a; simp [e]
  cases l with
  | nil => rfl
  | cons a l =>
    have key := items_text item text ']' (by decide) hi (a :: l)
      ((", ".toList.intercalate ((a :: l).map text) ++ ']' :: s)).length s (by simp)
      (by have := inter_len text hne (a :: l); simp only [List.length_append]; omega)
    obtain ⟨c, r, e, hc⟩ := hp a
    have e2 : ∃ r', ", ".toList.intercalate ((a :: l).map text) = c :: r' := by
      cases l with
      | nil => exact ⟨r, by simp [List.intercalate, e]⟩
      | cons b l => rw [List.map_cons, List.map_cons, inter_cons, e]; exact ⟨_, rfl⟩
    obtain ⟨r', e2⟩ := e2
    have e3 : listText ((a :: l).map text) ++ s = '[' :: (", ".toList.intercalate ((a :: l).map text) ++ ']' :: s) := by
      simp [listText]
    rw [e3]
    simp only [display, if_true]
    rw [e2] at key ⊢
    simp only [List.cons_append, if_neg hc] at key ⊢
    exact key

/-- A tuple display is read back. -/
private theorem tuple_text {α : Type} (item : Str → Option (α × Str)) (text : α → Str)
    (hi : ∀ a s, item (text a ++ s) = some (a, s)) (hp : ∀ a, ∃ c r, text a = c :: r ∧ c ≠ ')') (l : List α) (s : Str) :
    display item '(' ')' (tupleText (l.map text) ++ s) = some (l, s) := by
  have hne : ∀ a, text a ≠ [] := fun a => by obtain ⟨c, r, e, -⟩ := hp a; simp [e]
  match l with
  | [] => rfl
  | [a] =>
    obtain ⟨c, r, e, hc⟩ := hp a
    have e3 : tupleText ([a].map text) ++ s = '(' :: (text a ++ ',' :: ')' :: s) := by simp [tupleText]
    rw [e3]
    simp only [display, if_true]
    have h1 : items item ')' ((text a ++ ',' :: ')' :: s).length) (text a ++ ',' :: ')' :: s) = some ([a], s) := by
      obtain ⟨n, hn⟩ : ∃ n, (text a ++ ',' :: ')' :: s).length = n + 1 := ⟨(text a).length + s.length + 1, by simp; omega⟩
      rw [hn]
      simp only [items, hi, Option.bind_eq_bind, Option.bind_some]
      rfl
    rw [e] at h1 ⊢
    simp only [List.cons_append, if_neg hc] at h1 ⊢
    exact h1
  | a :: b :: l =>
    have key := items_text item text ')' (by decide) hi (a :: b :: l)
      ((", ".toList.intercalate ((a :: b :: l).map text) ++ ')' :: s)).length s (by simp)
      (by have := inter_len text hne (a :: b :: l); simp only [List.length_append]; omega)
    obtain ⟨c, r, e, hc⟩ := hp a
    have e2 : ∃ r', ", ".toList.intercalate ((a :: b :: l).map text) = c :: r' := by
      rw [List.map_cons, List.map_cons, inter_cons, e]; exact ⟨_, rfl⟩
    obtain ⟨r', e2⟩ := e2
    have e3 : tupleText ((a :: b :: l).map text) ++ s = '(' :: (", ".toList.intercalate ((a :: b :: l).map text) ++ ')' :: s) := by
      simp [tupleText]
    rw [e3]
    simp only [display, if_true]
    rw [e2] at key ⊢
    simp only [List.cons_append, if_neg hc] at key ⊢
    exact key

private theorem repr_head (pr : Char → Bool) (t : Str) : ∃ c r, pyRepr pr t = c :: r ∧ c ≠ ')' := by
  refine ⟨reprQuote t, _, rfl, ?_⟩
  rcases quote_cases t with h | h <;> rw [h] <;> decide

private theorem bool_head (b : Bool) : ∃ c r, OBDCommand.boolText b = c :: r ∧ c ≠ ')' := by
  cases b
  · exact ⟨'F', "alse".toList, rfl, by decide⟩
  · exact ⟨'T', "rue".toList, rfl, by decide⟩

private theorem tuple_head (xs : List Str) : ∃ c r, tupleText xs = c :: r ∧ c ≠ ')' ∧ c ≠ ']' := by
  match xs with
  | [] => exact ⟨'(', _, rfl, by decide, by decide⟩
  | [x] => exact ⟨'(', _, rfl, by decide, by decide⟩
  | x :: y :: r => exact ⟨'(', _, rfl, by decide, by decide⟩

private theorem pair_text (pr : Char → Bool) (e : Str × Str) (s : Str) :
    pairLit (tupleText [pyRepr pr e.1, pyRepr pr e.2] ++ s) = some (e, s) := by
  have := tuple_text strLit (pyRepr pr) (strLit_repr pr) (repr_head pr) [e.1, e.2] s
  simp only [List.map_cons, List.map_nil] at this
  simp only [pairLit, this]

private theorem toStr_of (p : Printer) {r : Response} {v : Value} (h : r.value = v) : r.toStr p = v.text p := by
  rw [Response.toStr, h]

/-- C106, trouble codes: the printed list evaluates to the codes and descriptions, in order. -/
theorem C106_codes (p : Printer) (r : Response) (l : List (Str × Str)) (h : r.value = .dtcs l) :
    whole (display pairLit '[' ']' (r.toStr p)) = some l := by
  have := list_text pairLit (fun e : Str × Str => tupleText [pyRepr p.printable e.1, pyRepr p.printable e.2])
    (pair_text p.printable) (fun e => by obtain ⟨c, t, h1, -, h2⟩ := tuple_head [pyRepr p.printable e.1, pyRepr p.printable e.2]; exact ⟨c, t, h1, h2⟩) l []
  rw [List.append_nil] at this
  rw [toStr_of p h]
  show whole (display pairLit '[' ']' (listText _)) = _
  rw [this]; rfl

/-- C106, a single trouble code and the two fuel systems: the printed tuple evaluates to the two strings. -/
theorem C106_pair (p : Printer) (r : Response) (a b : Str) (h : r.value = .dtc a b ∨ r.value = .strPair a b) :
    whole (pairLit (r.toStr p)) = some (a, b) := by
  have := pair_text p.printable (a, b) []
  rw [List.append_nil] at this
  have h2 : r.toStr p = tupleText [pyRepr p.printable a, pyRepr p.printable b] := by
    rcases h with h | h <;> rw [toStr_of p h] <;> rfl
  rw [h2, this]; rfl

/-- C106, oxygen sensors: the printed tuple of tuples evaluates to the banks. -/
theorem C106_banks (p : Printer) (r : Response) (l : List (List Bool)) (h : r.value = .banks l) :
    whole (display (display boolLit '(' ')') '(' ')' (r.toStr p)) = some l := by
  have := tuple_text (display boolLit '(' ')') (fun b : List Bool => tupleText (b.map OBDCommand.boolText))
    (fun b s => tuple_text boolLit OBDCommand.boolText boolLit_text bool_head b s)
    (fun b => by obtain ⟨c, t, h1, h2, -⟩ := tuple_head (b.map OBDCommand.boolText); exact ⟨c, t, h1, h2⟩) l []
  rw [List.append_nil] at this
  rw [toStr_of p h]
  show whole (display (display boolLit '(' ')') '(' ')' (tupleText _)) = _
  rw [this]; rfl

/-- C106, raw bytes: the printed form evaluates to the bytes. -/
theorem C106_bytes (p : Printer) (r : Response) (b : Bytes) (h : r.value = .bytes b) :
    bytearrayLit (r.toStr p) = some b := by
  rw [toStr_of p h]
  show bytearrayLit ("bytearray(".toList ++ reprBytes b ++ ")".toList) = _
  unfold bytearrayLit
  rw [List.append_assoc, skip_app]
  simp only [Option.bind_eq_bind, Option.bind_some]
  rw [bytesLit_repr]
  rfl

/-- C106, bit fields: one digit for each bit, in order. -/
theorem C106_bits (p : Printer) (r : Response) (a : BitArray) (h : r.value = .bits a) :
    bitText (r.toStr p) = some a.bits := by
  rw [toStr_of p h]
  show bitText (a.bits.map (fun b => if b then '1' else '0')) = _
  unfold bitText
  generalize a.bits = l
  induction l with
  | nil => rfl
  | cons b l ih =>
    rw [List.map_cons, List.mapM_cons, ih]
    cases b <;> rfl

/-- C106, texts, truth values and readings: a text prints as itself, a truth value as True or False, and a reading as `pint`
prints it. -/
theorem C106_plain (p : Printer) (r : Response) :
    (∀ s, r.value = .str s → r.toStr p = s) ∧
    (∀ b, r.value = .bool b → whole (boolLit (r.toStr p)) = some b) ∧
    (∀ m u, r.value = .qty m u → r.toStr p = p.qty m u) ∧
    (∀ m u, r.value = .fqty m u → r.toStr p = p.fqty m u) ∧
    (r.value = .none → r.toStr p = "None".toList) := by
  refine ⟨fun s h => ?_, fun b h => ?_, fun m u h => ?_, fun m u h => ?_, fun h => ?_⟩ <;> rw [toStr_of p h]
  · rfl
  · cases b <;> rfl
  · rfl
  · rfl
  · rfl

private theorem bool_plain (b : Bool) : '\n' ∉ OBDCommand.boolText b := by cases b <;> decide +kernel

/-- C106, monitors (if `pint` prints a reading on one line): a response with the value of a mode 06 reply prints "No tests to report" if
no result with known scaling was sent, otherwise one line for each test ID sent with known scaling: description, value and verdict of the last such result. -/
theorem C106_monitor (fl : Str → Option PyFloat) (p : Printer) (hp : ∀ m u, '\n' ∉ p.qty m u) (m : Message) (rest : List Message)
    (r : Response) (h : Decoder.run fl .monitor (m :: rest) = .ok r.value) :
    ((∀ b ∈ blocks (m.data.drop 1), b.known = false) → r.toStr p = "No tests to report".toList) ∧
    ((∃ b ∈ blocks (m.data.drop 1), b.known = true) →
      (textLines (r.toStr p)).length = (((blocks (m.data.drop 1)).filter Block.known).map Block.tid).dedup.length ∧
      (∀ pre b post, blocks (m.data.drop 1) = pre ++ b :: post → b.known = true →
        (∀ b' ∈ post, b'.known = true → b'.tid ≠ b.tid) →
        ∃ e v, Dict.get? uasTable b.uas.toNat = some e ∧ e.call b.value = .ok v ∧
          ((∀ q u, v = .qty q u → b.line (p.qty q u) ∈ textLines (r.toStr p)) ∧
           (v = .bool true → b.line "True".toList ∈ textLines (r.toStr p)) ∧
           (v = .bool false → b.line "False".toList ∈ textLines (r.toStr p))))) := by
  have hsh : ∀ v, '\n' ∉ UasValue.text p v := by
    intro v
    cases v with
    | qty q u => exact hp q u
    | bool b => exact bool_plain b
  obtain ⟨mon, h1, h2, h3⟩ := C87_report fl (UasValue.text p) hsh m rest
  rw [h1] at h
  have hv : r.value = .monitor mon := (Except.ok.inj h).symm
  have ht : r.toStr p = mon.toStr (UasValue.text p) := by rw [toStr_of p hv]; rfl
  rw [ht]
  refine ⟨h2, fun hb => ?_⟩
  obtain ⟨h4, h5, -⟩ := h3 hb
  refine ⟨h4, fun pre b post e hk hl => ?_⟩
  obtain ⟨e', v, e1, e2, e3⟩ := h5 pre b post e hk hl
  refine ⟨e', v, e1, e2, ?_, ?_, ?_⟩
  · rintro q u rfl; exact e3
  · rintro rfl; exact e3
  · rintro rfl; exact e3

/-- A reply with one result of known scaling. -/
example : (Decoder.run (fun _ => none) .monitor [{ frames := [], data := [0x46, 0x01, 0x01, 0x0A, 0x0B, 0xB0, 0x0B, 0xB0, 0x0B, 0xB0] }]).map
    (Value.text { printable := fun _ => false, qty := fun _ _ => "365 millivolt".toList, fqty := fun _ _ => [], address := [] }) =
    .ok "Rich to lean sensor threshold voltage : 365 millivolt [PASSED]".toList := by
  decide +kernel

private def demoPrinter : Printer := { printable := fun _ => false, qty := fun _ _ => [], fqty := fun _ _ => [], address := [] }

example : Response.toStr demoPrinter { value := .dtcs [("P0104".toList, "".toList), ("B0003".toList, "it's".toList)] } =
    "[('P0104', ''), ('B0003', \"it's\")]".toList ∧
    Response.toStr demoPrinter { value := .banks [[], [true, false], [true]] } = "((), (True, False), (True,))".toList := by
  constructor <;> decide +kernel

end Props
