import Verif.Model.Text
import Verif.Spec.PyLiteral
import Mathlib.Tactic.Ring
/-!
# C86: the printed form of a command is source that evaluates to it
-/
namespace Props
open Py Model Spec

theorem digit_hexDigit {d : Nat} (h : d < 16) : digit? (hexDigit d) = some d := by
  have : ∀ d : Fin 16, digit? (hexDigit d.val) = some d.val := by decide +kernel
  exact this ⟨d, h⟩

theorem str_hex (q : Char) (n : Nat) : ∀ (v w : Nat) (s : Str), strRest q (.hex n w) (hexDigits (n + 1) v ++ s) =
    (strRest q .plain s).map (fun r => (Char.ofNat (16 ^ (n + 1) * w + v % 16 ^ (n + 1)) :: r.1, r.2)) := by
  induction n with
  | zero =>
    intro v w s
    have hd : v / 16 ^ 0 % 16 < 16 := Nat.mod_lt _ (by decide)
    simp only [hexDigits, List.cons_append, List.nil_append, strRest, digit_hexDigit hd]
    simp
  | succ n ih =>
    intro v w s
    have hd : v / 16 ^ (n + 1) % 16 < 16 := Nat.mod_lt _ (by decide)
    rw [hexDigits, List.cons_append]
    simp only [strRest, digit_hexDigit hd]
    rw [ih]
    congr 3
    funext r
    congr 3
    have e : (16 : Nat) ^ (n + 2) = 16 ^ (n + 1) * 16 := by ring
    rw [e, Nat.mod_mul]
    ring

theorem bytes_hex (q : Char) (n : Nat) : ∀ (v w : Nat) (s : Str), bytesRest q (.hex n w) (hexDigits (n + 1) v ++ s) =
    (bytesRest q .plain s).map (fun r => (UInt8.ofNat (16 ^ (n + 1) * w + v % 16 ^ (n + 1)) :: r.1, r.2)) := by
  induction n with
  | zero =>
    intro v w s
    have hd : v / 16 ^ 0 % 16 < 16 := Nat.mod_lt _ (by decide)
    simp only [hexDigits, List.cons_append, List.nil_append, bytesRest, digit_hexDigit hd]
    simp
  | succ n ih =>
    intro v w s
    have hd : v / 16 ^ (n + 1) % 16 < 16 := Nat.mod_lt _ (by decide)
    rw [hexDigits, List.cons_append]
    simp only [bytesRest, digit_hexDigit hd]
    rw [ih]
    congr 3
    funext r
    congr 3
    have e : (16 : Nat) ^ (n + 2) = 16 ^ (n + 1) * 16 := by ring
    rw [e, Nat.mod_mul]
    ring

/-- Python's `repr` of one character is read back. -/
theorem str_char (pr : Char → Bool) (q c : Char) (hq : q = '\'' ∨ q = '"') (s : Str) :
    strRest q .plain (reprChar pr q c ++ s) = (strRest q .plain s).map (fun r => (c :: r.1, r.2)) := by
  have hqb : '\\' ≠ q := by rcases hq with rfl | rfl <;> decide
  have hx : ∀ n, c.toNat < 16 ^ (n + 1) → strRest q (.hex n 0) (hexDigits (n + 1) c.toNat ++ s) = (strRest q .plain s).map (fun r => (c :: r.1, r.2)) := by
    intro n h
    rw [str_hex, Nat.mod_eq_of_lt h]
    simp
  have hesc : ∀ t, strRest q .plain ('\\' :: t) = strRest q .escape t := by
    intro t; rw [strRest, if_neg hqb, if_pos rfl]
  unfold reprChar
  split
  · next h =>
    rw [List.cons_append, hesc, List.cons_append, strRest, if_pos]; rfl
    rcases h with rfl | rfl
    · rcases hq with rfl | rfl <;> simp
    · simp
  · next h1 =>
    rw [not_or] at h1
    split
    · next h => subst h; rw [List.cons_append, hesc]; rfl
    split
    · next h => subst h; rw [List.cons_append, hesc]; rfl
    split
    · next h => subst h; rw [List.cons_append, hesc]; rfl
    next ht hn hr =>
    have plain : strRest q .plain ([c] ++ s) = (strRest q .plain s).map (fun r => (c :: r.1, r.2)) := by
      show strRest q .plain (c :: s) = _
      rw [strRest, if_neg h1.1, if_neg h1.2, if_neg hn]
    have escx : c.toNat < 256 → strRest q .plain (('\\' :: 'x' :: hexDigits 2 c.toNat) ++ s) = (strRest q .plain s).map (fun r => (c :: r.1, r.2)) := by
      intro h
      rw [List.cons_append, hesc, List.cons_append]
      exact hx 1 (by simpa using h)
    split
    · exact escx (by omega)
    split
    · exact plain
    split
    · exact plain
    split
    · exact escx (by omega)
    split
    · rw [List.cons_append, hesc, List.cons_append]
      exact hx 3 (by omega)
    · rw [List.cons_append, hesc, List.cons_append]
      have := c.valid
      refine hx 7 ?_
      have h2 : c.toNat < 0x110000 := by
        rcases this with h | h
        · have : c.toNat < 0xd800 := h
          omega
        · exact h.2
      omega

theorem str_chars (pr : Char → Bool) (q : Char) (hq : q = '\'' ∨ q = '"') (t s : Str) :
    strRest q .plain (t.flatMap (reprChar pr q) ++ q :: s) = some (t, s) := by
  induction t with
  | nil => simp [strRest]
  | cons c t ih =>
    rw [List.flatMap_cons, List.append_assoc, str_char pr q c hq, ih]; rfl

theorem quote_cases (s : Str) : reprQuote s = '\'' ∨ reprQuote s = '"' := by
  unfold reprQuote; split <;> simp

theorem strLit_repr (pr : Char → Bool) (t s : Str) : strLit (pyRepr pr t ++ s) = some (t, s) := by
  unfold pyRepr
  have := str_chars pr (reprQuote t) (quote_cases t) t s
  rw [List.cons_append, List.append_assoc]
  rcases quote_cases t with h | h <;> rw [h] at this ⊢ <;> exact this

theorem charNat {n : Nat} (h : n < 256) : (Char.ofNat n).toNat = n := by
  have : ∀ d : Fin 256, (Char.ofNat d.val).toNat = d.val := by decide +kernel
  exact this ⟨n, h⟩

theorem bytes_byte (q : Char) (b : UInt8) (hq : q = '\'' ∨ q = '"') (s : Str) :
    bytesRest q .plain (reprByte q b ++ s) = (bytesRest q .plain s).map (fun r => (b :: r.1, r.2)) := by
  have hqb : '\\' ≠ q := by rcases hq with rfl | rfl <;> decide
  have hb : b.toNat < 256 := b.toNat_lt
  have hcn := charNat hb
  have hback : UInt8.ofNat (Char.ofNat b.toNat).toNat = b := by rw [hcn]; simp
  have hesc : ∀ t, bytesRest q .plain ('\\' :: t) = bytesRest q .escape t := by
    intro t; rw [bytesRest, if_neg hqb, if_pos rfl]
  have hval : ∀ k : UInt8, Char.ofNat b.toNat = Char.ofNat k.toNat → b = k := by
    intro k h
    have := congrArg Char.toNat h
    rw [hcn, charNat k.toNat_lt] at this
    exact UInt8.toNat_inj.1 this
  unfold reprByte
  simp only
  split
  · next h =>
    rw [List.cons_append, hesc, List.cons_append, bytesRest, if_pos, hback]; rfl
    rcases h with h | h
    · rw [h]; rcases hq with rfl | rfl <;> simp
    · rw [h]; simp
  · next h1 =>
    rw [not_or] at h1
    split
    · next h => have := hval 9 h; subst this; rw [List.cons_append, hesc]; rfl
    split
    · next h => have := hval 10 h; subst this; rw [List.cons_append, hesc]; rfl
    split
    · next h => have := hval 13 h; subst this; rw [List.cons_append, hesc]; rfl
    next ht hn hr =>
    split
    · rw [List.cons_append, hesc, List.cons_append]
      have := bytes_hex q 1 b.toNat 0 s
      rw [Nat.mod_eq_of_lt (by simpa using hb)] at this
      simp at this
      exact this
    · next h =>
      show bytesRest q .plain (Char.ofNat b.toNat :: s) = _
      rw [bytesRest, if_neg h1.1, if_neg h1.2, if_neg, hback]
      rw [not_or]
      exact ⟨hn, by rw [hcn]; omega⟩

theorem bytesLit_repr (t : Bytes) (s : Str) : bytesLit (reprBytes t ++ s) = some (t, s) := by
  have key : ∀ q, (q = '\'' ∨ q = '"') → bytesRest q .plain (t.flatMap (reprByte q) ++ q :: s) = some (t, s) := by
    intro q hq
    induction t with
    | nil => simp [bytesRest]
    | cons c t ih => rw [List.flatMap_cons, List.append_assoc, bytes_byte q c hq, ih]; rfl
  unfold reprBytes
  simp only
  rcases quote_cases (t.map (fun b => Char.ofNat b.toNat)) with h | h <;> rw [h, List.cons_append, List.cons_append, List.append_assoc]
  · exact key _ (Or.inl rfl)
  · exact key _ (Or.inr rfl)

theorem natLit_digits (n : Nat) (c : Char) (s : Str) (hc : c.isDigit = false) : natLit (Nat.toDigits 10 n ++ c :: s) = some (n, c :: s) := by
  have hall : ∀ d ∈ Nat.toDigits 10 n, d.isDigit = true := fun d hd => Nat.isDigit_of_mem_toDigits (by decide) (by decide) hd
  have ht : (Nat.toDigits 10 n ++ c :: s).takeWhile Char.isDigit = Nat.toDigits 10 n := by
    rw [List.takeWhile_append_of_pos hall, List.takeWhile_cons_of_neg (by simp [hc]), List.append_nil]
  have hd : (Nat.toDigits 10 n ++ c :: s).dropWhile Char.isDigit = c :: s := by
    rw [List.dropWhile_append_of_pos hall, List.dropWhile_cons_of_neg (by simp [hc])]
  have hv : (Nat.toDigits 10 n).foldl (fun v c => 10 * v + (c.toNat - 48)) 0 = n := by
    have := Nat.ofDigitChars_toDigits (b := 10) (n := n) (by decide) (by decide)
    rw [Nat.ofDigitChars] at this
    exact this
  unfold natLit
  rw [ht, hd]
  cases h : Nat.toDigits 10 n with
  | nil => exact absurd h Nat.toDigits_ne_nil
  | cons d ds => simp only; rw [← h, hv]

theorem skip_app (t : String) (s : Str) : skip t (t.toList ++ s) = some s := by
  unfold skip
  rw [if_pos (by simp), List.drop_left]

theorem ecuExpr_text (e : Nat) (s : Str) : ecuExpr (OBDCommand.ecuText e ++ ',' :: s) = some (e, ',' :: s) := by
  unfold OBDCommand.ecuText
  split
  · next h => subst h; rfl
  split
  · next h => subst h; rfl
  split
  · next h => subst h; rfl
  have hn := natLit_digits e ',' s (by decide)
  have hsk : skip "ECU." (Nat.toDigits 10 e ++ ',' :: s) = none := by
    cases h : Nat.toDigits 10 e with
    | nil => exact absurd h Nat.toDigits_ne_nil
    | cons d ds =>
      have hd : d.isDigit = true := Nat.isDigit_of_mem_toDigits (b := 10) (n := e) (by decide) (by decide) (by rw [h]; exact List.mem_cons_self)
      unfold skip
      rw [if_neg]
      intro hp
      have : 'E' = d := by
        simp [List.isPrefixOf] at hp
        exact hp.1
      subst this
      exact absurd hd (by decide)
  unfold ecuExpr
  rw [hsk]
  exact hn

theorem boolLit_text (b : Bool) (s : Str) : boolLit (OBDCommand.boolText b ++ s) = some (b, s) := by
  cases b <;> rfl

/-- The end of the expression. -/
private def tailOf (k : Bytes → OBDCommand) (s : Str) : Option OBDCommand :=
  if s = [')'] then some (k engineHeader)
  else (skip ", header=" s).bind fun s => (bytesLit s).bind fun r => if r.2 = [')'] then some (k r.1) else none

private theorem eval_common (pr : Char → Bool) (c : OBDCommand) (t : Str) :
    evalCommand ("OBDCommand(".toList ++ (pyRepr pr c.name.toList ++ (", ".toList ++ (pyRepr pr c.desc.toList ++ (", ".toList ++
      (reprBytes c.command ++ (", ".toList ++ (Nat.toDigits 10 c.bytes ++ (", raw_string, ecu=".toList ++ (OBDCommand.ecuText c.ecu ++
      (", fast=".toList ++ (OBDCommand.boolText c.fast ++ t)))))))))))) =
    tailOf (fun h => { c with decode := .rawString, header := h }) t := by
  unfold evalCommand
  rw [skip_app]; simp only [Option.bind_eq_bind, Option.bind_some]
  rw [strLit_repr]; simp only [Option.bind_some]
  rw [skip_app]; simp only [Option.bind_some]
  rw [strLit_repr]; simp only [Option.bind_some]
  rw [skip_app]; simp only [Option.bind_some]
  rw [bytesLit_repr]; simp only [Option.bind_some]
  rw [skip_app]; simp only [Option.bind_some]
  have h1 : ∀ u, natLit (Nat.toDigits 10 c.bytes ++ (", raw_string, ecu=".toList ++ u)) = some (c.bytes, ", raw_string, ecu=".toList ++ u) :=
    fun u => natLit_digits _ _ _ (by decide)
  have h2 : ∀ u, ecuExpr (OBDCommand.ecuText c.ecu ++ (", fast=".toList ++ u)) = some (c.ecu, ", fast=".toList ++ u) := fun u => ecuExpr_text _ _
  rw [h1]; simp only [Option.bind_some]
  rw [skip_app]; simp only [Option.bind_some]
  rw [h2]; simp only [Option.bind_some]
  rw [skip_app]; simp only [Option.bind_some]
  rw [boolLit_text]; simp only [Option.bind_some, String.ofList_toList]
  rfl

/-- C86: for every command, `repr(command)` is source that evaluates, with `OBDCommand`, `ECU` and the
identity decoder `raw_string` in scope, to a command with the same name, description, request, expected
length, ECU mask, fast flag and header. -/
theorem C86_repr (pr : Char → Bool) (c : OBDCommand) :
    evalCommand (c.toRepr pr) = some { c with decode := .rawString } := by
  unfold OBDCommand.toRepr
  simp only
  split
  · next h =>
    simp only [List.append_assoc]
    rw [eval_common, tailOf, if_pos (show ")".toList = [')'] from rfl), ← h]
  · next h =>
    simp only [List.append_assoc]
    rw [eval_common, tailOf, if_neg (by intro h; cases h), skip_app]
    simp only [Option.bind_some]
    rw [bytesLit_repr]
    rfl

/-- Two commands that print alike under `repr` are equal in Python's sense and differ at most in the decoder. -/
theorem C86_injective (pr : Char → Bool) (c d : OBDCommand) (h : c.toRepr pr = d.toRepr pr) :
    ({ c with decode := .rawString } : OBDCommand) = { d with decode := .rawString } := by
  have := C86_repr pr c
  rw [h, C86_repr] at this
  exact (Option.some.inj this).symm

/-- A command with both quotes, a line break, a letter outside ASCII, a control character, a custom mask and a custom header. -/
def oddCommand : OBDCommand :=
  { name := "IT'S", desc := "quote ' \" and\nnew line \\ \u00e9\u0007", command := "ATRV\\'\r".toUTF8.toList, bytes := 3, decode := .pid, ecu := 9, fast := true,
    header := [0x37, 0x00, 0xff] }

example : oddCommand.toRepr (fun _ => false) =
    ("OBDCommand(\"IT'S\", 'quote \\' \" and\\nnew line \\\\ \\xe9\\x07', b\"ATRV\\\\'\\r\", 3, raw_string, ecu=9, " ++
      "fast=True, header=b'7\\x00\\xff')").toList := by decide +kernel

/-- Equal in Python's sense (`__eq__` compares request and header): the evaluated command equals the original. -/
theorem C86_equal (pr : Char → Bool) (c : OBDCommand) : ∃ d, evalCommand (c.toRepr pr) = some d ∧ d.eq c = true ∧ c.eq d = true := by
  refine ⟨_, C86_repr pr c, ?_, ?_⟩ <;> simp [OBDCommand.eq]

example : ∃ d, evalCommand (oddCommand.toRepr (fun _ => true)) = some d ∧ d.eq oddCommand = true ∧ oddCommand.eq d = true :=
  C86_equal (fun _ => true) oddCommand

end Props
