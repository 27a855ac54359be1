import Verif.Spec.IsoTp
import Verif.Model.Command
/-!
# Specification: evaluating a call written in Python

A small evaluator for expressions of the form

    OBDCommand('name', "description", b'command', 4, raw_string, ecu=ECU.ENGINE, fast=True, header=b'7E0')

following the Python language reference (string and bytes literals with their escapes,
decimal integers, True and False).  `none`: not of this form.
-/
namespace Spec
open Py Model

/-- Inside a literal: between characters, after a backslash, or with `n + 1` hex digits of an escape still to come. -/
inductive Lex where
  | plain
  | escape
  | hex (n : Nat) (v : Nat)

/-- The rest of a string literal that ends with the quote `q`: the characters it denotes, and
what follows the literal. -/
def strRest (q : Char) : Lex → Str → Option (Str × Str)
  | _, [] => none
  | .plain, c :: s =>
    if c = q then some ([], s)
    else if c = '\\' then strRest q .escape s
    else if c = '\n' then none
    else (strRest q .plain s).map (fun r => (c :: r.1, r.2))
  | .escape, c :: s =>
    if c = '\\' ∨ c = '\'' ∨ c = '"' then (strRest q .plain s).map (fun r => (c :: r.1, r.2))
    else if c = 't' then (strRest q .plain s).map (fun r => ('\t' :: r.1, r.2))
    else if c = 'n' then (strRest q .plain s).map (fun r => ('\n' :: r.1, r.2))
    else if c = 'r' then (strRest q .plain s).map (fun r => ('\r' :: r.1, r.2))
    else if c = 'x' then strRest q (.hex 1 0) s
    else if c = 'u' then strRest q (.hex 3 0) s
    else if c = 'U' then strRest q (.hex 7 0) s
    else none
  | .hex n v, c :: s =>
    match digit? c, n with
    | none, _ => none
    | some d, 0 => (strRest q .plain s).map (fun r => (Char.ofNat (16 * v + d) :: r.1, r.2))
    | some d, n + 1 => strRest q (.hex n (16 * v + d)) s

/-- A string literal. -/
def strLit : Str → Option (Str × Str)
  | '\'' :: s => strRest '\'' .plain s
  | '"' :: s => strRest '"' .plain s
  | _ => none

/-- The rest of a bytes literal: ASCII characters and escapes (no `\u` and `\U`). -/
def bytesRest (q : Char) : Lex → Str → Option (Bytes × Str)
  | _, [] => none
  | .plain, c :: s =>
    if c = q then some ([], s)
    else if c = '\\' then bytesRest q .escape s
    else if c = '\n' ∨ 128 ≤ c.toNat then none
    else (bytesRest q .plain s).map (fun r => (UInt8.ofNat c.toNat :: r.1, r.2))
  | .escape, c :: s =>
    if c = '\\' ∨ c = '\'' ∨ c = '"' then (bytesRest q .plain s).map (fun r => (UInt8.ofNat c.toNat :: r.1, r.2))
    else if c = 't' then (bytesRest q .plain s).map (fun r => (9 :: r.1, r.2))
    else if c = 'n' then (bytesRest q .plain s).map (fun r => (10 :: r.1, r.2))
    else if c = 'r' then (bytesRest q .plain s).map (fun r => (13 :: r.1, r.2))
    else if c = 'x' then bytesRest q (.hex 1 0) s
    else none
  | .hex n v, c :: s =>
    match digit? c, n with
    | none, _ => none
    | some d, 0 => (bytesRest q .plain s).map (fun r => (UInt8.ofNat (16 * v + d) :: r.1, r.2))
    | some d, n + 1 => bytesRest q (.hex n (16 * v + d)) s

/-- A bytes literal. -/
def bytesLit : Str → Option (Bytes × Str)
  | 'b' :: '\'' :: s => bytesRest '\'' .plain s
  | 'b' :: '"' :: s => bytesRest '"' .plain s
  | _ => none

/-- A decimal integer: as many digits as there are. -/
def natLit (s : Str) : Option (Nat × Str) :=
  match s.takeWhile Char.isDigit with
  | [] => none
  | ds => some (ds.foldl (fun v c => 10 * v + (c.toNat - 48)) 0, s.dropWhile Char.isDigit)

/-- The text `t`, then the rest. -/
def skip (t : String) (s : Str) : Option Str := if t.toList.isPrefixOf s then some (s.drop t.toList.length) else none

/-- `True` or `False`. -/
def boolLit (s : Str) : Option (Bool × Str) :=
  match skip "True" s with
  | some r => some (true, r)
  | none => (skip "False" s).map (fun r => (false, r))

/-- A constant of the class `ECU`, or an integer. -/
def ecuExpr (s : Str) : Option (Nat × Str) :=
  match skip "ECU." s with
  | none => natLit s
  | some r => (skip "ALL" r).map (fun x => (0xff, x)) <|> (skip "ENGINE" r).map (fun x => (0x02, x)) <|>
      (skip "TRANSMISSION" r).map (fun x => (0x04, x))

/-- The value of the expression. -/
def evalCommand (s : Str) : Option OBDCommand := do
  let s ← skip "OBDCommand(" s
  let (name, s) ← strLit s
  let s ← skip ", " s
  let (desc, s) ← strLit s
  let s ← skip ", " s
  let (command, s) ← bytesLit s
  let s ← skip ", " s
  let (n, s) ← natLit s
  let s ← skip ", raw_string, ecu=" s
  let (ecu, s) ← ecuExpr s
  let s ← skip ", fast=" s
  let (fast, s) ← boolLit s
  if s = [')'] then
    return { name := String.ofList name, desc := String.ofList desc, command := command, bytes := n, decode := .rawString, ecu := ecu, fast := fast }
  else
    let s ← skip ", header=" s
    let (header, s) ← bytesLit s
    if s = [')'] then
      return { name := String.ofList name, desc := String.ofList desc, command := command, bytes := n, decode := .rawString, ecu := ecu, fast := fast, header := header }
    else none

end Spec
