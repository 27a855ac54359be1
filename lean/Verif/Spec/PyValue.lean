import Verif.Spec.PyLiteral
/-!
# Specification: reading tuples and lists written in Python

A reader for an item takes a text and gives the item and what follows.  `none`: not of this form.
-/
namespace Spec
open Py

/-- The items of a display up to the closing bracket `close`, after the opening one; `n` bounds the number of items. -/
def items {α : Type} (item : Str → Option (α × Str)) (close : Char) : Nat → Str → Option (List α × Str)
  | 0, _ => none
  | n + 1, s => do
    let (a, s) ← item s
    match s with
    | ',' :: ' ' :: s => (items item close n s).map (fun r => (a :: r.1, r.2))
    | ',' :: c :: s => if c = close then some ([a], s) else none
    | c :: s => if c = close then some ([a], s) else none
    | [] => none

/-- A tuple or list display with the given brackets. -/
def display {α : Type} (item : Str → Option (α × Str)) (opening close : Char) : Str → Option (List α × Str)
  | c :: s =>
    if c = opening then
      match s with
      | d :: r => if d = close then some ([], r) else items item close s.length s
      | [] => none
    else none
  | [] => none

/-- A tuple of two strings. -/
def pairLit (s : Str) : Option ((Str × Str) × Str) :=
  match display strLit '(' ')' s with
  | some ([a, b], s) => some ((a, b), s)
  | _ => none

/-- The whole text is of the given form. -/
def whole {α : Type} (r : Option (α × Str)) : Option α :=
  match r with
  | some (a, []) => some a
  | _ => none

/-- A text of zeros and ones. -/
def bitText (s : Str) : Option (List Bool) := s.mapM (fun c => if c = '1' then some true else if c = '0' then some false else none)

/-- `bytearray(b'...')`. -/
def bytearrayLit (s : Str) : Option Bytes := do
  let s ← skip "bytearray(" s
  let (b, s) ← bytesLit s
  if s = [')'] then some b else none

end Spec
