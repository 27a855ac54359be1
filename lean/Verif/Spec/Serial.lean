import Mathlib.Data.List.Forall2
import Verif.Model.Elm
import Verif.Spec.Vin
/-!
# Specification: serial input and exchanges with the adapter

Shared with the model: the events of the I/O history (`Event`), Python's `decode` (described by C105
in terms of the UTF-8 encoding of Lean's library) and whitespace.
-/
namespace Spec
open Py Model

/-- The text of a reply: the bytes without NUL and without a final prompt, decoded. -/
def replyText (b : Bytes) : Str :=
  let b := b.filter (fun x => x != 0)
  utf8Ignore none (if b.getLast? = some 0x3E then b.dropLast else b)

/-- The non-empty parts of a text between carriage returns and line feeds. -/
def parts (s : Str) : List Str := (s.splitOnP (fun c => c == '\r' || c == '\n')).filter (fun l => l ≠ [])

/-- `lines` are the lines of the reply `b`: its parts, without blanks at both ends. -/
def LinesOf (b : Bytes) (lines : List Str) : Prop := List.Forall₂ (Trimmed isSpace) (parts (replyText b)) lines

/-- A read or a write that raised. -/
def Failed (e : Event) : Prop := (∃ b, e = .write b false) ∨ e = .read none

/-- A command line as written to the adapter. -/
def line (cmd : Bytes) : Bytes := cmd ++ [0x0D]

/-- In the history `h`, the command `cmd` was written and answered with `lines`: reads
follow the write, and the last of them gave these lines. -/
def Replied (h : History) (cmd : Bytes) (lines : List Str) : Prop :=
  ∃ (pre : History) (bs : List Bytes) (b : Bytes) (post : History), h = pre ++ .write (line cmd) true :: (bs.map (fun b => Event.read (some b)) ++ .read (some b) :: post) ∧
    LinesOf b lines ∧ ∀ x ∈ bs, LinesOf x []

/-- What was written, in order (writes that did not fail). -/
def written (h : History) : List Bytes := h.filterMap (fun e => match e with
  | .write b true => some b
  | _ => none)

end Spec
