import Verif.Spec.Serial
/-!
# Specification: UTF-8, by the encoding of Lean's `String`
-/
namespace Spec
open Py

/-- The UTF-8 encoding of a text (`String.utf8EncodeChar` of Lean's library). -/
def utf8 (s : Str) : Bytes := s.flatMap String.utf8EncodeChar

/-- The ASCII bytes of `b`, as characters. -/
def asciiChars (b : Bytes) : Str := (b.filter (fun x => x.toNat < 0x80)).map (fun x => Char.ofNat x.toNat)

/-- No character outside ASCII is encoded anywhere in `b`. -/
def NoForeign (b : Bytes) : Prop := ∀ c : Char, 0x80 ≤ c.toNat → ¬ String.utf8EncodeChar c <:+: b

/-- The bytes of a reply that count: without NUL, and without a final prompt. -/
def relevant (b : Bytes) : Bytes :=
  let b := b.filter (fun x => x != 0)
  if b.getLast? = some 0x3E then b.dropLast else b

end Spec
