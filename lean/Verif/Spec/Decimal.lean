import Verif.Spec.Bytes
import Mathlib.Data.Rat.Defs
/-!
# Specification: decimal numbers as adapters print them
-/
namespace Spec
open Py

/-- A decimal digit as a character. -/
def decimalChar (d : Fin 10) : Char := "0123456789".toList[d.val]!

/-- The value of digits before the point, most significant first. -/
def wholePart (ds : List (Fin 10)) : Rat := ds.foldl (fun n d => 10 * n + (d.val : Rat)) 0

/-- The value of digits after the point. -/
def fractionPart : List (Fin 10) → Rat
  | [] => 0
  | d :: ds => ((d.val : Rat) + fractionPart ds) / 10

/-- `line` is a printed voltage of `v` volt: digits, a point, at most `places` digits, and possibly the letter V. -/
def PrintedVolt (places : Nat) (line : Str) (v : Rat) : Prop :=
  ∃ (a b : List (Fin 10)) (unit : Str), a ≠ [] ∧ a.length ≤ 60 ∧ b.length ≤ places ∧ (unit = [] ∨ unit = ['V'] ∨ unit = ['v']) ∧
    line = a.map decimalChar ++ '.' :: (b.map decimalChar ++ unit) ∧ v = wholePart a + fractionPart b

/-- ASCII characters (other than V) that occur in no number as Python reads it. -/
def noNumber : Str := "!\"#$%&'()*,/:;<=>?@[\\]^`{|}~bcdghjklmopqrsuwxzBCDGHJKLMOPQRSUWXZ".toList

end Spec
