import Verif.Spec.Decimal
import Verif.Spec.Binary64
/-!
# Specification: the strings that Python's `float()` accepts

The grammar of the documentation of `float()` (Python library reference, "Built-in Functions"), for ASCII strings.
-/
namespace Spec
open Py

/-- `digitpart ::= digit (["_"] digit)*`, with its digits. -/
inductive DigitPart : Str → List (Fin 10) → Prop where
  | last (d : Fin 10) : DigitPart [decimalChar d] [d]
  | digit (d : Fin 10) {s : Str} {ds : List (Fin 10)} : DigitPart s ds → DigitPart (decimalChar d :: s) (d :: ds)
  | underscore (d : Fin 10) {s : Str} {ds : List (Fin 10)} : DigitPart s ds → DigitPart (decimalChar d :: '_' :: s) (d :: ds)

/-- `number ::= [digitpart] "." digitpart | digitpart ["."]`, with the digits before and after the point. -/
inductive NumberText : Str → List (Fin 10) → List (Fin 10) → Prop where
  | whole {s : Str} {a : List (Fin 10)} : DigitPart s a → NumberText s a []
  | point {s : Str} {a : List (Fin 10)} : DigitPart s a → NumberText (s ++ ['.']) a []
  | both {s t : Str} {a b : List (Fin 10)} : DigitPart s a → DigitPart t b → NumberText (s ++ '.' :: t) a b
  | fraction {t : Str} {b : List (Fin 10)} : DigitPart t b → NumberText ('.' :: t) [] b

/-- An optional sign: is it a minus? -/
inductive SignText : Str → Bool → Prop where
  | none : SignText [] false
  | plus : SignText ['+'] false
  | minus : SignText ['-'] true

/-- `[("e" | "E") [sign] digitpart]`, with the power of ten. -/
inductive ExponentText : Str → ℚ → Prop where
  | none : ExponentText [] 1
  | power {c : Char} {sg s : Str} {neg : Bool} {ds : List (Fin 10)} {n : ℕ} : (c = 'e' ∨ c = 'E') → SignText sg neg → DigitPart s ds →
      (n : ℚ) = wholePart ds → ExponentText (c :: (sg ++ s)) (if neg then 1 / 10 ^ n else 10 ^ n)

/-- The same text in another case. -/
def SameLetters (s : Str) (word : String) : Prop := lower s = word.toList

/-- What follows the sign; `neg` says whether that is a minus. -/
inductive Magnitude (neg : Bool) : Str → PyFloat → Prop where
  | number {s t : Str} {a b : List (Fin 10)} {p : ℚ} {f : PyFloat} : NumberText s a b → ExponentText t p →
      Nearest (if neg then -((wholePart a + fractionPart b) * p) else (wholePart a + fractionPart b) * p) f → Magnitude neg (s ++ t) f
  | infinity {s : Str} : SameLetters s "inf" ∨ SameLetters s "infinity" → Magnitude neg s (if neg then .negInf else .inf)
  | nan {s : Str} : SameLetters s "nan" → Magnitude neg s .nan

/-- A character that `float()` ignores at both ends. -/
def Blank (c : Char) : Prop := c ∈ [' ', '\t', '\n', '\r', Char.ofNat 11, Char.ofNat 12]

/-- `float(s)` is `f`. -/
def FloatText (s : Str) (f : PyFloat) : Prop :=
  ∃ (w1 sg m w2 : Str) (neg : Bool), s = w1 ++ (sg ++ m) ++ w2 ∧ (∀ c ∈ w1, Blank c) ∧ (∀ c ∈ w2, Blank c) ∧ SignText sg neg ∧ Magnitude neg m f

end Spec
