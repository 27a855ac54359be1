import Verif.Py.Float
import Mathlib.Algebra.Order.Field.Rat
import Mathlib.Algebra.Order.Field.Power
/-!
# Specification: the binary64 number next to a rational (IEEE 754, round to nearest, ties to even)
-/
namespace Spec
open Py

/-- `x` is the significand `m` times `2 ^ e`, within the bounds of binary64. -/
def Scaled (x : ℚ) (m e : ℤ) : Prop := |m| < 2 ^ 53 ∧ -1074 ≤ e ∧ e ≤ 971 ∧ x = m * (2 : ℚ) ^ e

/-- `x` is a finite binary64 number. -/
def IsBinary64 (x : ℚ) : Prop := ∃ m e : ℤ, Scaled x m e

/-- `x` is a binary64 number with an even significand (all bits of the significand are used, unless `x` is subnormal). -/
def EvenSignificand (x : ℚ) : Prop := ∃ m e : ℤ, Scaled x m e ∧ (e = -1074 ∨ 2 ^ 52 ≤ |m|) ∧ m % 2 = 0

/-- From here on a number is rounded to infinity: the middle between the largest finite number and `2 ^ 1024`. -/
def tooLarge : ℚ := (2 : ℚ) ^ (1024 : ℤ) - (2 : ℚ) ^ (970 : ℤ)

/-- `f` is the float that `q` is rounded to. -/
def Nearest (q : ℚ) : PyFloat → Prop
  | .fin x => |q| < tooLarge ∧ IsBinary64 x ∧ ∀ y, IsBinary64 y → |q - x| ≤ |q - y| ∧ (y ≠ x → |q - x| = |q - y| → EvenSignificand x)
  | .inf => tooLarge ≤ q
  | .negInf => q ≤ - tooLarge
  | .nan => False

end Spec
