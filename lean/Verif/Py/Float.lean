import Verif.Py.Basic
/-!
# binary64 arithmetic on rationals

A finite Python `float` is a rational; every arithmetic operation is the exact
operation followed by rounding to 53 significant bits, ties to even.  The exponent is
unbounded, except that converting an int to a float raises OverflowError from 2^1024 on
(`toFloat`): subnormals, signed zero, infinities and NaN do not arise (the modelled
computations start from integers and table constants between 10^-5 and 10^5).
-/
namespace Py

/-- `2 ^ k` for an integer exponent. -/
def pow2 (k : Int) : Rat :=
  if 0 ≤ k then ((2 ^ k.toNat : Nat) : Rat) else 1 / ((2 ^ (-k).toNat : Nat) : Rat)

/-- `floor (log2 x)` for a positive rational. -/
def ilog2 (x : Rat) : Int :=
  let k := (Nat.log2 x.num.natAbs : Int) - (Nat.log2 x.den : Int)
  if pow2 k ≤ x then k else k - 1

/-- Round to the nearest integer, ties to even. -/
def rne (y : Rat) : Int :=
  let f := y.floor
  let r := y - (f : Rat)
  if r < 1 / 2 then f
  else if 1 / 2 < r then f + 1
  else if f % 2 = 0 then f else f + 1

/-- Round a positive rational to 53 significant bits. -/
def rndPos (x : Rat) : Rat :=
  let e := ilog2 x - 52
  (rne (x * pow2 (-e)) : Rat) * pow2 e

/-- Round a rational to binary64 precision. -/
def rnd (x : Rat) : Rat :=
  if x = 0 then 0 else if x < 0 then - rndPos (-x) else rndPos x

/-- `a * b` on floats -/
def fmul (a b : Rat) : Rat := rnd (a * b)
/-- `a / b` on floats (the library only divides by non-zero constants) -/
def fdiv (a b : Rat) : Rat := rnd (a / b)
/-- `a + b` on floats -/
def fadd (a b : Rat) : Rat := rnd (a + b)
/-- `a - b` on floats -/
def fsub (a b : Rat) : Rat := rnd (a - b)

/-- `float(n)` of an int, also implicitly in mixed arithmetic: OverflowError if the rounded
value is not below 2^1024. -/
def toFloat (n : Int) : Except Exc Rat :=
  if pow2 1024 ≤ rnd n.natAbs then .error .overflowError else .ok (rnd n)

/-- The result of Python's `float(s)`. -/
inductive PyFloat where
  | fin (q : Rat)
  | inf
  | negInf
  | nan
  deriving DecidableEq, Repr

end Py
