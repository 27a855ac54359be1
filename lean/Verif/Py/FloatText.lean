import Verif.Py.Float
/-!
# Python's `float(s)` of a string

`float()` is a parameter `fl` of the model (obd/decoders.py:268, obd/elm327.py:186); this module is CPython's own, for
strings of ASCII characters: surrounding white space, an optional sign, digits with single underscores between
them, an optional point and exponent; `inf`, `infinity` and `nan` in any case.  The value is rounded
to binary64, with subnormals and overflow to an infinity.  Simplified: a zero has no sign; digits and white
space of other scripts, which CPython accepts as well, are not numbers here.
-/
namespace Py

/-- The nearest binary64 number of a non-negative rational, ties to even (obd/decoders.py:268). -/
def round64Pos (q : Rat) : PyFloat :=
  if q = 0 then .fin 0 else
  let e := max (ilog2 q - 52) (-1074)
  let v := (rne (q * pow2 (-e)) : Rat) * pow2 e
  if pow2 1024 ≤ v then .inf else .fin v

/-- The nearest binary64 number (obd/decoders.py:268). -/
def round64 (neg : Bool) (q : Rat) : PyFloat :=
  match neg, round64Pos q with
  | false, x => x
  | true, .fin v => .fin (-v)
  | true, .inf => .negInf
  | true, x => x

/-- The digits `0` to `9`; `float` in obd/decoders.py:268. -/
def decDigit (c : Char) : Bool := '0' ≤ c && c ≤ '9'

/-- The number that digits denote; `float` in obd/decoders.py:268. -/
def digitsVal (ds : Str) : Nat := ds.foldl (fun n c => 10 * n + (c.toNat - 48)) 0

/-- An optional sign; `float` in obd/decoders.py:268. -/
def takeSign : Str → Bool × Str
  | '-' :: s => (true, s)
  | '+' :: s => (false, s)
  | s => (false, s)

/-- `inf`, `infinity`, `nan`; `float` in obd/decoders.py:268. -/
def infOrNan (neg : Bool) (s : Str) : Option PyFloat :=
  if lower s = "inf".toList ∨ lower s = "infinity".toList then some (if neg then .negInf else .inf)
  else if lower s = "nan".toList then some .nan
  else none

/-- The exponent, to the end of the string; `float` in obd/decoders.py:268. -/
def floatExponent : Str → Option Int
  | [] => some 0
  | c :: s =>
    if c = 'e' ∨ c = 'E' then
      let (neg, ds) := takeSign s
      if ds ≠ [] ∧ ds.all decDigit then some (if neg then -(digitsVal ds : Int) else digitsVal ds) else none
    else none

/-- `10 ^ k`; `float` in obd/decoders.py:268. -/
def pow10 (k : Int) : Rat :=
  if 0 ≤ k then ((10 ^ k.toNat : Nat) : Rat) else 1 / ((10 ^ (-k).toNat : Nat) : Rat)

/-- Underscores are allowed only between digits; `float` in obd/decoders.py:268. -/
def underscoresOk : Str → Bool
  | [] => true
  | '_' :: _ => false
  | [_] => true
  | a :: '_' :: b :: s => decDigit a && decDigit b && underscoresOk (b :: s)
  | [_, '_'] => false
  | _ :: b :: s => underscoresOk (b :: s)

/-- A number without white space and underscores; `float` in obd/decoders.py:268. -/
def bareFloat (s : Str) : Option PyFloat :=
  let (neg, s1) := takeSign s
  let (a, s2) := s1.span decDigit
  let (b, s3) := match s2 with
    | '.' :: t => t.span decDigit
    | _ => ([], s2)
  if a = [] ∧ b = [] then infOrNan neg s1
  else match floatExponent s3 with
    | some e => some (round64 neg ((digitsVal (a ++ b) : Rat) * pow10 (e - b.length)))
    | none => none

/-- White space of C; `float` in obd/decoders.py:268. -/
def cSpace (c : Char) : Bool := c = ' ' || (9 ≤ c.toNat && c.toNat ≤ 13)

/-- `float(s)` (obd/decoders.py:268, obd/elm327.py:186). -/
def pyFloat (s : Str) : Option PyFloat :=
  let t := ((s.dropWhile cSpace).reverse.dropWhile cSpace).reverse
  if underscoresOk t then bareFloat (t.filter (fun c => c != '_')) else none

end Py
