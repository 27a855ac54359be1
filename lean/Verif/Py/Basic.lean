/-!
# Python building blocks

Python values used by python-OBD, and the handful of built-in operations the
modelled code relies on.  Exceptions are values (`Exc`) and a Python function
that may raise returns `Except Exc _`.
-/

namespace Py

/-- The exception classes that the modelled code can raise. -/
inductive Exc where
  | indexError
  | typeError
  | attributeError
  | valueError
  | keyError
  | runtimeError
  | overflowError
  | unicodeDecodeError
  | serialException
  | osError
  | other (n : Nat)        -- an exception raised by user code (decoder, callback)
  deriving DecidableEq, Repr

deriving instance DecidableEq for Except

/-- `bytes` / `bytearray`: a list of bytes.  Python's ints in `0..255`. -/
abbrev Bytes := List UInt8
/-- `str`: a list of Unicode characters. -/
abbrev Str := List Char

/-- `l[i]` for a non-negative literal or variable index `i` (raises IndexError). -/
def idx {α} (l : List α) (i : Nat) : Except Exc α :=
  match l[i]? with
  | some a => .ok a
  | none => .error .indexError

/-- `l[a:b]` for non-negative `a`, `b`. -/
def slice {α} (l : List α) (a b : Nat) : List α := (l.take b).drop a

/-- One bound of a slice `l[a:b]` of a sequence of `n` elements, made an ordinary position
(CPython's `PySlice_AdjustIndices` for step 1): a negative bound counts from the end, and both ends
are cut off at `0` and `n`. -/
def sliceBound (n : Nat) (b : Int) : Nat := if b < 0 then (b + n).toNat else min b.toNat n

/-- `l[start:stop]` with any integer bounds, `none` for a missing one. -/
def pySlice {α} (l : List α) (start stop : Option Int) : List α :=
  slice l ((start.map (sliceBound l.length)).getD 0) ((stop.map (sliceBound l.length)).getD l.length)

/-- One given bound of an extended slice (CPython's `PySlice_AdjustIndices`): the sequence has `n`
elements, and the bound is kept between `lower` and `upper`. -/
def stepBound (n : Nat) (lower upper b : Int) : Int :=
  if b < 0 then max (b + n) lower else min b upper

/-- `l[start:stop:step]` with any integers, `none` for a missing one; ValueError for step 0
(CPython's `PySlice_Unpack`, `PySlice_AdjustIndices` and the loop that collects the items). -/
def pySliceStep {α} (l : List α) (start stop step : Option Int) : Except Exc (List α) :=
  let k := step.getD 1
  if k = 0 then .error .valueError
  else
    let n : Int := l.length
    let lower : Int := if k < 0 then -1 else 0
    let upper : Int := if k < 0 then n - 1 else n
    let first := (start.map (stepBound l.length lower upper)).getD (if k < 0 then upper else lower)
    let last := (stop.map (stepBound l.length lower upper)).getD (if k < 0 then lower else upper)
    let count : Nat :=
      if k < 0 then (if last < first then ((first - last - 1) / (-k) + 1).toNat else 0)
      else (if first < last then ((last - first - 1) / k + 1).toNat else 0)
    .ok ((List.range count).filterMap (fun (i : Nat) => l[(first + i * k).toNat]?))

/-- Does `sub` occur as a contiguous block in `l` (Python `sub in l` for str/bytes)? -/
def isIn {α} [BEq α] (sub : List α) : List α → Bool
  | [] => sub.isEmpty
  | a :: l => sub.isPrefixOf (a :: l) || isIn sub l

/-! ## dict: an insertion-ordered association list -/

abbrev Dict (κ ν : Type) := List (κ × ν)

namespace Dict
variable {κ ν : Type} [DecidableEq κ]

/-- `d.get(k)` -/
def get? (d : Dict κ ν) (k : κ) : Option ν :=
  match d with
  | [] => none
  | (k', v) :: d => if k' = k then some v else get? d k

/-- `k in d` -/
def mem (d : Dict κ ν) (k : κ) : Bool := (get? d k).isSome

/-- `d[k] = v`: overwrite in place, or append at the end. -/
def set (d : Dict κ ν) (k : κ) (v : ν) : Dict κ ν :=
  match d with
  | [] => [(k, v)]
  | (k', v') :: d => if k' = k then (k', v) :: d else (k', v') :: set d k v

/-- `d.pop(k, None)` (result ignored): remove the key if present. -/
def pop (d : Dict κ ν) (k : κ) : Dict κ ν :=
  match d with
  | [] => []
  | (k', v') :: d => if k' = k then d else (k', v') :: pop d k

/-- `d.keys()` -/
def keys (d : Dict κ ν) : List κ := d.map Prod.fst

end Dict

/-! ## sorted(..., key=...): a stable sort -/

/-- Insert `a` before the first element whose key is not smaller. -/
def insertBy {α} (key : α → Nat) (a : α) : List α → List α
  | [] => [a]
  | b :: l => if key a ≤ key b then a :: b :: l else b :: insertBy key a l

/-- `sorted(l, key=key)`: the stable sort of `l` by `key` (as a function it is
uniquely determined by being a stable sorting permutation, so Timsort computes the same). -/
def sortBy {α} (key : α → Nat) : List α → List α
  | [] => []
  | a :: l => insertBy key a (sortBy key l)

/-! ## hex text -/

/-- Value of a hex digit; `none` for a character not in `string.hexdigits`. -/
def hexVal (c : Char) : Option Nat :=
  if '0' ≤ c ∧ c ≤ '9' then some (c.toNat - '0'.toNat)
  else if 'a' ≤ c ∧ c ≤ 'f' then some (c.toNat - 'a'.toNat + 10)
  else if 'A' ≤ c ∧ c ≤ 'F' then some (c.toNat - 'A'.toNat + 10)
  else none

/-- `c in string.hexdigits` for a single character `c`. -/
def isHexDigit (c : Char) : Bool := (hexVal c).isSome

/-- `binascii.unhexlify`: ValueError (binascii.Error) on odd length or a non-hex digit. -/
def unhexlify : Str → Except Exc Bytes
  | [] => .ok []
  | [_] => .error .valueError
  | c1 :: c2 :: rest =>
    match hexVal c1, hexVal c2 with
    | some h, some l =>
      match unhexlify rest with
      | .ok bs => .ok (UInt8.ofNat (16 * h + l) :: bs)
      | .error e => .error e
    | _, _ => .error .valueError

/-- Lowercase hex digit of a number below 16 (as printed by `hex()`). -/
def hexDigit (n : Nat) : Char :=
  if n < 10 then Char.ofNat ('0'.toNat + n) else Char.ofNat ('a'.toNat + (n - 10))

/-- `int(s, 16)` for a non-empty string of hex digits (no sign, prefix or underscore,
which is all the modelled code passes, after `isHex`). -/
def intOfHex (s : Str) : Nat := s.foldl (fun acc c => 16 * acc + (hexVal c).getD 0) 0

/-- `str(n).encode()` for a natural number: its decimal digits as ASCII bytes. -/
def decBytes (n : Nat) : Bytes := (Nat.toDigits 10 n).map (fun c => UInt8.ofNat c.toNat)

/-- ASCII text as bytes: a `b"..."` literal. -/
def ascii (s : String) : Bytes := s.toList.map (fun c => UInt8.ofNat c.toNat)

/-! ## strip and split -/

/-- Whitespace for `str.strip()` (Unicode whitespace as of `str.isspace`). -/
def isSpace (c : Char) : Bool :=
  let n := c.toNat
  (9 ≤ n && n ≤ 13) || (28 ≤ n && n ≤ 32) || n == 0x85 || n == 0xA0 || n == 0x1680 ||
  (0x2000 ≤ n && n ≤ 0x200A) || n == 0x2028 || n == 0x2029 || n == 0x202F || n == 0x205F || n == 0x3000

/-- Whitespace for `bytes.strip()` (ASCII whitespace). -/
def isSpaceByte (b : UInt8) : Bool := (9 ≤ b.toNat && b.toNat ≤ 13) || b.toNat == 32

/-- `strip` with a predicate telling which elements to remove at both ends. -/
def stripBy {α} (p : α → Bool) (l : List α) : List α :=
  ((l.dropWhile p).reverse.dropWhile p).reverse

/-- `s.strip()` -/
def strip (s : Str) : Str := stripBy isSpace s

/-- `re.split("[\r\n]", s)` -/
def splitCRLF : Str → List Str
  | [] => [[]]
  | c :: cs =>
    if c = '\r' ∨ c = '\n' then [] :: splitCRLF cs
    else match splitCRLF cs with
      | [] => [[c]]
      | h :: t => (c :: h) :: t

/-- ASCII part of `s.lower()`; other characters are left alone (simplification:
the only use is in front of `float()`, see `Model/Decoders` and `Model/Elm`). -/
def lower (s : Str) : Str :=
  s.map (fun c => if 'A' ≤ c ∧ c ≤ 'Z' then Char.ofNat (c.toNat + 32) else c)

/-! ## UTF-8 -/

/-- State of the decoder inside a multi-byte sequence: `need` more continuation
bytes, the code point bits so far, and the range allowed for the next byte. -/
structure Pend where
  need : Nat
  acc : Nat
  lo : Nat
  hi : Nat

/-- A byte at the beginning of a sequence: a character, a started sequence, or an error. -/
inductive Utf8Start where
  | char (c : Char)
  | pend (p : Pend)
  | bad

def utf8Start (b : UInt8) : Utf8Start :=
  let n := b.toNat
  if n < 0x80 then .char (Char.ofNat n)
  else if n < 0xC2 then .bad
  else if n < 0xE0 then .pend ⟨1, n - 0xC0, 0x80, 0xBF⟩
  else if n = 0xE0 then .pend ⟨2, 0, 0xA0, 0xBF⟩
  else if n = 0xED then .pend ⟨2, 0xD, 0x80, 0x9F⟩
  else if n < 0xF0 then .pend ⟨2, n - 0xE0, 0x80, 0xBF⟩
  else if n = 0xF0 then .pend ⟨3, 0, 0x90, 0xBF⟩
  else if n < 0xF4 then .pend ⟨3, n - 0xF0, 0x80, 0xBF⟩
  else if n = 0xF4 then .pend ⟨3, 4, 0x80, 0x8F⟩
  else .bad

/-- `bs.decode("utf-8", "ignore")`: undecodable bytes are dropped.  (CPython drops the
maximal ill-formed prefix; the bytes of that prefix after the first are continuation
bytes, which are dropped on their own anyway, so dropping one byte at a time is the same.) -/
def utf8Ignore : Option Pend → Bytes → Str
  | _, [] => []
  | none, b :: bs =>
    match utf8Start b with
    | .char c => c :: utf8Ignore none bs
    | .pend p => utf8Ignore (some p) bs
    | .bad => utf8Ignore none bs
  | some p, b :: bs =>
    if p.lo ≤ b.toNat ∧ b.toNat ≤ p.hi then
      if p.need = 1 then Char.ofNat (p.acc * 64 + (b.toNat - 0x80)) :: utf8Ignore none bs
      else utf8Ignore (some ⟨p.need - 1, p.acc * 64 + (b.toNat - 0x80), 0x80, 0xBF⟩) bs
    else
      match utf8Start b with
      | .char c => c :: utf8Ignore none bs
      | .pend p => utf8Ignore (some p) bs
      | .bad => utf8Ignore none bs

/-- `bs.decode()`: strict UTF-8, UnicodeDecodeError on ill-formed input. -/
def utf8Strict : Option Pend → Bytes → Except Exc Str
  | none, [] => .ok []
  | some _, [] => .error .unicodeDecodeError
  | none, b :: bs =>
    match utf8Start b with
    | .char c => (utf8Strict none bs).map (c :: ·)
    | .pend p => utf8Strict (some p) bs
    | .bad => .error .unicodeDecodeError
  | some p, b :: bs =>
    if p.lo ≤ b.toNat ∧ b.toNat ≤ p.hi then
      if p.need = 1 then
        (utf8Strict none bs).map (Char.ofNat (p.acc * 64 + (b.toNat - 0x80)) :: ·)
      else utf8Strict (some ⟨p.need - 1, p.acc * 64 + (b.toNat - 0x80), 0x80, 0xBF⟩) bs
    else .error .unicodeDecodeError

end Py
