import Verif.Py.Basic
/-!
# Model of `obd/utils.py`
-/
namespace Model
open Py

/-- `OBDStatus`, obd/utils.py:44-50 (string constants; see `Status.text`). -/
inductive Status where
  | notConnected
  | elmConnected
  | obdConnected
  | carConnected
  deriving DecidableEq, Repr

/-- The string values of the `OBDStatus` constants, obd/utils.py:47-50. -/
def Status.text : Status → Str
  | .notConnected => "Not Connected".toList
  | .elmConnected => "ELM Connected".toList
  | .obdConnected => "OBD Connected".toList
  | .carConnected => "Car Connected".toList

/-- `bin(n)[2:]`, obd/utils.py:65: the binary digits of `n`, most significant first, without leading
zeros ("0" for zero).  Bits are Booleans instead of the characters "0"/"1". -/
def binNoPrefix (n : Nat) : List Bool := (Nat.toDigits 2 n).map (· == '1')

/-- One iteration of the loop in `BitArray.__init__`, obd/utils.py:64-66:
`v = bin(b)[2:]` padded on the left with "0" to 8 digits. -/
def byteBits (b : UInt8) : List Bool :=
  let v := binNoPrefix b.toNat
  List.replicate (8 - v.length) false ++ v

/-- `BitArray`, obd/utils.py:53-103; `bits` is the string of "0"/"1" (here Booleans). -/
structure BitArray where
  bits : List Bool
  deriving DecidableEq, Repr

namespace BitArray

/-- `BitArray.__init__`, obd/utils.py:62-66. -/
def ofBytes (bs : Bytes) : BitArray := ⟨bs.foldl (fun acc b => acc ++ byteBits b) []⟩

/-- `BitArray.__getitem__` with an int key, obd/utils.py:69-73. -/
def getItem (a : BitArray) (key : Int) : Bool :=
  if key ≥ 0 ∧ key < a.bits.length then (a.bits[key.toNat]?).getD false else false

/-- `BitArray.__getitem__` with a slice `start:stop`, obd/utils.py:74-79; a missing or None bound is
`none`.  (`self.bits[key]` is empty exactly when the `else` branch returns `[]`, so the two branches
agree.) -/
def getSlice (a : BitArray) (start stop : Option Int) : List Bool := pySlice a.bits start stop

/-- `BitArray.__getitem__` with an extended slice `start:stop:step`, obd/utils.py:74-79. -/
def getStep (a : BitArray) (start stop step : Option Int) : Except Exc (List Bool) := pySliceStep a.bits start stop step

/-- `BitArray.__iter__`, obd/utils.py:100-101: the list the iterator runs through. -/
def iter (a : BitArray) : List Bool := a.bits

/-- `BitArray.num_set`, obd/utils.py:81-82. -/
def numSet (a : BitArray) : Nat := a.bits.count true

/-- `BitArray.num_cleared`, obd/utils.py:84-85. -/
def numCleared (a : BitArray) : Nat := a.bits.count false

/-- `BitArray.value(start, stop)`, obd/utils.py:87-92 (`int(bits, 2)`, or 0 if empty). -/
def value (a : BitArray) (start stop : Option Int) : Nat :=
  (pySlice a.bits start stop).foldl (fun acc b => 2 * acc + b.toNat) 0

/-- `BitArray.__len__`, obd/utils.py:94-95. -/
def len (a : BitArray) : Nat := a.bits.length

end BitArray

/-- `bytes_to_int`, obd/utils.py:104-111: loop over the reversed bytes with `v` and `p`. -/
def bytesToInt (bs : Bytes) : Nat :=
  (bs.reverse.foldl (fun (vp : Nat × Nat) b => (vp.1 + b.toNat * 2 ^ vp.2, vp.2 + 8)) (0, 0)).1

/-- `hex(b)[2:]`, obd/utils.py:117, for a byte: one or two lowercase digits. -/
def hexNoPrefix (b : UInt8) : Str :=
  if b.toNat < 16 then [hexDigit b.toNat] else [hexDigit (b.toNat / 16), hexDigit (b.toNat % 16)]

/-- `bytes_to_hex`, obd/utils.py:114-119. -/
def bytesToHex (bs : Bytes) : Str :=
  bs.foldl (fun h b =>
    let bh := hexNoPrefix b
    h ++ (List.replicate (2 - bh.length) '0' ++ bh)) []

/-- `twos_comp`, obd/utils.py:122-126; `1 << (num_bits - 1)` raises ValueError
(negative shift count) for `num_bits = 0`. -/
def twosComp (val : Nat) (numBits : Nat) : Except Exc Int :=
  if numBits = 0 then .error .valueError
  else if val &&& (1 <<< (numBits - 1)) ≠ 0 then .ok ((val : Int) - (1 <<< numBits : Nat))
  else .ok val

/-- `isHex`, obd/utils.py:129-130. -/
def isHex (s : Str) : Bool := s.all isHexDigit

/-- `contiguous`, obd/utils.py:133-147, for any kind of number (the parsers call it on natural
numbers, a user may call it on any integers). -/
def contiguous {α} [DecidableEq α] [Add α] [OfNat α 1] (l : List α) (start end_ : α) : Bool :=
  match l with
  | [] => false
  | a :: rest =>
    if a ≠ start then false
    else if (a :: rest).getLast? ≠ some end_ then false
    else ((a :: rest).zip rest).all (fun p => p.1 + 1 == p.2)

end Model
