import Verif.Py.Basic
/-!
# Specifications: big-endian numbers and bits

Independent of the model.
-/
namespace Spec
open Py

/-- The `k`-byte big-endian encoding of `n` (most significant byte first). -/
def beEncode : Nat → Nat → Bytes
  | 0, _ => []
  | k + 1, n => UInt8.ofNat (n / 256 ^ k) :: beEncode k (n % 256 ^ k)

/-- Bit `i` of the byte `b`, bit 0 being the least significant one. -/
def bitOf (b : UInt8) (i : Nat) : Bool := b.toNat.testBit i

/-- The value of a list of bits, most significant first. -/
def bitsValue : List Bool → Nat
  | [] => 0
  | b :: bs => b.toNat * 2 ^ bs.length + bitsValue bs

/-- The position that a bound `b` of a slice means in a sequence of `n` items: a negative one is
counted from the end. -/
def position (n : Nat) (b : Int) : Int := if b < 0 then n + b else b

/-- The items of `l[start:stop]`: those at the positions `i` with start ≤ i < stop, in order. -/
def sliced {α} (l : List α) (start stop : Option Int) : List α :=
  ((List.range l.length).filter (fun (i : Nat) =>
    start.all (fun b => decide (position l.length b ≤ i)) &&
    stop.all (fun b => decide ((i : Int) < position l.length b)))).filterMap (l[·]?)

/-- The items of `l[start:stop:k]` for a positive `k`: every `k`-th one of `l[start:stop]`. -/
def slicedUp {α} (l : List α) (start stop : Option Int) (k : Nat) : List α :=
  let part := sliced l start stop
  ((List.range part.length).filter (fun i => decide (i % k = 0))).filterMap (part[·]?)

/-- The items of `l[start:stop:-k]` for a positive `k`: walking backwards from the start (the last
item if it is missing) to just after the stop, every `k`-th item. -/
def slicedDown {α} (l : List α) (start stop : Option Int) (k : Nat) : List α :=
  let part := (((List.range l.length).filter (fun (i : Nat) =>
    start.all (fun b => decide ((i : Int) ≤ position l.length b)) &&
    stop.all (fun b => decide (position l.length b < i)))).filterMap (l[·]?)).reverse
  ((List.range part.length).filter (fun i => decide (i % k = 0))).filterMap (part[·]?)

/-- Lowercase hexadecimal digits. -/
def lowerHex : List Char := "0123456789abcdef".toList

end Spec
