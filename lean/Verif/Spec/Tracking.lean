import Verif.Spec.IsoTp
/-!
# Specification: for which frames a receiver takes consecutive frames of which it sees four bits of the number
-/
namespace Spec
open Py

/-- After a frame taken for number `prev`, the frames with the true numbers `is` are taken for `bs`: each for the
number in the window of its predecessor that agrees with the true number in the last four bits. -/
def BelievedFrom (prev : Nat) : List Nat → List Nat → Prop
  | [], [] => True
  | i :: is, b :: bs => b % 16 = i % 16 ∧ InWindow prev b ∧ BelievedFrom b is bs
  | _, _ => False

/-- The consecutive frames with the true numbers `is`, in order of arrival, are taken for the numbers `bs`: the
first one for its last four bits, all others relative to their predecessors. -/
def Believed : List Nat → List Nat → Prop
  | [], [] => True
  | i :: is, b :: bs => b = i % 16 ∧ BelievedFrom b is bs
  | _, _ => False

/-- The seven bytes (fewer in an unpadded last frame) carried by consecutive frame `i`. -/
def block (payload pad : Bytes) (i : Nat) : Bytes := ((payload ++ pad).drop (6 + 7 * (i - 1))).take 7

/-- The four bits of its number that a consecutive frame `2N` carries. -/
def seqOf : Bytes → Nat
  | a :: _ => a.toNat % 16
  | [] => 0

/-- What any CAN frames `own` of one ECU, in order of arrival, are put together to: the announced part of a lone single frame; or,
if there is exactly one first frame, and the consecutive frames are taken for 1, ..., n in some order (n ≥ 1), the announced
part (or all, if there is less) of the bytes of the first frame and of the consecutive frames in the order of the numbers they are taken for. -/
inductive Assembles (own : List Bytes) (data : Bytes) : Prop
  | single (a : UInt8) (rest : Bytes) (h : own = [a :: rest]) (ha : 1 ≤ a.toNat ∧ a.toNat ≤ 15) (hd : data = rest.take a.toNat)
  | segmented (first : Bytes) (bs : List Nat) (cfs : List Bytes) (h1 : own.filter isFirst = [first])
      (hb : Believed ((own.filter isConsecutive).map seqOf) bs) (hn : bs ≠ []) (hl : cfs.length = bs.length)
      (hp : (cfs.zip (List.range' 1 bs.length)).Perm ((own.filter isConsecutive).zip bs))
      (hd : data = (first.drop 2 ++ cfs.flatMap (List.drop 1)).take (announced first))

end Spec
