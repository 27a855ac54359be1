import Verif.Model.Protocol
/-!
# Specification: how a car sends a reply over CAN (ISO 15765-2), as text lines of an ELM327

Independent of the parser: only the names of the protocols (`Proto`) are shared.
-/
namespace Spec
open Py Model

/-! ## Hexadecimal text -/

/-- Value of a hexadecimal digit, upper or lower case. -/
def digit? (c : Char) : Option Nat :=
  (("0123456789abcdef".toList.zipIdx ++ "ABCDEF".toList.zipIdx 10).find? (fun e => e.1 == c)).map
    Prod.snd

/-- The text `s`, whose spaces do not matter, spells the hex digits `ds`. -/
def Spells (s : Str) (ds : List Nat) : Prop := (s.filter (fun c => c != ' ')).map digit? = ds.map some

/-- The hex digits of a byte string. -/
def nibbles (bs : Bytes) : List Nat := bs.flatMap (fun b => [b.toNat / 16, b.toNat % 16])

/-- A line that is not pure hex text once its spaces are removed. -/
def NotHex (s : Str) : Prop := ∃ c ∈ s, c ≠ ' ' ∧ digit? c = none

instance (s : Str) : Decidable (NotHex s) := by unfold NotHex; infer_instance

/-- One way of printing digits: upper case, no spaces. -/
def printDigits (ds : List Nat) : Str := ds.map (fun d => "0123456789ABCDEF".toList[d]!)

/-! ## CAN identifiers -/

/-- The identifier with which an ECU answers: `7E8`..`7EF` on 11-bit buses, four header
bytes (priority, addressing, target, source) on 29-bit buses. -/
inductive Sender where
  | e11 (n : Fin 8)
  | e29 (prio addr target source : UInt8)

/-- The digits of the identifier as printed by the adapter. -/
def Sender.digits : Sender → List Nat
  | .e11 n => [7, 14, 8 + n.val]
  | .e29 a b c d => nibbles [a, b, c, d]

/-- The number of the ECU. -/
def Sender.ecu : Sender → Nat
  | .e11 n => n.val
  | .e29 _ _ _ d => d.toNat

/-- The protocols on which such identifiers occur. -/
def Sender.On : Sender → Proto → Prop
  | .e11 _, p => p = .can11_500 ∨ p = .can11_250
  | .e29 _ _ _ _, p => p = .can29_500 ∨ p = .can29_250 ∨ p = .j1939

/-- `s` is the line printed for a CAN frame of ECU `e` with the given data bytes. -/
def CanLine (e : Sender) (data : Bytes) (s : Str) : Prop := Spells s (e.digits ++ nibbles data)

/-! ## Reading any line -/

/-- Pairs of hex digits as bytes. -/
def hexBytes? : List (Option Nat) → Option Bytes
  | [] => some []
  | some a :: some b :: rest => (hexBytes? rest).map (UInt8.ofNat (16 * a + b) :: ·)
  | _ => none

/-- The control byte(s) of a CAN frame are known and announce something: `0L` single frame
with `L > 0`, `1LLL` first frame with `LLL > 0`, `2N` consecutive frame. -/
def pciOk : Bytes → Bool
  | a :: b :: _ =>
    (1 ≤ a.toNat && a.toNat ≤ 15) ||
    (16 ≤ a.toNat && a.toNat ≤ 31 && !(a.toNat = 16 && b.toNat = 0)) ||
    (32 ≤ a.toNat && a.toNat ≤ 47)
  | _ => false

/-- The number of the ECU in an 11-bit identifier `?ab`: `?D?` and `??0`..`??7` are
messages of the tester (F1), the rest those of ECU `b - 8`. -/
def ecuOf11 (a b : Nat) : Nat := if a = 13 ∨ b < 8 then 0xF1 else b - 8

/-- The frame printed on a line: its transmitter and its data bytes (without the checksum
of the legacy protocols); `none` if the line is not a frame of the protocol. -/
def lineFrame? (p : Proto) (s : Str) : Option (Nat × Bytes) :=
  let ds := (s.filter (fun c => c != ' ')).map digit?
  match p with
  | .can11_500 | .can11_250 =>
    match ds with
    | some _ :: some a :: some b :: rest =>
      match hexBytes? rest with
      | some data => if data.length ≤ 8 ∧ pciOk data then some (ecuOf11 a b, data) else none
      | none => none
    | _ => none
  | .can29_500 | .can29_250 | .j1939 =>
    match hexBytes? ds with
    | some (_ :: _ :: _ :: t :: data) =>
      if data.length ≤ 8 ∧ pciOk data then some (t.toNat, data) else none
    | _ => none
  | .j1850pwm | .j1850vpw | .iso9141 | .kwp5baud | .kwpFast =>
    match hexBytes? ds with
    | some (_ :: _ :: t :: rest) =>
      if 3 ≤ rest.length ∧ rest.length ≤ 8 then some (t.toNat, rest.dropLast) else none
    | _ => none
  | .unknown => none

/-- The line is a frame transmitted by `t`. -/
def sentBy (p : Proto) (t : Nat) (s : Str) : Bool := (lineFrame? p s).map Prod.fst == some t

/-- The data bytes of the frames transmitted by `t`, in order of arrival. -/
def framesBy (p : Proto) (t : Nat) (lines : List Str) : List Bytes :=
  ((lines.filterMap (lineFrame? p)).filter (fun x => x.1 == t)).map Prod.snd

/-! ## Segmentation -/

/-- A single frame: length, payload, padding. -/
def singleFrame (payload pad : Bytes) : Bytes := UInt8.ofNat payload.length :: payload ++ pad

/-- The first frame of a segmented payload: `1LLL` and six bytes. -/
def firstFrame (payload : Bytes) : Bytes :=
  [UInt8.ofNat (0x10 + payload.length / 256), UInt8.ofNat (payload.length % 256)] ++ payload.take 6

/-- The `i`-th consecutive frame, `i = 1, 2, ...`: `2N` with the sequence number modulo
16, and the next seven bytes of the payload followed by the padding. -/
def consecutiveFrame (payload pad : Bytes) (i : Nat) : Bytes :=
  UInt8.ofNat (0x20 + i % 16) :: ((payload ++ pad).drop (6 + 7 * (i - 1))).take 7

/-- Frame number `i` of a segmented reply; number 0 is the first frame. -/
def replyFrame (payload pad : Bytes) (i : Nat) : Bytes :=
  if i = 0 then firstFrame payload else consecutiveFrame payload pad i

/-- The number of consecutive frames needed after the six bytes of the first frame. -/
def consecutiveCount (payload : Bytes) : Nat := (payload.length - 6 + 6) / 7

/-- A payload that needs segmentation, and padding that fits into its last frame. -/
structure Segmentable (payload pad : Bytes) : Prop where
  min : 8 ≤ payload.length
  max : payload.length ≤ 4095
  pad : payload.length + pad.length ≤ 6 + 7 * consecutiveCount payload

/-- The receiver can tell sequence number `next` from its last four bits when `prev` was
received just before: it lies among the 16 numbers starting 7 below `prev`, but not below the
multiple of 16 at or below `prev`. -/
def InWindow (prev next : Nat) : Prop :=
  max (16 * (prev / 16)) (prev - 7) ≤ next ∧ next < max (16 * (prev / 16)) (prev - 7) + 16

/-- Every number of the list is in the window of its predecessor. -/
def TrackFrom (prev : Nat) : List Nat → Prop
  | [] => True
  | i :: is => InWindow prev i ∧ TrackFrom i is

/-- The sequence numbers can be told from their last four bits along the arrival order. -/
def Trackable : List Nat → Prop
  | [] => True
  | i :: is => i ≤ 15 ∧ TrackFrom i is

/-- What has been received of a segmented reply of ECU `e`: any lines, in any order, with
any repetitions, each together with the number of the frame printed on it. -/
def Received (e : Sender) (payload pad : Bytes) (recvd : List (Str × Nat)) : Prop :=
  ∀ x ∈ recvd, x.2 ≤ consecutiveCount payload ∧ CanLine e (replyFrame payload pad x.2) x.1

/-- The frame numbers received are those of the first frame and of `m ≥ 1` consecutive
frames `1, ..., m`, each exactly once. -/
def Complete (recv : List Nat) : Prop :=
  recv.count 0 = 1 ∧ 1 ≤ (recv.filter (· ≠ 0)).length ∧
    (recv.filter (· ≠ 0)).Perm (List.range' 1 (recv.filter (· ≠ 0)).length)

/-- A first frame. -/
def isFirst (d : Bytes) : Bool := d.head?.map (fun b => b.toNat / 16) == some 1

/-- A consecutive frame. -/
def isConsecutive (d : Bytes) : Bool := d.head?.map (fun b => b.toNat / 16) == some 2

/-- The length announced in a first frame `1L LL`. -/
def announced : Bytes → Nat
  | a :: b :: _ => a.toNat % 16 * 256 + b.toNat
  | _ => 0

/-- `data` is explained by the frames `own` of one ECU: it is the announced part of a
lone single frame, or the announced part (or all, if less was received) of the payloads of the
only first frame and of all consecutive frames, put in an order in which they are
numbered 1, 2, 3, ... modulo 16. -/
inductive Explains (own : List Bytes) (data : Bytes) : Prop
  | single (a : UInt8) (rest : Bytes) (h : own = [a :: rest]) (ha : 1 ≤ a.toNat ∧ a.toNat ≤ 15)
      (hd : data = rest.take a.toNat)
  | segmented (first : Bytes) (cfs : List Bytes) (h1 : own.filter isFirst = [first])
      (h2 : cfs.Perm (own.filter isConsecutive)) (h3 : cfs ≠ [])
      (h4 : ∀ (i : Nat) (d : Bytes), cfs[i]? = some d → d.head?.map UInt8.toNat = some (0x20 + (i + 1) % 16))
      (hd : data = (first.drop 2 ++ cfs.flatMap (List.drop 1)).take (announced first))

/-- What the library makes of a mode-03 reply `43 k ...` on CAN: only the `k` announced
codes are kept. -/
def dtcCut : Bytes → Bytes
  | a :: k :: rest => if a = 0x43 then a :: k :: rest.take (2 * k.toNat) else a :: k :: rest
  | d => d

end Spec
