import Verif.Model.Command
import Verif.Spec.IsoTp
/-!
# Specification: commands

Shared with the model: `Message`, `OBDCommand` (public attributes).
-/
namespace Spec
open Py Model

/-- Two ECU tags (sets of bits) have an ECU in common. -/
def Overlap (a b : Nat) : Prop := ∃ i, a.testBit i = true ∧ b.testBit i = true

/-- `d` cut to `n` bytes, or followed by zeros up to `n` bytes; unchanged if `n` is 0. -/
def fit (n : Nat) (d : Bytes) : Bytes := if n = 0 then d else (d ++ List.replicate n 0).take n

/-- The value of a string of hex digits. -/
def hexValue : List Nat → Nat
  | [] => 0
  | d :: ds => d * 16 ^ ds.length + hexValue ds

/-- `bs` is the ASCII text of the hex digits `ds`. -/
def AsciiHex (bs : Bytes) (ds : List Nat) : Prop :=
  bs.map (fun b => digit? (Char.ofNat b.toNat)) = ds.map some

end Spec
