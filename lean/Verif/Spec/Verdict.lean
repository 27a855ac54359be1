import Verif.Spec.Monitor
import Verif.Spec.Sensors
/-!
# Specification: when a mode 06 test has passed
-/
namespace Spec
open Py Model

/-- The number in a field of a mode 06 result, SAE J1979: scaling IDs from 0x80 on are signed (two's complement),
those below unsigned. -/
def rawNumber (uas : UInt8) (bs : Bytes) : Int := reading (decide (0x80 ≤ uas.toNat)) bs

/-- What SAE J1979 says about a result: the value is within the limits.  Scaling 0x2E is a truth value
(zero or not), ordered false before true. -/
def Block.within (b : Block) : Prop :=
  if b.uas = 0x2E then ((∃ x ∈ b.min, x ≠ 0) → ∃ x ∈ b.value, x ≠ 0) ∧ ((∃ x ∈ b.value, x ≠ 0) → ∃ x ∈ b.max, x ≠ 0)
  else rawNumber b.uas b.min ≤ rawNumber b.uas b.value ∧ rawNumber b.uas b.value ≤ rawNumber b.uas b.max

end Spec
