import Verif.Spec.EndToEnd
import Verif.Spec.Dtc
/-!
# Specification: how cars report trouble codes
-/
namespace Spec
open Py Model

/-- The bytes of trouble codes. -/
def codeBytes (codes : List (UInt8 × UInt8)) : Bytes := codes.flatMap (fun c => [c.1, c.2])

/-- Among the lines, the ECU `t` reports the trouble codes `codes`; the answers have the mode byte
`mode`.  On CAN it sends one message: the mode, the number of codes and the codes.  On
the older protocols it sends lines of three codes each, the last ones filled up with zeros. -/
inductive ReportsCodes (p : Proto) (mode : UInt8) (t : Nat) (codes : List (UInt8 × UInt8)) (lines : List Str) : Prop
  | can (n : Nat) (hp : p.family = .can n) (h : Says p t (mode :: UInt8.ofNat codes.length :: codeBytes codes) lines) (hk : codes.length ≤ 255)
  | legacy (hp : IsLegacy p) (bodies : List Bytes) (hne : bodies ≠ []) (hlen : ∀ b ∈ bodies, b.length = 6) (k : Nat)
      (hb : bodies.flatten = codeBytes codes ++ List.replicate k 0) (own : framesBy p t lines = bodies.map (mode :: ·))

/-- The ECUs that sent frames, in the order of their addresses, and what they report:
trouble codes, none of them 00 00. -/
structure Reported (p : Proto) (mode : UInt8) (lines : List Str) (ecus : List Nat) (codes : Nat → List (UInt8 × UInt8)) : Prop where
  sorted : ecus.Pairwise (· < ·)
  mem : ∀ t, t ∈ ecus ↔ framesBy p t lines ≠ []
  some_ecu : ecus ≠ []
  reports : ∀ t ∈ ecus, ReportsCodes p mode t (codes t) lines
  nonzero : ∀ t ∈ ecus, ∀ c ∈ codes t, c ≠ (0, 0)

end Spec
