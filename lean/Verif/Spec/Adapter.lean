import Verif.Spec.Exchange
/-!
# Specification: an adapter that does what it is told

A well-behaved adapter in front of a car that may change with time: it accepts every line, a
carriage return alone repeats the last line, and a digit after a request limits the number of
response lines.  Time is measured in I/O operations.
-/
namespace Spec
open Py Model

/-- What the adapter is working on: the last line that was not empty. -/
def request (h : History) : Bytes := (((written h).filter (fun b => b != line [])).getLast?).getD []

/-- A read gets these chunks: the lines of a reply that ends with the prompt, or it fails. -/
inductive Delivers : List (Option Bytes) → Option (List Str) → Prop
  | reply (cs : List Bytes) (rest : List (Option Bytes)) (text : Bytes) (lines : List Str) (hc : ∀ c ∈ cs, c ≠ [])
      (ht : (0x3E : UInt8) ∉ text) (hf : cs.flatten = text ++ [0x3E]) (hl : LinesOf (text ++ [0x3E]) lines) :
      Delivers (cs.map some ++ rest) (some lines)
  | fails (cs : List Bytes) (rest : List (Option Bytes)) (hc : ∀ c ∈ cs, c ≠ []) (hp : (0x3E : UInt8) ∉ cs.flatten) :
      Delivers (cs.map some ++ none :: rest) none

/-- What the adapter answers (`none`: the connection breaks), given the number of I/O
operations so far and the line it is working on. -/
abbrev Answers := Nat → Bytes → Option (List Str)

/-- The adapter accepts every line and answers the last line that was not empty. -/
structure Faithful (dev : Device) (env : Answers) : Prop where
  accepts : ∀ h b, dev.write h b = true
  answers : ∀ h, Delivers (dev.read h) (env h.length (request h))

/-- A request to the car: an even number of hexadecimal digits. -/
def IsRequest (b : Bytes) : Prop := b ≠ [] ∧ b.length % 2 = 0 ∧ ∀ x ∈ b, x ∈ ascii "0123456789ABCDEF"

/-- A digit `n` from 1 to 9 after a request: only the first `n` lines. -/
def Limits (env : Answers) : Prop :=
  ∀ k x n, IsRequest x → 1 ≤ n → n ≤ 9 → env k (line (x ++ [UInt8.ofNat (0x30 + n)])) = (env k (line x)).map (List.take n)

/-- The outcomes of a list of queries (command, force). -/
def outcomes (dev : Device) (fl : Str → Option PyFloat) : List (OBDCommand × Bool) → OW → List (Except Exc Response)
  | [], _ => []
  | q :: qs, s => (ObdM.query dev fl q.1 q.2 s).1 :: outcomes dev fl qs (ObdM.query dev fl q.1 q.2 s).2

/-- The replies to the command `c` under the protocol object `o` do not vary in shape: there is
always a line, they can be parsed, and for a command with response limit they always consist
of the same number of lines, one to nine, all of them part of a message. -/
def Steady (env : Answers) (o : ProtoObj) (c : OBDCommand) : Prop :=
  ∃ n, ∀ k lines, env k (line c.command) = some lines → lines ≠ [] ∧ ∃ ms, o.call lines = .ok ms ∧
    (c.fast = true → 1 ≤ n ∧ n ≤ 9 ∧ lines.length = n ∧ (ms.map (fun m => m.frames.length)).sum = n)

end Spec
