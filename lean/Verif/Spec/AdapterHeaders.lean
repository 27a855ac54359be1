import Verif.Spec.Adapter
/-!
# Specification: an adapter that does what it is told, asked under several headers

As in `Verif.Spec.Adapter`, but what comes back also depends on the header in force.
-/
namespace Spec
open Py Model

/-- A line that begins with `AT SH `. -/
def isHeaderLine (b : Bytes) : Bool := b.take 6 == ascii "AT SH "

/-- The line that set the header in force (empty: the one of the adapter). -/
def underHeader (h : History) : Bytes := (((written h).filter isHeaderLine).getLast?).getD []

/-- What the adapter answers (`none`: the connection breaks), given the number of I/O operations so far, the line that set the header
in force, and the line it is working on. -/
abbrev HAnswers := Nat → Bytes → Bytes → Option (List Str)

/-- The adapter accepts every line and answers the last line that was not empty, under the header in force. -/
structure FaithfulH (dev : Device) (env : HAnswers) : Prop where
  accepts : ∀ h b, dev.write h b = true
  answers : ∀ h, Delivers (dev.read h) (env h.length (underHeader h) (request h))

/-- A digit `n` from 1 to 9 after a request: only the first `n` lines. -/
def LimitsH (env : HAnswers) : Prop := ∀ u, Limits (fun k x => env k u x)

/-- The header of the command was set by the line `u`, or is the default one, and none was set. -/
def Under (c : OBDCommand) (u : Bytes) : Prop := u = line (headerLine c.header) ∨ c.header = ascii "7E0" ∧ u = []

/-- `Steady`, under the header of the command. -/
def SteadyH (env : HAnswers) (o : ProtoObj) (c : OBDCommand) : Prop :=
  ∃ n, ∀ k u lines, Under c u → env k u (line c.command) = some lines → lines ≠ [] ∧ ∃ ms, o.call lines = .ok ms ∧
    (c.fast = true → 1 ≤ n ∧ n ≤ 9 ∧ lines.length = n ∧ (ms.map (fun m => m.frames.length)).sum = n)

/-- Setting the header of the command is acknowledged (or the connection breaks). -/
def Acks (env : HAnswers) (c : OBDCommand) : Prop := ∀ k u ls, env k u (line (headerLine c.header)) = some ls → ls = ["OK".toList]

/-- Two commands with different headers are different, also if one character (a response limit) is put after one of them or both. -/
def Apart (c d : OBDCommand) : Prop :=
  c.header = d.header ∨ ∀ x y : Bytes, x.length ≤ 1 → y.length ≤ 1 → c.command ++ x ≠ d.command ++ y

end Spec
