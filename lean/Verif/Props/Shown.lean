import Verif.Props.Repr
import Verif.Props.Status
/-!
# C90: the printed forms of commands and readiness tests
-/
namespace Props
open Py Model Spec

/-- A line such as `b'010C': Engine RPM`: the bytes and the description. -/
def readLine (s : Str) : Option (Bytes × Str) := do
  let (b, s) ← bytesLit s
  let s ← skip ": " s
  return (b, s)

/-- C90, commands: `str(command)` is a bytes literal with the request, behind the header if that is not 7E0, and the description. -/
theorem C90_command (c : OBDCommand) :
    readLine c.toStr = some (if c.header = ascii "7E0" then c.command else c.header ++ c.command, c.desc.toList) := by
  have key : ∀ b : Bytes, readLine (reprBytes b ++ ": ".toList ++ c.desc.toList) = some (b, c.desc.toList) := by
    intro b
    unfold readLine
    rw [List.append_assoc, bytesLit_repr]
    rfl
  unfold OBDCommand.toStr
  by_cases h : c.header = ascii "7E0"
  · rw [if_pos h, if_neg (by simpa [engineHeader] using h)]; exact key _
  · rw [if_neg h, if_pos (by simpa [engineHeader] using h)]; exact key _

/-- C90, `print_commands()`: one line for each supported command. -/
theorem C90_print (s : OW) : (printCommands s).map readLine =
    s.supported.map (fun c => some (if c.header = ascii "7E0" then c.command else c.header ++ c.command, c.desc.toList)) := by
  rw [printCommands, List.map_map]
  exact List.map_congr_left (fun c _ => C90_command c)

/-- The text of a readiness test. -/
def testText (name : String) (supported complete : Bool) : Str :=
  ("Test " ++ name ++ ": " ++ (if supported then "Available" else "Unavailable") ++ ", " ++ (if complete then "Complete" else "Incomplete")).toList

/-- C90, readiness tests: the text of each test of a status reply with the bytes A B C D. -/
theorem C90_tests (fl : Str → Option PyFloat) (m : Message) (rest : List Message) (x y A B C D : UInt8) (t : Bytes)
    (h : m.data = x :: y :: A :: B :: C :: D :: t) :
    ∃ s, Decoder.run fl .status (m :: rest) = .ok (.status s) ∧
      (∀ e ∈ baseMonitors, (testOf s e.1).map StatusTest.toStr = some (testText e.1 (bitOf B e.2) (!bitOf B (e.2 + 4)))) ∧
      (∀ e ∈ ownMonitors (bitOf B 3), (testOf s e.1).map StatusTest.toStr = some (testText e.1 (bitOf C e.2) (!bitOf D e.2))) := by
  obtain ⟨s, h1, -, -, -, h2, h3, -⟩ := C34_status fl m rest x y A B C D t h
  have key : ∀ (n : String) (a c : Bool), ({ name := some n, available := a, complete := c } : StatusTest).toStr = testText n a c := by
    intro n a c
    unfold StatusTest.toStr testText
    simp only [Option.getD_some, String.toList_append]
  exact ⟨s, h1, fun e he => by rw [h2 e he, Option.map_some, key], fun e he => by rw [h3 e he, Option.map_some, key]⟩

example : (byName "RPM").map OBDCommand.toStr = some "b'010C': Engine RPM".toList ∧
    testText "MISFIRE_MONITORING" true false = "Test MISFIRE_MONITORING: Available, Incomplete".toList := by
  constructor <;> decide +kernel

/-- C90: what is printed does not always tell commands apart: a request under another header prints like a longer request. -/
theorem C90_apart_refuted : ¬ ∀ c d : OBDCommand, c.toStr = d.toStr → c.eq d = true := by
  intro h
  have := h { name := "", desc := "", command := ascii "7E1010C", bytes := 0, decode := .drop }
    { name := "", desc := "", command := ascii "010C", bytes := 0, decode := .drop, header := ascii "7E1" } (by decide +kernel)
  revert this; decide +kernel

/-- C90: commands under the same header that print alike send the same request and have the same description. -/
theorem C90_apart_partial (c d : OBDCommand) (hh : c.header = d.header) (h : c.toStr = d.toStr) : c.eq d = true ∧ c.desc = d.desc := by
  have := C90_command c
  rw [h, C90_command d] at this
  simp only [Option.some.injEq, Prod.mk.injEq] at this
  obtain ⟨h1, h2⟩ := this
  refine ⟨?_, (String.toList_inj.1 h2).symm⟩
  rw [hh] at h1
  have : d.command = c.command := by
    by_cases h3 : d.header = ascii "7E0"
    · simpa [h3] using h1
    · simpa [h3] using h1
  simp [OBDCommand.eq, hh, this]

/-- C90, exactly which commands print alike: those with the same description whose header (if not the engine's) and request, written one behind
the other, are the same bytes. -/
theorem C90_alike (c d : OBDCommand) : c.toStr = d.toStr ↔
    (if c.header = ascii "7E0" then c.command else c.header ++ c.command) = (if d.header = ascii "7E0" then d.command else d.header ++ d.command) ∧
      c.desc = d.desc := by
  constructor
  · intro h
    have := C90_command c
    rw [h, C90_command d] at this
    simp only [Option.some.injEq, Prod.mk.injEq] at this
    exact ⟨this.1.symm, (String.toList_inj.1 this.2).symm⟩
  · rintro ⟨h1, h2⟩
    have e : ∀ x : OBDCommand, x.toStr =
        reprBytes (if x.header = ascii "7E0" then x.command else x.header ++ x.command) ++ ": ".toList ++ x.desc.toList := by
      intro x
      unfold OBDCommand.toStr
      by_cases h : x.header = engineHeader
      · rw [if_neg (not_not.2 h), if_pos (show x.header = ascii "7E0" from h)]
      · rw [if_pos h, if_neg (show ¬ x.header = ascii "7E0" from h)]
    rw [e, e, h1, h2]

/-- Two commands that print alike: name, size, decoder, ECU and speed are not shown. -/
example : ({ name := "A", desc := "x", command := ascii "010C", bytes := 4, decode := .drop } : OBDCommand).toStr =
    ({ name := "B", desc := "x", command := ascii "010C", bytes := 0, decode := .count, fast := true } : OBDCommand).toStr ∧
    ({ name := "A", desc := "x", command := ascii "010C", bytes := 4, decode := .drop } : OBDCommand).toStr ≠
    ({ name := "A", desc := "x", command := ascii "010D", bytes := 4, decode := .drop } : OBDCommand).toStr := by decide +kernel

end Props
