import Verif.Lemmas.InForce
import Verif.Props.Header
/-!
# C49 whatever the adapter answers to a change of the header
-/
namespace Props
open Py Model Spec ObdM

/-- What holds on every adapter: when a query writes the command, the header in force is that of the command, or this very query has
asked for that header and the reply was not just `OK`. So a refused header is asked for again by each query that needs it, and
a refusal leaves the header in force before to the commands that belong to it. -/
theorem C49_any_partial (dev : Device) (fl : Str → Option PyFloat) (a : Args) (s0 : OW) (hc : Constructed dev fl a s0)
    (calls : List Call) (hcs : ∀ c ∈ calls, OrdinaryCall c) (c : OBDCommand) (force : Bool) (hcc : OrdinaryCall (.query c force))
    (s : OW) (hs : s = session dev fl calls s0) :
    ∃ evs, (query dev fl c force s).2.hist = s.hist ++ evs ∧
      ∀ e1 b ok e2, evs = e1 ++ .write b ok :: e2 → b ≠ line (ascii " ") → ¬ SetsHeader b →
        InForce (s.hist ++ e1) c.header ∨ Refused e1 c.header := by
  obtain ⟨h1, h2⟩ := constructed_headerX hc
  have h3 := headerX_session dev fl calls hcs s0 h1 h2
  have h4 := osound_session dev fl calls s0 h1
  rw [← hs] at h3 h4
  exact (headerX_query h4 hcc.1 h3).2

/-- The commands of three ECUs; the demo car does not know the header of the third. -/
def threeEcus (h : String) : Call := .query { rpmCommand with header := ascii h } true

/-- 7E1 is accepted, 7E2 refused (and asked for each time), and 7E1 is still in force. -/
example : sent ((session (demo table) fl0 [threeEcus "7E1", threeEcus "7E2", threeEcus "7E2", threeEcus "7E1"] (demoObd true)).hist.drop (demoObd true).hist.length) =
    [line (ascii "AT SH 7E1 "), line (ascii "010C"), line (ascii "AT SH 7E2 "), line [], line (ascii "AT SH 7E2 "), line (ascii "010C1"), line []] := by
  decide +kernel

example (h : String) : OrdinaryCall (threeEcus h) := by
  refine ⟨?_, show rpmCommand.command ≠ ascii " " by decide⟩
  rintro ⟨t, ht⟩; simp [rpmCommand, ascii] at ht

end Props
