import Verif.Lemmas.Acked
import Verif.Props.Query
/-!
# Headers (C49)
-/
namespace Props
open Py Model Spec ObdM

/-- The property in full: whenever a query writes the command (anything but a wake-up or a
change of the header), the last header acknowledged by the adapter is that of the command. -/
def C49_full : Prop :=
  ∀ (dev : Device) (fl : Str → Option PyFloat) (a : Args) (s0 : OW), Constructed dev fl a s0 →
  ∀ (calls : List Call), (∀ c ∈ calls, OrdinaryCall c) → ∀ (c : OBDCommand) (force : Bool), OrdinaryCall (.query c force) →
  ∀ s, s = session dev fl calls s0 → ∀ evs, (query dev fl c force s).2.hist = s.hist ++ evs →
  ∀ e1 b ok e2, evs = e1 ++ .write b ok :: e2 → b ≠ line (ascii " ") → ¬ SetsHeader b →
    LastAcked (s.hist ++ e1) c.header

/-- It does not hold if the adapter does not accept the header: the command is sent all the
same, to the ECU addressed before. -/
theorem C49_refuted : ¬ C49_full := by
  intro h
  have hcon : Constructed (demo (table.filter (fun e => e.1 != "AT SH 7E1 "))) fl0 { ports := ["COM1".toList] }
      (ObdM.construct (demo (table.filter (fun e => e.1 != "AT SH 7E1 "))) fl0 ["COM1".toList] none true {}).2 := by
    have : (ObdM.construct (demo (table.filter (fun e => e.1 != "AT SH 7E1 "))) fl0 ["COM1".toList] none true {}).1 = .ok () := by decide +kernel
    unfold Constructed
    show ObdM.construct (demo (table.filter (fun e => e.1 != "AT SH 7E1 "))) fl0 ["COM1".toList] none true {} = _
    rw [← this]
  have h := h _ fl0 _ _ hcon [] (by simp) { rpmCommand with header := ascii "7E1" } true
    (by constructor
        · rintro ⟨t, ht⟩; simp [rpmCommand, ascii] at ht
        · decide) _ rfl
    [.write (ascii "AT SH 7E1 \r") true, .read (some (ascii "?\r\r>")), .write (ascii "010C\r") true, .read (some (ascii "7E8 04 41 0C 1A F8\r\r>"))]
    (by decide +kernel) [.write (ascii "AT SH 7E1 \r") true, .read (some (ascii "?\r\r>"))] (ascii "010C\r") true _ rfl (by decide)
    (by rintro ⟨x, hx⟩; simp [line, headerLine, ascii] at hx)
  rcases h with ⟨h, -⟩ | ⟨pre, bs, b, post, h1, h2, h3, -⟩
  · exact absurd h (by decide)
  · have := repliedB_of (by simp) (⟨pre, bs, b, post, h1, h3, h2⟩ : Replied _ (headerLine (ascii "7E1")) ["OK".toList])
    exact absurd this (by decide +kernel)

/-- It holds as long as the adapter answers every change of the header with `OK` (then also
across wake-ups, lost connections, and replies that make the parser raise). -/
theorem C49_partial (dev : Device) (fl : Str → Option PyFloat) (a : Args) (s0 : OW) (hc : Constructed dev fl a s0)
    (calls : List Call) (hcs : ∀ c ∈ calls, OrdinaryCall c) (c : OBDCommand) (force : Bool) (hcc : OrdinaryCall (.query c force))
    (s : OW) (hs : s = session dev fl calls s0) :
    ∃ evs, (query dev fl c force s).2.hist = s.hist ++ evs ∧
      ∀ e1 b ok e2, evs = e1 ++ .write b ok :: e2 → b ≠ line (ascii " ") → ¬ SetsHeader b →
        Obedient (s.hist ++ e1) → LastAcked (s.hist ++ e1) c.header := by
  obtain ⟨h1, h2⟩ := constructed_header hc
  have h3 := header_session dev fl calls hcs s0 h1 h2
  have h4 := osound_session dev fl calls s0 h1
  rw [← hs] at h3 h4
  exact (header_query h4 hcc.1 h3).2

/-- The demo car, asked under two headers. -/
example : OrdinaryCall (.query { rpmCommand with header := ascii "7E1" } true) ∧
    Obedient (session (demo table) fl0 [.query { rpmCommand with header := ascii "7E1" } true, .query rpmCommand true] (demoObd true)).hist ∧
    sent ((session (demo table) fl0 [.query { rpmCommand with header := ascii "7E1" } true, .query rpmCommand true] (demoObd true)).hist.drop
      (demoObd true).hist.length) = [line (ascii "AT SH 7E1 "), line (ascii "010C"), line (ascii "AT SH 7E0 "), line []] := by
  refine ⟨⟨?_, by decide⟩, obedient_of (by decide +kernel), by decide +kernel⟩
  rintro ⟨t, ht⟩; simp [rpmCommand, ascii] at ht

end Props
