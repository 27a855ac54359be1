import Verif.Props.Reading
import Verif.Props.Query
/-!
# C44: `low_power()` does not wait for a prompt
-/
namespace Props
open Py Model Spec ObdM

/-- C44: an adapter that goes asleep does not print a prompt. `low_power()` on a connected object writes `ATLP` once and
returns with the first chunk of the reply that completes an `OK`, whatever would come afterwards: it does not wait for more,
the lines are those of what it read, and the connection is kept. -/
theorem C44_no_prompt (dev : Device) (fl : Str → Option PyFloat) (s : OW) (hs : Reachable dev fl s) (hst : status s ≠ .notConnected)
    (hw : dev.write s.hist (line (ascii "ATLP")) = true) 
    (cs : List Bytes) (rest : List (Option Bytes)) (hne : ∀ c ∈ cs, c ≠ []) (hb : ¬ ascii "OK" <:+: cs.dropLast.flatten)
    (hcs : ascii "OK" <:+: cs.flatten)
    (hr : dev.read (s.hist ++ [.write (line (ascii "ATLP")) true]) = cs.map some ++ rest) :
    ∃ lines s', lowPower dev s = (.ok (some lines), s') ∧ LinesOf cs.flatten lines ∧ status s' = status s ∧
      s'.hist = s.hist ++ [.write (line (ascii "ATLP")) true, .read (some cs.flatten)] := by
  obtain ⟨e, o, hl⟩ := live_of_sound (reachable_sound hs) hst
  obtain ⟨p, hport⟩ := Option.ne_none_iff_exists'.1 hl.port
  have hm : elmLpActive = ascii "OK" := rfl
  have hnil : cs ≠ [] := by rintro rfl; exact absurd (List.infix_nil.1 hcs) (by decide)
  have hloop : readLoop elmLpActive [] (cs.map some ++ rest) = some cs.flatten := by
    have := readLoop_chunks elmLpActive [] cs rest hne ?_ ?_ hnil
    · simpa using this
    · intro k hk
      left
      rw [← Bool.not_eq_true, isIn_iff, hm, List.nil_append]
      intro hi
      apply hb
      have h1 : cs.take k <+: cs.dropLast :=
        List.prefix_of_prefix_length_le (List.take_prefix _ _) (List.dropLast_prefix _) (by simp; omega)
      obtain ⟨t, ht⟩ := h1
      rw [← ht, List.flatten_append]
      exact hi.trans (List.prefix_append _ _).isInfix
    · rw [isIn_iff, hm, List.nil_append]; exact hcs
  have hsend : ElmM.send dev (ascii "ATLP") true elmLpActive ⟨e, s.hist⟩ =
      (.ok (cleanLines cs.flatten), ⟨e, s.hist ++ [.write (line (ascii "ATLP")) true, .read (some cs.flatten)]⟩) := by
    unfold ElmM.send
    rw [PyM.lift_apply]
    have hw' : dev.write s.hist (ascii "ATLP" ++ [0x0D]) = true := hw
    have hr' : dev.read (s.hist ++ [.write (ascii "ATLP" ++ [0x0D]) true]) = cs.map some ++ rest := hr
    have e1 : EW.write dev (ascii "ATLP") ⟨e, s.hist⟩ = ⟨e, s.hist ++ [.write (line (ascii "ATLP")) true]⟩ := by
      unfold EW.write
      simp only [hport, hw', if_true]
      rfl
    have e2 : EW.read dev elmLpActive ⟨e, s.hist ++ [.write (line (ascii "ATLP")) true]⟩ =
        (cleanLines cs.flatten, ⟨e, s.hist ++ [.write (line (ascii "ATLP")) true, .read (some cs.flatten)]⟩) := by
      unfold EW.read
      simp only [hport, hr, hloop]
      simp
    unfold EW.send
    rw [e1, e2]
    simp [EW.retry]
  refine ⟨cleanLines cs.flatten, (lowPower dev s).2, ?_, cleanLines_spec _, ?_, ?_⟩
  all_goals
    unfold lowPower
    rw [PyM.bind_ok (show PyM.get s = (.ok s, s) from rfl), hl.iface]
    simp only [onInterface, hl.iface]
    unfold ElmM.lowPower
    rw [PyM.bind_ok (show ElmM.getElm _ = (.ok e, _) from rfl), if_neg hl.status, PyM.bind_ok hsend]
    split
  all_goals first | rfl | (simp only [status, hl.iface]; rfl)

/-- The demo car: `OK` comes in the first chunk. -/
example : Reachable (demo table) fl0 (demoObd true) ∧ status (demoObd true) ≠ .notConnected ∧
    ∃ lines s', lowPower (demo table) (demoObd true) = (.ok (some lines), s') ∧ LinesOf (ascii "OK\r\r>") lines := by
  have hr : Reachable (demo table) fl0 (demoObd true) := ⟨_, _, [], demoObd_constructed true, rfl⟩
  have hs : status (demoObd true) ≠ .notConnected := by decide +kernel
  obtain ⟨lines, s', h1, h2, -⟩ := C44_no_prompt (demo table) fl0 (demoObd true) hr hs rfl [ascii "OK\r\r>"] []
    (by decide) (by decide) ⟨[], ascii "\r\r>", by decide⟩ (by
      show [some (reply table "?" (lastWrite ((demoObd true).hist ++ [.write (line (ascii "ATLP")) true])))] = _
      have : lastWrite ((demoObd true).hist ++ [.write (line (ascii "ATLP")) true]) = line (ascii "ATLP") := by simp [lastWrite]
      rw [this]
      decide +kernel)
  exact ⟨hr, hs, lines, s', h1, by simpa using h2⟩

end Props
