import Verif.Lemmas.AsyncWhen
import Verif.Props.Async
/-!
# When `stop()` raises (C60)
-/
namespace Props
open Py Model Spec AW

/-- What holds of lost connections: `stop()` and `paused()` raise nothing but AttributeError, and only if the update loop ended by itself
between the call and the exception; whatever callbacks do. -/
theorem C60_raises_partial (dev : Device) (fl : Str → Option PyFloat) (s : AW) (h : AReach dev fl anyCallback s) (op : AOp)
    (hop : op = .stop ∨ op = .enter) (x : Exc) (pre post : List Ev) (hl : s.log = pre ++ .raised op x :: post) :
    x = .attributeError ∧ ∃ before mid, pre = before ++ .call op :: mid ∧ (∀ o, .call o ∉ mid) ∧ .ended .returned ∈ mid := by
  obtain ⟨h1, before, mid, h2, h3, h4⟩ := raises_when h op x pre post hop hl
  refine ⟨h1, before, mid, h2, fun o ho => ?_, h4⟩
  have := h3 _ ho; cases this

/-- A run in which `stop()` raises. -/
example : ∃ s, AReach unpluggedLater fl0 anyCallback s ∧ ∃ x pre post, s.log = pre ++ .raised .stop x :: post := by
  have hp : (play unpluggedLater fl0 laterAsync stopRace).isSome = true := by decide +kernel
  obtain ⟨s', hs⟩ := Option.isSome_iff_exists.mp hp
  have h2 : (play unpluggedLater fl0 laterAsync stopRace).map (fun s => s.log.any isRaisedStop) = some true := by decide +kernel
  rw [hs] at h2
  refine ⟨s', arun_reach (.init _ _ later_constructed) (play_any hs), ?_⟩
  have hm : Ev.raised .stop .attributeError ∈ s'.log := mem_of_any (p := isRaisedStop) (by
    intro x hx; unfold isRaisedStop at hx; split at hx
    · rfl
    · cases hx) (by simpa using h2)
  obtain ⟨pre, post, h3⟩ := List.append_of_mem hm
  exact ⟨_, pre, post, h3⟩

end Props
