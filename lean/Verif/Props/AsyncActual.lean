import Mathlib.Data.List.Induction
import Verif.Lemmas.AsyncActual
import Verif.Props.Async
/-!
# C55, C56 and C57 also when `unwatch` gets a callback that is not subscribed

The subscriptions are then those of `Verif.Spec.AsyncActual`.
-/
namespace Props
open Py Model Spec AW

/-- What holds whatever is passed to `unwatch`: the subscriptions are those of the history, in which `unwatch(c, j)` removes `j` (and the
command with its last callback) if `j` is subscribed, and otherwise the command with all callbacks. Missing: impolite callbacks. -/
theorem C57_exact_partial (dev : Device) (fl : Str → Option PyFloat) (s : AW) (h : AReach dev fl politeCallback s) (c : OBDCommand) :
    subscribers s c = (subA c.key s.log).map (fun x => x.1) := by
  rw [(areach_histA h).view, subscribers_view (areach_polite h).complete]

/-- Likewise `query`. -/
theorem C55_exact_partial (dev : Device) (fl : Str → Option PyFloat) (s : AW) (h : AReach dev fl politeCallback s) :
    ∀ a c r b, s.log = a ++ .answer c r :: b →
      r = match subA c.key a with
        | some (_, latest) => latest
        | none => {} :=
  fun a _ _ b hl => (areach_histA h).good a _ b hl

/-- Likewise the callbacks: one is called only if it is the next one due, and the loop asks for the next command, stores a response or
sleeps only when none is due. -/
theorem C56_exact_partial (dev : Device) (fl : Str → Option PyFloat) (s : AW) (h : AReach dev fl politeCallback s) :
    (∀ a j r b, s.log = a ++ .fired j r :: b → ∃ later, dueA a = (j, r) :: later) ∧
    (∀ a c b, s.log = a ++ .queried c :: b → dueA a = []) ∧
    (∀ a c r b, s.log = a ++ .stored c r :: b → dueA a = []) ∧
    (∀ a b, s.log = a ++ .slept :: b → dueA a = []) := by
  refine ⟨?_, fun a _ b hl => (areach_histA h).good a _ b hl, fun a _ _ b hl => (areach_histA h).good a _ b hl,
    fun a b hl => (areach_histA h).good a _ b hl⟩
  intro a j r b hl
  have : (dueA a).head? = some (j, r) := (areach_histA h).good a _ b hl
  cases hd : dueA a with
  | nil => rw [hd] at this; cases this
  | cons x l => rw [hd] at this; simp at this; exact ⟨l, by rw [this]⟩

/-- If `unwatch` is only used with subscribed callbacks, these are the subscriptions of C55 to C57. -/
theorem subA_sane (k : CmdKey) (log : List Ev) (h : Sane log) : subA k log = sub k log := by
  induction log using List.reverseRecOn with
  | nil => rfl
  | append_singleton log e ih =>
    have h1 := ih (sane_left h)
    rw [sub_appendA, sub_append, h1]
    show Sub.nextA k (sub k log) e = Sub.next k (sub k log) e
    unfold Sub.nextA
    split
    · next c j =>
      simp only [Sub.next]
      by_cases hk : c.key = k
      · rw [if_pos hk, if_pos hk]
        cases hs : sub k log with
        | none => rfl
        | some x =>
          obtain ⟨l, r⟩ := x
          have hj : j ∈ l := h log c j [] rfl l r (by rw [hk]; exact hs)
          simp only [hj, true_and, if_true]
          by_cases he : l.erase j = [] <;> simp [he]
      · rw [if_neg hk, if_neg hk]
    · rfl

/-- Two callbacks are subscribed; `unwatch` with a third one drops them both; then one subscribes again and is called alone. -/
def misuse : List Action := watchTwo ++ (.call (.unwatch rpmCommand (some 9)) :: user 2) ++ watchRpm ++ startUp ++ loop 9

example : AReach (demo table) fl0 politeCallback (after misuse) ∧ subscribers (after misuse) rpmCommand = some [1] ∧
    (sub rpmCommand.key (after misuse).log).map (fun x => x.1) = some [1, 7] ∧ fires (after (misuse ++ [.cbEnd 0 true] ++ loop 4)).log = [1] :=
  ⟨after_polite (by decide) (by decide +kernel), by decide +kernel, by decide +kernel, by decide +kernel⟩

end Props
