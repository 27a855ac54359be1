import Verif.Lemmas.AsyncBound
import Verif.Props.Async
/-!
# C58: what every single call does to the loop, whatever is watched
-/
namespace Props
open Py Model Spec AW

/-- Any one call except `close()`, also those that remove subscriptions, made at any reachable point between two calls, on a connection
that is still alive afterwards: whether the loop runs then, and what `paused()` remembers, is what `switchedBy` says, where `watched` is
whether something is watched when the call is made. -/
theorem C58_call_partial (dev : Device) (fl : Str → Option PyFloat) (s s' : AW) (as : List Action) (op : AOp) (h : AReach dev fl politeCallback s)
    (hi : s.caller = .idle) (hr : ARun dev fl politeCallback s as s') (hcs : userCalls as = [op]) (hop : op ≠ .close)
    (hi' : s'.caller = .idle) (hg : ObdM.isConnected s'.obd = true) :
    (s'.running, s'.wasRunning) = switchedBy (decide (s.commands ≠ [])) (s.running, s.wasRunning) op := by
  have hg' : ¬ ObdM.Gone s'.obd := by simp [ObdM.Gone, hg]
  have := one_run h hi hr (by rw [hcs]; simp) (by rw [hcs]; simpa using fun e => hop e.symm) hg'
  rw [hcs] at this
  rcases this with ⟨h1, -⟩ | ⟨o, h1, ⟨-, h2⟩ | ⟨pc, h2, -⟩⟩
  · cases h1
  · cases h1; exact h2
  · rw [hi'] at h2; cases h2

/-- Any one call, also `close()`, and also if the connection is lost before, during or after it (so that the loop ends by itself), and
whether the call returns or raises: the loop does not run afterwards unless `switchedBy` says so, and `paused()` does not remember
a running loop unless `switchedBy` says so.  Missing: the other direction, which holds on a live connection only (above). -/
theorem C58_bound_partial (dev : Device) (fl : Str → Option PyFloat) (s s' : AW) (as : List Action) (op : AOp) (h : AReach dev fl politeCallback s)
    (hi : s.caller = .idle) (hr : ARun dev fl politeCallback s as s') (hcs : userCalls as = [op]) (hi' : s'.caller = .idle) :
    (s'.running = true → (switchedBy (decide (s.commands ≠ [])) (s.running, s.wasRunning) op).1 = true) ∧
    (s'.wasRunning = true → (switchedBy (decide (s.commands ≠ [])) (s.running, s.wasRunning) op).2 = true) := by
  have := bound_run h hi hr (by rw [hcs]; simp)
  rw [hcs] at this
  rcases this with ⟨h1, -⟩ | ⟨o, h1, ⟨-, h2⟩ | ⟨pc, h2, -⟩⟩
  · cases h1
  · cases h1; exact h2
  · rw [hi'] at h2; cases h2

/-- Inside a block of `paused()` everything is unwatched. -/
def unwatched : List Action := watchRpm ++ startUp ++ (.call .enter :: user 4) ++ loop 1 ++ user 2 ++ (.call .unwatchAll :: user 2)
/-- The end of the block. -/
def blockEnd : List Action := .call .exit :: user 3

/-- The demo car: the loop was running before the block, nothing is watched now, it is not started again. -/
example : ∃ s', AReach (demo table) fl0 politeCallback (after unwatched) ∧
    ((after unwatched).running, (after unwatched).wasRunning, (after unwatched).commands.length) = (false, true, 0) ∧
    ARun (demo table) fl0 politeCallback (after unwatched) blockEnd s' ∧ userCalls blockEnd = [.exit] ∧
    (s'.running, s'.wasRunning) = (false, true) ∧ ObdM.isConnected s'.obd = true := by
  have hp : (play (demo table) fl0 (after unwatched) blockEnd).isSome = true := by decide +kernel
  obtain ⟨s', hs⟩ := Option.isSome_iff_exists.mp hp
  have h2 : (play (demo table) fl0 (after unwatched) blockEnd).map (fun s => (s.running, s.wasRunning, ObdM.isConnected s.obd)) =
    some (false, true, true) := by decide +kernel
  rw [hs] at h2
  simp only [Option.map_some, Option.some.injEq, Prod.mk.injEq] at h2
  exact ⟨s', after_polite (by decide) (by decide +kernel), by decide +kernel, play_polite (by decide) hs, rfl, by rw [h2.1, h2.2.1], h2.2.2⟩

/-- Closing a running connection. -/
def closeIt : List Action := .call .close :: user 3 ++ loop 1 ++ user 3

/-- The demo car: the loop runs, the connection is closed, the loop does not run any more. -/
example : ∃ s', AReach (demo table) fl0 politeCallback (after (watchRpm ++ startUp)) ∧ (after (watchRpm ++ startUp)).running = true ∧
    ARun (demo table) fl0 politeCallback (after (watchRpm ++ startUp)) closeIt s' ∧ userCalls closeIt = [.close] ∧
    s'.running = false ∧ ObdM.isConnected s'.obd = false := by
  have hp : (play (demo table) fl0 (after (watchRpm ++ startUp)) closeIt).isSome = true := by decide +kernel
  obtain ⟨s', hs⟩ := Option.isSome_iff_exists.mp hp
  have h2 : (play (demo table) fl0 (after (watchRpm ++ startUp)) closeIt).map (fun s => (s.running, ObdM.isConnected s.obd,
    match s.caller with | .idle => true | _ => false)) = some (false, false, true) := by decide +kernel
  rw [hs] at h2
  simp only [Option.map_some, Option.some.injEq, Prod.mk.injEq] at h2
  exact ⟨s', after_polite (by decide) (by decide +kernel), by decide +kernel, play_polite (by decide) hs, rfl, h2.1, h2.2.1⟩

end Props
