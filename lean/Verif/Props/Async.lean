import Verif.Lemmas.AsyncKnown
import Verif.Lemmas.AsyncSource
import Verif.Props.Query
import Verif.Lemmas.AsyncControl
/-!
# The asynchronous connection (C54–C60)
-/
namespace Props
open Py Model Spec AW

/-! ## schedules used in the examples -/

/-- The user's thread, `n` steps. -/
def user (n : Nat) : List Action := List.replicate n .caller
/-- The first update thread, `n` steps. -/
def loop (n : Nat) : List Action := List.replicate n (.daemon 0)

/-- A second command. -/
def pidsCommand : OBDCommand := { name := "PIDS_A", desc := "", command := ascii "0100", bytes := 6, decode := .pid, ecu := 2, fast := false }

def watchRpm : List Action := .call (.watch rpmCommand (some 1) true) :: user 2
def watchPids : List Action := .call (.watch pidsCommand none true) :: user 2
def startUp : List Action := .call .start :: user 6
/-- From the first test of the loop into the first callback. -/
def intoCallback : List Action := loop 9
/-- `stop()` up to `join()`. -/
def stopJoin : List Action := .call .stop :: user 3

/-- The demo car with an asynchronous connection. -/
def demoAsync : AW := { obd := demoObd true }

theorem demoAsync_reach (ok : AW → Action → Prop) : AReach (demo table) fl0 ok demoAsync := .init _ _ (demoObd_constructed true)

/-- The state after a schedule of the demo car; the start state if the schedule is not possible. -/
def after (as : List Action) : AW := (play (demo table) fl0 demoAsync as).getD demoAsync

theorem after_play {as : List Action} (h : (play (demo table) fl0 demoAsync as).isSome = true) : play (demo table) fl0 demoAsync as = some (after as) := by
  unfold after
  cases hp : play (demo table) fl0 demoAsync as with
  | none => rw [hp] at h; cases h
  | some s => rfl

theorem after_any {as : List Action} (h : (play (demo table) fl0 demoAsync as).isSome = true) : AReach (demo table) fl0 anyCallback (after as) :=
  arun_reach (demoAsync_reach _) (play_any (after_play h))

theorem after_polite {as : List Action} (hn : noCb as = true) (h : (play (demo table) fl0 demoAsync as).isSome = true) :
    AReach (demo table) fl0 politeCallback (after as) :=
  arun_reach (demoAsync_reach _) (play_polite hn (after_play h))

/-! ## C54 -/

/-- While the loop is running nothing that anybody does changes a subscription. -/
theorem C54_frozen (dev : Device) (fl : Str → Option PyFloat) (s s' : AW) (a : Action) (h : AReach dev fl anyCallback s) (hr : s.running = true)
    (hs : s.step dev fl a = some s') : ∀ c, subscribers s' c = subscribers s c := by
  suffices hk : Dict.keys s'.commands = Dict.keys s.commands ∧ s'.cbl = s.cbl by
    intro c
    unfold subscribers
    have : s'.commands.mem c.key = s.commands.mem c.key := by
      rw [Bool.eq_iff_iff, Dict.mem_iff, Dict.mem_iff, hk.1]
    rw [this, callbacks_cbl hk.2]
  have hI := areach_inv h
  have hA := areach_any h
  have hh := hs
  unfold step at hs
  cases a with
  | call op =>
    simp only at hs
    cases hc : s.caller with
    | busy o p => rw [hc] at hs; cases hs
    | idle => rw [hc] at hs; cases hs; exact ⟨rfl, rfl⟩
  | caller =>
    simp only at hs
    cases hc : s.caller with
    | idle => rw [hc] at hs; cases hs
    | busy o p =>
      rw [hc] at hs
      rcases callerStep_data hs with ⟨h1, h2, -⟩ | ⟨rfl, -⟩
      · rw [h1, h2]; exact ⟨rfl, rfl⟩
      · have := hA.modify o hc
        rw [hr] at this; cases this
  | daemon t =>
    simp only at hs
    cases hq : s.threads[t]? with
    | none => rw [hq] at hs; cases hs
    | some pc =>
      rw [hq] at hs
      obtain ⟨pc', -, -, -, h4, h5, -⟩ := daemonStep_ok hA.tables (hA.frozen hr t pc hq) hs
      exact ⟨h4, h5⟩
  | cb t op =>
    simp only at hs
    split at hs
    · next it r rest hq =>
      rcases cbCall_data hs with ⟨h1, h2, -⟩ | ⟨h1, -⟩
      · rw [h1, h2]; exact ⟨rfl, rfl⟩
      · rw [hr] at h1; cases h1
    · cases hs
  | cbEnd t ok =>
    simp only at hs
    split at hs
    · split at hs <;> cases hs <;> exact ⟨rfl, rfl⟩
    · cases hs
  | reorder t rest =>
    obtain ⟨it, it', h1, -, -, rfl, -⟩ := reorder_eq hh
    exact ⟨rfl, rfl⟩

/-- The full statement: the loop never ends because the subscriptions changed under it. -/
def C54_full : Prop := ∀ (dev : Device) (fl : Str → Option PyFloat) (s : AW), AReach dev fl anyCallback s →
  .ended .listChanged ∉ s.log ∧ .ended .missing ∉ s.log

def isListChanged : Ev → Bool
  | .ended .listChanged => true
  | _ => false

theorem mem_of_any {l : List Ev} {p : Ev → Bool} {e : Ev} (hp : ∀ x, p x = true → x = e) (h : l.any p = true) : e ∈ l := by
  obtain ⟨x, hx, h2⟩ := List.any_eq_true.mp h
  rw [← hp x h2]; exact hx

/-- `stop()` is waiting while a callback unwatches its command: the loop dies with RuntimeError. -/
def unwatchInCallback : List Action := watchRpm ++ startUp ++ intoCallback ++ stopJoin ++ [.cb 0 (.unwatch rpmCommand none), .cbEnd 0 true] ++ loop 2

theorem C54_refuted : ¬ C54_full := by
  intro h
  have h1 : (play (demo table) fl0 demoAsync unwatchInCallback).isSome = true := by decide +kernel
  refine (h _ _ _ (after_any h1)).1 (mem_of_any (p := isListChanged) ?_ ?_)
  · intro x hx; unfold isListChanged at hx; split at hx
    · rfl
    · cases hx
  · decide +kernel

/-- What holds: if callbacks do not change subscriptions once the loop was told to stop (and do
not stop it themselves), the loop never fails that way.  Missing: other callbacks. -/
theorem C54_partial (dev : Device) (fl : Str → Option PyFloat) (s : AW) (h : AReach dev fl politeCallback s) :
    .ended .listChanged ∉ s.log ∧ .ended .missing ∉ s.log := (areach_polite h).fine

/-- The demo car in a callback, running: the hypotheses of both theorems. -/
example : AReach (demo table) fl0 politeCallback (after (watchRpm ++ watchPids ++ startUp ++ intoCallback)) ∧
    (after (watchRpm ++ watchPids ++ startUp ++ intoCallback)).running = true ∧
    ((after (watchRpm ++ watchPids ++ startUp ++ intoCallback)).step (demo table) fl0 (.cb 0 (.unwatch rpmCommand none))).isSome = true ∧
    subscribers (after (watchRpm ++ watchPids ++ startUp ++ intoCallback)) rpmCommand = some [1] := by
  refine ⟨after_polite (by decide) (by decide +kernel), by decide +kernel, by decide +kernel, by decide +kernel⟩

/-! ## C55 -/

/-- The full statement: `query` returns the latest response of a watched command. -/
def C55_full : Prop := ∀ (dev : Device) (fl : Str → Option PyFloat) (s : AW), AReach dev fl anyCallback s →
  ∀ a c r b, s.log = a ++ .answer c r :: b → Sane a →
    r = match sub c.key a with
      | some (_, latest) => latest
      | none => {}

/-- A callback calls `unwatch_all()` while `stop()` waits: the loop stores one more response,
for a command that is no longer watched. -/
def unwatchAllInCallback : List Action := watchRpm ++ watchPids ++ startUp ++ intoCallback ++ stopJoin ++ [.cb 0 .unwatchAll, .cbEnd 0 true] ++ loop 6 ++
  user 2 ++ (.call (.query pidsCommand) :: user 1)

def isUnwatch : Ev → Bool
  | .did (.unwatch _ (some _)) => true
  | _ => false

theorem sane_of {l : List Ev} (h : l.all (fun e => !isUnwatch e) = true) : Sane l := by
  intro a c j b hl
  rw [hl] at h
  simp [isUnwatch] at h

theorem C55_refuted : ¬ C55_full := by
  intro h
  have h1 : (play (demo table) fl0 demoAsync unwatchAllInCallback).isSome = true := by decide +kernel
  have hR := after_any h1
  -- the last events: the answer and the return
  have h3 : (match (after unwatchAllInCallback).log.drop 19 with
      | [.answer c r, .ret _] => decide (c.key = pidsCommand.key) && !r.isNull
      | _ => false) = true := by decide +kernel
  split at h3
  · next c r op hd =>
    simp only [Bool.and_eq_true, decide_eq_true_eq] at h3
    have hl : (after unwatchAllInCallback).log = (after unwatchAllInCallback).log.take 19 ++ .answer c r :: [.ret op] := by
      rw [← hd]; exact (List.take_append_drop 19 _).symm
    have := h _ _ _ hR _ c r _ hl (sane_of (by decide +kernel))
    rw [h3.1] at this
    have h4 : (sub pidsCommand.key ((after unwatchAllInCallback).log.take 19)).isNone = true := by decide +kernel
    rw [Option.isNone_iff_eq_none.mp h4] at this
    rw [this] at h3
    exact absurd h3.2 (by decide)
  · cases h3

/-- What holds: so it is if callbacks are polite.  Missing: callbacks that change the
subscriptions after the loop was told to stop, and (C57) `unwatch` of a callback that was not
subscribed. -/
theorem C55_partial (dev : Device) (fl : Str → Option PyFloat) (s : AW) (h : AReach dev fl politeCallback s) :
    ∀ a c r b, s.log = a ++ .answer c r :: b → Sane a →
      r = match sub c.key a with
        | some (_, latest) => latest
        | none => {} :=
  fun a c r b hl hs => (areach_hist h).good a _ b hl hs

/-- What holds for all callbacks and all histories: `query` returns a null response or one that the loop stored
before, for the same command, as the result of a query of the adapter.  Missing: that it is the latest. -/
theorem C55_any_partial (dev : Device) (fl : Str → Option PyFloat) (s : AW) (h : AReach dev fl anyCallback s) :
    ∀ a c r b, s.log = a ++ .answer c r :: b →
      r = {} ∨ ∃ c', c'.key = c.key ∧ .stored c' r ∈ a ∧
        ∃ s0, AReach dev fl anyCallback s0 ∧ (ObdM.query dev fl c' true s0.obd).1 = .ok r := by
  intro a c r b hl
  rcases (areach_known h).answers a c r b hl with h1 | ⟨c', h1, h2⟩
  · exact Or.inl h1
  · exact Or.inr ⟨c', h1, h2, (areach_source h).log c' r (by rw [hl]; simp [h2])⟩

/-- In the run of `C55_refuted`, too, the answer was stored by the loop. -/
example : ∃ c' r, .stored c' r ∈ (after unwatchAllInCallback).log ∧ c'.key = pidsCommand.key ∧ r.isNull = false := by
  have h3 : (match (after unwatchAllInCallback).log.filter (fun e => match e with | .stored c _ => decide (c.key = pidsCommand.key) | _ => false) with
      | .stored c r :: _ => decide (c.key = pidsCommand.key) && !r.isNull
      | _ => false) = true := by decide +kernel
  split at h3
  · next c r l hd =>
    simp only [Bool.and_eq_true, decide_eq_true_eq, Bool.not_eq_true'] at h3
    refine ⟨c, r, ?_, h3.1, h3.2⟩
    have hm : Ev.stored c r ∈ (after unwatchAllInCallback).log.filter (fun e => match e with | .stored c _ => decide (c.key = pidsCommand.key) | _ => false) := by
      rw [hd]; simp
    exact List.mem_of_mem_filter hm
  · cases h3

/-- `query` only looks: two steps of the user's thread, nothing else changes, nothing is sent. -/
theorem C55_query_local (dev : Device) (fl : Str → Option PyFloat) (s s1 s2 : AW) (c : OBDCommand) (h1 : s.step dev fl (.call (.query c)) = some s1)
    (h2 : s1.step dev fl .caller = some s2) :
    s2.obd = s.obd ∧ s2.commands = s.commands ∧ s2.callbacks = s.callbacks ∧ s2.threads = s.threads ∧ s2.running = s.running ∧ s2.caller = .idle ∧
    ∃ r, s2.log = s.log ++ [.call (.query c), .answer c r, .ret (.query c)] := by
  unfold step at h1
  simp only at h1
  cases hc : s.caller with
  | busy o p => rw [hc] at h1; cases h1
  | idle =>
    rw [hc] at h1; cases h1
    cases h2
    exact ⟨rfl, rfl, rfl, rfl, rfl, rfl, _, by simp [emit, ret, goto, List.append_assoc]; rfl⟩

/-- Every response that the loop stores is the result of a query for that command. -/
theorem C55_source (dev : Device) (fl : Str → Option PyFloat) (s : AW) (h : AReach dev fl anyCallback s) :
    ∀ c r, .stored c r ∈ s.log → ∃ s0, AReach dev fl anyCallback s0 ∧ (ObdM.query dev fl c true s0.obd).1 = .ok r :=
  (areach_source h).log

/-- The demo car: the response stored by the loop is the answer of a later `query`. -/
example : ∃ a c r b, (after (watchRpm ++ startUp ++ loop 8 ++ (.call (.query rpmCommand) :: user 1))).log = a ++ .answer c r :: b ∧ Sane a ∧ r.isNull = false ∧
    c.key = rpmCommand.key ∧ (sub c.key a).isSome = true := by
  have h3 : (match (after (watchRpm ++ startUp ++ loop 8 ++ (.call (.query rpmCommand) :: user 1))).log.drop 9 with
      | [.answer c r, .ret _] => decide (c.key = rpmCommand.key) && !r.isNull
      | _ => false) = true := by decide +kernel
  split at h3
  · next c r op hd =>
    simp only [Bool.and_eq_true, decide_eq_true_eq, Bool.not_eq_true'] at h3
    refine ⟨(after (watchRpm ++ startUp ++ loop 8 ++ (.call (.query rpmCommand) :: user 1))).log.take 9, c, r, [.ret op], ?_, sane_of (by decide +kernel), h3.2, h3.1, ?_⟩
    · rw [← hd]; exact (List.take_append_drop 9 _).symm
    · rw [h3.1]; decide +kernel
  · cases h3

/-! ## C56 -/

/-- The full statement: whatever callbacks do, the loop sleeps only when every callback that was due has been called. -/
def C56_full : Prop := ∀ (dev : Device) (fl : Str → Option PyFloat) (s : AW), AReach dev fl anyCallback s →
  ∀ a b, s.log = a ++ .slept :: b → Sane a → due a = []

/-- Two callbacks for the engine speed. -/
def watchTwo : List Action := watchRpm ++ watchRpm ++ (.call (.watch rpmCommand (some 7) true) :: user 2)

/-- While the user is in `stop()`, the first of two callbacks unsubscribes itself: the list that the loop walks through shrinks under it, and the
second callback is never called. -/
def skipSecond : List Action := watchTwo ++ startUp ++ intoCallback ++ stopJoin ++ [.cb 0 (.unwatch rpmCommand (some 1)), .cbEnd 0 true] ++ loop 2

/-- A check of `Sane` for the events `l` after `pre`. -/
def saneCheck (pre : List Ev) : List Ev → Bool
  | [] => true
  | e :: l => (match e with
    | .did (.unwatch c (some j)) => (match sub c.key pre with
      | some (x, _) => decide (j ∈ x)
      | none => true)
    | _ => true) && saneCheck (pre ++ [e]) l

theorem sane_check : ∀ {l pre : List Ev}, Sane pre → saneCheck pre l = true → Sane (pre ++ l)
  | [], pre, h, _ => by simpa using h
  | e :: l, pre, h, hc => by
    simp only [saneCheck, Bool.and_eq_true] at hc
    have hs : Sane (pre ++ [e]) := by
      intro a c j b hl x r hx
      rcases append_cons_split hl.symm with ⟨b', -, h3⟩ | ⟨a', rfl, h3⟩
      · exact h a c j b' h3 x r hx
      · cases a' with
        | nil =>
          simp only [List.nil_append, List.cons.injEq] at h3
          obtain ⟨rfl, -⟩ := h3
          rw [List.append_nil] at hx
          have := hc.1
          simp only [hx, decide_eq_true_eq] at this
          exact this
        | cons y a' => simp at h3
    have := sane_check hs hc.2
    simpa using this

theorem C56_refuted : ¬ C56_full := by
  intro h
  have h1 : (play (demo table) fl0 demoAsync skipSecond).isSome = true := by decide +kernel
  have h2 : (match (after skipSecond).log.reverse with
      | .slept :: _ => true
      | _ => false) = true := by decide +kernel
  have h3 : (due ((after skipSecond).log.reverse.tail.reverse)).length = 1 := by decide +kernel
  split at h2
  · next l hl =>
    rw [hl] at h3
    have h4 := h _ _ _ (after_any h1) l.reverse [] (by rw [← List.reverse_reverse (after skipSecond).log, hl]; simp)
      (by have : l = (after skipSecond).log.reverse.tail := by rw [hl]; rfl
          rw [this, ← List.nil_append (List.reverse _)]; exact sane_check (by intro a c j b hl; simp at hl) (by decide +kernel))
    rw [List.tail_cons, h4] at h3
    cases h3
  · cases h2

/-- What holds for callbacks that do not change subscriptions once the loop was told to stop: a callback is called only if it is the next one due.
Missing: other callbacks. -/
theorem C56_fired_partial (dev : Device) (fl : Str → Option PyFloat) (s : AW) (h : AReach dev fl politeCallback s) :
    ∀ a j r b, s.log = a ++ .fired j r :: b → Sane a → ∃ later, due a = (j, r) :: later := by
  intro a j r b hl hs
  have := (areach_hist h).good a _ b hl hs
  cases hd : due a with
  | nil => rw [hd] at this; cases this
  | cons x l => rw [hd] at this; simp at this; exact ⟨l, by rw [this]⟩

/-- For the same callbacks: the loop asks for the next command, stores a response, or sleeps only when no callback is due any more. -/
theorem C56_all_partial (dev : Device) (fl : Str → Option PyFloat) (s : AW) (h : AReach dev fl politeCallback s) :
    (∀ a c b, s.log = a ++ .queried c :: b → Sane a → due a = []) ∧
    (∀ a c r b, s.log = a ++ .stored c r :: b → Sane a → due a = []) ∧
    (∀ a b, s.log = a ++ .slept :: b → Sane a → due a = []) :=
  ⟨fun a _ b hl hs => (areach_hist h).good a _ b hl hs, fun a _ _ b hl hs => (areach_hist h).good a _ b hl hs,
   fun a b hl hs => (areach_hist h).good a _ b hl hs⟩

/-- No callback is subscribed twice for a command. -/
theorem C56_once (dev : Device) (fl : Str → Option PyFloat) (s : AW) (h : AReach dev fl anyCallback s) (c : OBDCommand) (l : List Nat)
    (hl : subscribers s c = some l) : l.Nodup := by
  unfold subscribers at hl
  split at hl
  · exact (areach_any h).tables.once _ _ hl
  · cases hl

def fires : List Ev → List Nat
  | [] => []
  | .fired j _ :: l => j :: fires l
  | _ :: l => fires l

/-- The demo car: the first of two callbacks has been called, the second is due, then called, and the loop sleeps. -/
example : subscribers (after watchTwo) rpmCommand = some [1, 7] ∧
    (due (after (watchTwo ++ startUp ++ loop 9)).log).map (fun e => e.1) = [7] ∧
    fires (after (watchTwo ++ startUp ++ loop 9 ++ [.cbEnd 0 true] ++ loop 1 ++ [.cbEnd 0 true] ++ loop 2)).log = [1, 7] ∧
    AReach (demo table) fl0 politeCallback (after (watchTwo ++ startUp ++ loop 9 ++ [.cbEnd 0 true] ++ loop 1 ++ [.cbEnd 0 true] ++ loop 2)) :=
  ⟨by decide +kernel, by decide +kernel, by decide +kernel, after_polite (by decide) (by decide +kernel)⟩

/-! ## C57 -/

/-- The full statement: `unwatch(c, j)` leaves every other callback subscribed. -/
def C57_full : Prop := ∀ (dev : Device) (fl : Str → Option PyFloat) (s s' : AW) (c : OBDCommand) (j : Nat), AReach dev fl anyCallback s →
  ARun dev fl anyCallback s [.call (.unwatch c (some j)), .caller, .caller] s' →
  ∀ k l, k ≠ j → subscribers s c = some l → k ∈ l → ∃ l', subscribers s' c = some l' ∧ k ∈ l'

/-- `unwatch(RPM, 9)` with a callback that was never subscribed drops the command with all
its callbacks. -/
theorem C57_refuted : ¬ C57_full := by
  intro h
  have hR : AReach (demo table) fl0 anyCallback (after watchRpm) := after_any (by decide +kernel)
  have hp : (play (demo table) fl0 (after watchRpm) [.call (.unwatch rpmCommand (some 9)), .caller, .caller]).isSome = true := by decide +kernel
  obtain ⟨s', hs⟩ := Option.isSome_iff_exists.mp hp
  obtain ⟨l', h1, -⟩ := h _ _ _ s' rpmCommand 9 hR (play_any hs) 1 [1] (by decide) (by decide +kernel) (by decide)
  have h2 : ((play (demo table) fl0 (after watchRpm) [.call (.unwatch rpmCommand (some 9)), .caller, .caller]).map (fun s => subscribers s rpmCommand)) = some none := by
    decide +kernel
  rw [hs] at h2
  simp only [Option.map_some, Option.some.injEq] at h2
  rw [h1] at h2; cases h2

theorem subscribers_view {s : AW} (hC : Complete s) (c : OBDCommand) : subscribers s c = (s.view c.key).map (fun x => x.1) := by
  unfold subscribers view
  by_cases hm : s.commands.mem c.key = true
  · rw [if_pos hm]
    have hk := (Dict.mem_iff _ _).mp hm
    obtain ⟨⟨c', r⟩, h1⟩ := Option.isSome_iff_exists.mp ((Dict.get?_isSome_iff _ _).mpr hk)
    obtain ⟨l, h2⟩ := Option.isSome_iff_exists.mp ((Dict.get?_isSome_iff _ _).mpr (hC _ hk))
    rw [h1, h2]; rfl
  · rw [if_neg hm]
    have hk : c.key ∉ Dict.keys s.commands := fun h => hm ((Dict.mem_iff _ _).mpr h)
    rw [(Dict.get?_eq_none_iff _ _).mpr hk]; rfl

/-- What holds: the subscriptions are those of the history, in which `unwatch(c, j)` removes
`j` alone (and the command with its last callback) and `unwatch(c)` removes everything for
`c`, as long as `unwatch(c, j)` is only used with subscribed callbacks.  Missing: other `j`. -/
theorem C57_partial (dev : Device) (fl : Str → Option PyFloat) (s : AW) (h : AReach dev fl politeCallback s) (hs : Sane s.log) (c : OBDCommand) :
    subscribers s c = (sub c.key s.log).map (fun x => x.1) := by
  rw [(areach_hist h).view hs, subscribers_view (areach_polite h).complete]

/-- The demo car: of two callbacks one is removed. -/
example : AReach (demo table) fl0 politeCallback (after (watchTwo ++ (.call (.unwatch rpmCommand (some 1)) :: user 2))) ∧
    Sane (after (watchTwo ++ (.call (.unwatch rpmCommand (some 1)) :: user 2))).log ∧
    subscribers (after (watchTwo ++ (.call (.unwatch rpmCommand (some 1)) :: user 2))) rpmCommand = some [7] := by
  refine ⟨after_polite (by decide) (by decide +kernel), ?_, by decide +kernel⟩
  have h3 : (match (after (watchTwo ++ (.call (.unwatch rpmCommand (some 1)) :: user 2))).log.drop 10 with
      | [.did (.unwatch c (some j)), e] => decide (c.key = rpmCommand.key) && decide (j = 1) && !isUnwatch e
      | _ => false) = true := by decide +kernel
  split at h3
  · next c j e hd =>
    simp only [Bool.and_eq_true, decide_eq_true_eq] at h3
    have hl : (after (watchTwo ++ (.call (.unwatch rpmCommand (some 1)) :: user 2))).log =
        (after (watchTwo ++ (.call (.unwatch rpmCommand (some 1)) :: user 2))).log.take 10 ++ .did (.unwatch c (some j)) :: [e] := by
      rw [← hd]; exact (List.take_append_drop 10 _).symm
    have hpre : ((after (watchTwo ++ (.call (.unwatch rpmCommand (some 1)) :: user 2))).log.take 10).all (fun e => !isUnwatch e) = true := by decide +kernel
    have hsub : ((sub rpmCommand.key ((after (watchTwo ++ (.call (.unwatch rpmCommand (some 1)) :: user 2))).log.take 10)).map (fun x => x.1)) = some [1, 7] := by decide +kernel
    revert hl hpre hsub
    generalize (after (watchTwo ++ (.call (.unwatch rpmCommand (some 1)) :: user 2))).log.take 10 = pre
    intro hl hpre hsub a c' j' b hl'
    rw [hl] at hl'
    rcases append_cons_split hl'.symm with ⟨b', -, h4⟩ | ⟨a', rfl, h4⟩
    · exact absurd h4 (by rw [List.all_eq_true] at hpre; intro he; have := hpre (.did (.unwatch c' (some j'))) (by rw [he]; simp); simp [isUnwatch] at this)
    · cases a' with
      | nil =>
        simp only [List.nil_append, List.cons.injEq, Ev.did.injEq, AOp.unwatch.injEq, Option.some.injEq] at h4
        obtain ⟨⟨rfl, rfl⟩, -⟩ := h4
        intro l r h5
        rw [List.append_nil, h3.1.1] at h5
        rw [h5] at hsub
        simp at hsub
        rw [hsub, h3.1.2]; decide
      | cons x a' =>
        exfalso
        simp only [List.cons_append, List.cons.injEq] at h4
        cases a' with
        | nil => simp at h4; rw [h4.2.1] at h3; simp [isUnwatch] at h3
        | cons y a' => simp at h4
  · cases h3

/-! ## C58 -/

/-- The full statement: properly nested blocks of `paused()` leave the loop as it was. -/
def C58_full : Prop := ∀ (dev : Device) (fl : Str → Option PyFloat) (s s' : AW) (as : List Action), AReach dev fl politeCallback s → s.caller = .idle →
  ARun dev fl politeCallback s as s' → Balanced (userCalls as) → s'.caller = .idle → ObdM.isConnected s'.obd = true → s'.commands ≠ [] →
  s'.running = s.running

/-- Two nested blocks around nothing, the loop running. -/
def nested : List Action := (.call .enter :: user 4) ++ loop 1 ++ user 2 ++ (.call .enter :: user 2) ++ (.call .exit :: user 1) ++ (.call .exit :: user 1)

/-- The inner `__enter__` overwrites the remembered state: after both blocks the loop is not
restarted. -/
theorem C58_refuted : ¬ C58_full := by
  intro h
  have hR : AReach (demo table) fl0 politeCallback (after (watchRpm ++ startUp)) := after_polite (by decide) (by decide +kernel)
  have hp : (play (demo table) fl0 (after (watchRpm ++ startUp)) nested).isSome = true := by decide +kernel
  obtain ⟨s', hs⟩ := Option.isSome_iff_exists.mp hp
  have h2 : (play (demo table) fl0 (after (watchRpm ++ startUp)) nested).map (fun s => (s.running, s.commands.isEmpty, ObdM.isConnected s.obd,
      match s.caller with | .idle => true | _ => false)) = some (false, false, true, true) := by decide +kernel
  rw [hs] at h2
  simp only [Option.map_some, Option.some.injEq, Prod.mk.injEq] at h2
  have hidle : s'.caller = .idle := by
    have := h2.2.2.2
    split at this
    · assumption
    · cases this
  have hidle0 : (after (watchRpm ++ startUp)).caller = .idle := by
    have : (match (after (watchRpm ++ startUp)).caller with | .idle => true | _ => false) = true := by decide +kernel
    split at this
    · assumption
    · cases this
  have hne : s'.commands ≠ [] := by
    intro he; rw [he] at h2; cases h2.2.1
  have hbal : Balanced (userCalls nested) := by
    have : userCalls nested = .enter :: ([.enter, .exit] ++ .exit :: []) := rfl
    rw [this]
    exact .paused [.enter, .exit] [] (.paused [] [] .nil .nil) .nil
  have := h _ _ _ s' nested hR hidle0 (play_polite (by decide) hs) hbal hidle h2.2.2.1 hne
  rw [h2.1] at this
  have hrun : (after (watchRpm ++ startUp)).running = true := by decide +kernel
  rw [hrun] at this; cases this

/-- What holds: one block around any calls that do not start or stop the loop.  Nested blocks and blocks that start or
stop the loop inside: see `C58_exact_partial`, which says exactly what they do. -/
theorem C58_partial (dev : Device) (fl : Str → Option PyFloat) (s s' : AW) (as : List Action) (body : List AOp) (h : AReach dev fl politeCallback s)
    (hi : s.caller = .idle) (hr : ARun dev fl politeCallback s as s') (hcs : userCalls as = .enter :: (body ++ [.exit]))
    (hbody : ∀ o ∈ body, AOp.plain o = true) (hi' : s'.caller = .idle) (hg : ObdM.isConnected s'.obd = true) (hcmd : s'.commands ≠ []) :
    s'.running = s.running := paused_restores h hi hr hbody hcs hi' hg hcmd

/-- One block in which a second command is watched. -/
def oneBlock : List Action := (.call .enter :: user 4) ++ loop 1 ++ user 2 ++ watchPids ++ (.call .exit :: user 7)

/-- The demo car: the loop runs again after the block, with both commands. -/
example : ∃ s', AReach (demo table) fl0 politeCallback (after (watchRpm ++ startUp)) ∧
    (after (watchRpm ++ startUp)).running = true ∧
    ARun (demo table) fl0 politeCallback (after (watchRpm ++ startUp)) oneBlock s' ∧
    userCalls oneBlock = .enter :: ([.watch pidsCommand none true] ++ [.exit]) ∧ s'.running = true ∧ s'.commands.length = 2 ∧ ObdM.isConnected s'.obd = true := by
  have hp : (play (demo table) fl0 (after (watchRpm ++ startUp)) oneBlock).isSome = true := by decide +kernel
  obtain ⟨s', hs⟩ := Option.isSome_iff_exists.mp hp
  have h2 : (play (demo table) fl0 (after (watchRpm ++ startUp)) oneBlock).map (fun s => (s.running, s.commands.length, ObdM.isConnected s.obd)) =
    some (true, 2, true) := by decide +kernel
  rw [hs] at h2
  simp only [Option.map_some, Option.some.injEq, Prod.mk.injEq] at h2
  exact ⟨s', after_polite (by decide) (by decide +kernel), by decide +kernel, play_polite (by decide) hs, rfl, h2.1, h2.2.1, h2.2.2⟩

/-- Any calls at all, except those that remove subscriptions or close the connection, blocks nested or not: on a live connection with
something watched, whether the loop runs afterwards, and what `paused()` remembers, is what `switched` says, one call at a time. -/
theorem C58_exact_partial (dev : Device) (fl : Str → Option PyFloat) (s s' : AW) (as : List Action) (h : AReach dev fl politeCallback s)
    (hi : s.caller = .idle) (hr : ARun dev fl politeCallback s as s') (hk : ∀ o ∈ userCalls as, AOp.keeps o = true) (hne : s.commands ≠ [])
    (hi' : s'.caller = .idle) (hg : ObdM.isConnected s'.obd = true) :
    (s'.running, s'.wasRunning) = (userCalls as).foldl switched (s.running, s.wasRunning) := by
  have hg' : ¬ ObdM.Gone s'.obd := by simp [ObdM.Gone, hg]
  rcases (after_run h hi hr hk hne hg').1 with ⟨_, h1⟩ | h1
  · exact h1
  · obtain ⟨pre, op, pc, _, h2, _⟩ := h1
    rw [hi'] at h2; cases h2

/-- The demo car: the two nested blocks of `C58_refuted` meet the hypotheses, and `switched` predicts the stopped loop. -/
example : ∃ s', AReach (demo table) fl0 politeCallback (after (watchRpm ++ startUp)) ∧
    ARun (demo table) fl0 politeCallback (after (watchRpm ++ startUp)) nested s' ∧ (∀ o ∈ userCalls nested, AOp.keeps o = true) ∧
    ((after (watchRpm ++ startUp)).running, (after (watchRpm ++ startUp)).wasRunning) = (true, false) ∧
    (userCalls nested).foldl switched (true, false) = (false, false) ∧ s'.running = false ∧ ObdM.isConnected s'.obd = true := by
  have hp : (play (demo table) fl0 (after (watchRpm ++ startUp)) nested).isSome = true := by decide +kernel
  obtain ⟨s', hs⟩ := Option.isSome_iff_exists.mp hp
  have h2 : (play (demo table) fl0 (after (watchRpm ++ startUp)) nested).map (fun s => (s.running, ObdM.isConnected s.obd)) = some (false, true) := by decide +kernel
  rw [hs] at h2
  simp only [Option.map_some, Option.some.injEq, Prod.mk.injEq] at h2
  exact ⟨s', after_polite (by decide) (by decide +kernel), play_polite (by decide) hs, by decide, by decide +kernel, by decide, h2.1, h2.2⟩

/-! ## C59 -/

/-- At most one update thread is at work. -/
theorem C59_one (dev : Device) (fl : Str → Option PyFloat) (s : AW) (h : AReach dev fl anyCallback s) (t t' : Nat) (h1 : Active s t) (h2 : Active s t') :
    t = t' := by
  obtain ⟨pc, h3, h4⟩ := h1
  obtain ⟨pc', h5, h6⟩ := h2
  have e1 := (areach_inv h).act t pc h3 h4
  have e2 := (areach_inv h).act t' pc' h5 h6
  rw [e1] at e2; cases e2; rfl

/-- After `stop()`, the beginning of a `paused()` block or `close()` has returned, and until
`start()` or the end of a block is called: no query, no new response, no callback; and no
thread is left. -/
theorem C59_final (dev : Device) (fl : Str → Option PyFloat) (s : AW) (h : AReach dev fl anyCallback s) (op : AOp) (a b : List Ev)
    (hop : op = .stop ∨ op = .enter ∨ op = .close) (hl : s.log = a ++ .ret op :: b) (hb : ∀ e ∈ b, Ev.mayStart e = false) :
    (∀ e ∈ b, Ev.work e = false) ∧ ∀ t, ¬ Active s t := by
  obtain ⟨h1, h2⟩ := after_stop h op a b hop hl hb
  refine ⟨h1, ?_⟩
  rintro t ⟨pc, h3, h4⟩
  have := noactive (areach_inv h) h2.1 t pc h3
  rw [this] at h4; cases h4

/-- The demo car: stopped while the loop was at work, then the subscriptions are changed. -/
def stopped : List Action := watchRpm ++ startUp ++ loop 9 ++ stopJoin ++ [.cbEnd 0 true] ++ loop 4 ++ user 2 ++ watchPids

example : AReach (demo table) fl0 anyCallback (after stopped) ∧ (∃ a b, (after stopped).log = a ++ .ret .stop :: b ∧ b ≠ [] ∧ ∀ e ∈ b, Ev.mayStart e = false) ∧
    (after stopped).log.any Ev.work = true := by
  refine ⟨after_any (by decide +kernel), ?_, by decide +kernel⟩
  have h3 : (match (after stopped).log.drop 12 with
      | .ret .stop :: b => !b.isEmpty && b.all (fun e => !Ev.mayStart e)
      | _ => false) = true := by decide +kernel
  split at h3
  · next b hd =>
    simp only [Bool.and_eq_true, List.all_eq_true, Bool.not_eq_true'] at h3
    refine ⟨(after stopped).log.take 12, b, ?_, ?_, h3.2⟩
    · rw [← hd]; exact (List.take_append_drop 12 _).symm
    · intro e; rw [e] at h3; cases h3.1
  · cases h3

/-- Two threads were created one after the other, one of them is at work. -/
example : AReach (demo table) fl0 anyCallback (after (stopped ++ startUp)) ∧ (after (stopped ++ startUp)).threads.length = 2 ∧ Active (after (stopped ++ startUp)) 1 := by
  refine ⟨after_any (by decide +kernel), by decide +kernel, ?_⟩
  have : (match (after (stopped ++ startUp)).threads[1]? with | some pc => Pc.active pc | none => false) = true := by decide +kernel
  split at this
  · next pc h => exact ⟨pc, h, this⟩
  · cases this

/-! ## C60 -/

/-- The full statement: `stop()` does not raise. -/
def C60_full : Prop := ∀ (dev : Device) (fl : Str → Option PyFloat) (s : AW), AReach dev fl politeCallback s → ∀ x, .raised .stop x ∉ s.log

/-- The demo adapter, unplugged when the engine speed is asked for a second time. -/
def unpluggedLater : Device := { demo table with
  write := fun h b => !(h.any (fun e => match e with | .write b _ => b == ascii "010C\r" | _ => false) && b == ascii "010C1\r") }

def laterAsync : AW := { obd := (ObdM.construct unpluggedLater fl0 ["COM1".toList] none true {}).2 }

/-- The loop notices that the connection is lost while the user is in `stop()`. -/
def stopRace : List Action := (.call (.watch rpmCommand none true) :: user 2) ++ startUp ++ loop 28 ++ (.call .stop :: user 2) ++ loop 1 ++ user 1

def isRaisedStop : Ev → Bool
  | .raised .stop .attributeError => true
  | _ => false

theorem later_constructed : Constructed unpluggedLater fl0 { ports := ["COM1".toList], fast := true } laterAsync.obd := by
  have : (ObdM.construct unpluggedLater fl0 ["COM1".toList] none true {}).1 = .ok () := by decide +kernel
  show ObdM.construct unpluggedLater fl0 ["COM1".toList] none true {} = _
  rw [← this]; rfl

theorem C60_refuted : ¬ C60_full := by
  intro h
  have hp : (play unpluggedLater fl0 laterAsync stopRace).isSome = true := by decide +kernel
  obtain ⟨s', hs⟩ := Option.isSome_iff_exists.mp hp
  have h2 : (play unpluggedLater fl0 laterAsync stopRace).map (fun s => s.log.any isRaisedStop) = some true := by decide +kernel
  rw [hs] at h2
  refine h _ _ s' (arun_reach (.init _ _ later_constructed) (play_polite (by decide) hs)) .attributeError (mem_of_any (p := isRaisedStop) ?_ (by simpa using h2))
  intro x hx; unfold isRaisedStop at hx; split at hx
  · rfl
  · cases hx

/-- What holds: `stop()` and `paused()` raise only on a lost connection.  Missing: lost
connections, and exceptions of `close()` itself (C52). -/
theorem C60_partial (dev : Device) (fl : Str → Option PyFloat) (s : AW) (h : AReach dev fl anyCallback s) (hc : ObdM.isConnected s.obd = true)
    (op : AOp) (hop : op = .stop ∨ op = .enter) (x : Exc) : .raised op x ∉ s.log := by
  intro hm
  have := (areach_gone h).log op x hm hop
  rw [ObdM.Gone, hc] at this; cases this

/-- The demo car: `stop()` was called while the loop was at work, and has returned. -/
example : AReach (demo table) fl0 anyCallback (after (watchRpm ++ startUp ++ loop 9 ++ stopJoin ++ [.cbEnd 0 true] ++ loop 4 ++ user 2)) ∧
    ObdM.isConnected (after (watchRpm ++ startUp ++ loop 9 ++ stopJoin ++ [.cbEnd 0 true] ++ loop 4 ++ user 2)).obd = true ∧
    (after (watchRpm ++ startUp ++ loop 9 ++ stopJoin ++ [.cbEnd 0 true] ++ loop 4 ++ user 2)).log.any (fun e => match e with | .ret .stop => true | _ => false) = true :=
  ⟨after_any (by decide +kernel), by decide +kernel, by decide +kernel⟩

/-- `start()` and the end of a `paused()` block never raise. -/
theorem C60_start (dev : Device) (fl : Str → Option PyFloat) (s : AW) (h : AReach dev fl anyCallback s) (x : Exc) :
    .raised .start x ∉ s.log ∧ .raised .exit x ∉ s.log :=
  ⟨fun hm => ((areach_gone h).start _ x hm).1 rfl, fun hm => ((areach_gone h).start _ x hm).2 rfl⟩

/-- No call hangs: in every fair run in which callbacks are polite and end, every call ends. -/
theorem C60_ends (dev : Device) (fl : Str → Option PyFloat) (run : Nat → AW) (act : Nat → Action) (h : FairRun dev fl run act) (n : Nat) (op : AOp)
    (hn : act n = .call op) : ∃ m > n, (run (m + 1)).caller = .idle ∧
      ∃ mid, (run (m + 1)).log = (run n).log ++ .call op :: mid ∧ (mid.getLast? = some (.ret op) ∨ ∃ x, mid.getLast? = some (.raised op x)) := by
  have hs := h.step n
  rw [hn] at hs
  have hh := hs
  unfold step at hs
  simp only at hs
  cases hc : (run n).caller with
  | busy o p => rw [hc] at hs; cases hs
  | idle =>
    rw [hc] at hs
    injection hs with hs
    have hb : (run (n + 1)).caller = .busy op (entry op) := by rw [← hs]; rfl
    have hl : (run (n + 1)).log = (run n).log ++ [.call op] := by rw [← hs]; rfl
    obtain ⟨m, hm, ⟨pc, h1⟩, h2, h3⟩ := call_ends h op _ (n + 1) hb
    refine ⟨m, by omega, h3, ?_⟩
    -- the log grows
    have hgrow : ∀ d, ∃ es, (run (n + 1 + d)).log = (run (n + 1)).log ++ es := by
      intro d
      induction d with
      | zero => exact ⟨[], by simp⟩
      | succ d ih =>
        obtain ⟨es, h4⟩ := ih
        obtain ⟨es', h5, -⟩ := step_log (h.step (n + 1 + d))
        exact ⟨es ++ es', by rw [show n + 1 + (d + 1) = n + 1 + d + 1 from rfl, h5, h4, List.append_assoc]⟩
    obtain ⟨d, rfl⟩ := Nat.exists_eq_add_of_le hm
    obtain ⟨es, h4⟩ := hgrow d
    have h5 := h.step (n + 1 + d)
    rw [h2] at h5
    unfold step at h5
    simp only [h1] at h5
    obtain ⟨pre, fin, h6, -, h7⟩ := callerStep_log h5
    refine ⟨es ++ (pre ++ fin), by rw [h6, h4, hl]; simp [List.append_assoc], ?_⟩
    rcases h7 with ⟨-, -, pc', h8⟩ | ⟨-, rfl | ⟨x, rfl, -⟩⟩
    · rw [h3] at h8; cases h8
    · left; rw [← List.append_assoc, List.getLast?_append]; rfl
    · right; exact ⟨x, by rw [← List.append_assoc, List.getLast?_append]; rfl⟩

/-- Together: on a connection that stays up, `stop()` returns normally in every fair run. -/
theorem C60_returns_partial (dev : Device) (fl : Str → Option PyFloat) (run : Nat → AW) (act : Nat → Action) (h : FairRun dev fl run act) (n : Nat) (op : AOp)
    (hop : op = .stop ∨ op = .enter) (hn : act n = .call op) (hc : ∀ m, ObdM.isConnected (run m).obd = true) : ∃ m > n, ∃ mid,
      (run m).log = (run n).log ++ .call op :: (mid ++ [.ret op]) := by
  obtain ⟨m, hm, -, mid, h1, h2⟩ := C60_ends dev fl run act h n op hn
  rcases h2 with h2 | ⟨x, h2⟩
  · obtain ⟨pre, h3⟩ := List.getLast?_eq_some_iff.mp h2
    exact ⟨m + 1, by omega, pre, by rw [h1, h3]⟩
  · exfalso
    have hR := h.reach (m + 1)
    refine absurd ((areach_gone hR).log op x ?_ hop) (by rw [ObdM.Gone, hc]; simp)
    rw [h1]
    refine List.mem_append_right _ (List.mem_cons_of_mem _ ?_)
    exact List.mem_of_getLast? h2

/-- A fair run in which the user stops the loop while it is at work. -/
example : ∃ run act n, FairRun (demo table) fl0 run act ∧ act n = .call .stop ∧ Active (run n) 0 := by
  have hR := demoAsync_reach politeCallback
  have hp : (play (demo table) fl0 demoAsync stopped).isSome = true := by decide +kernel
  have hq : (match (after stopped).caller with | .idle => (after stopped).thread.isNone | _ => false) = true := by decide +kernel
  obtain ⟨run, act, hF, h0, ha⟩ := fair_exists hR (as := stopped) (by decide) (after_play hp)
    (by split at hq
        · assumption
        · cases hq)
    (by split at hq
        · exact Option.isNone_iff_eq_none.mp hq
        · cases hq)
  have hstep : ∀ k, k ≤ stopped.length → play (demo table) fl0 demoAsync (stopped.take k) = some (run k) := by
    intro k
    induction k with
    | zero => intro _; rw [h0]; rfl
    | succ k ih =>
      intro hk
      have h3 : stopped.take (k + 1) = stopped.take k ++ [stopped[k]] := by
        rw [List.take_add_one]; simp [List.getElem?_eq_getElem (show k < stopped.length by omega)]
      rw [h3, play_append, ih (by omega)]
      have := hF.step k
      rw [ha k (by omega)] at this
      simp only [Option.bind_some, play, this]
  refine ⟨run, act, 19, hF, ha 19 (by decide), ?_⟩
  have h4 := hstep 19 (by decide)
  have h5 : ((play (demo table) fl0 demoAsync (stopped.take 19)).map (fun s => match s.threads[0]? with | some pc => Pc.active pc | none => false)) = some true := by
    decide +kernel
  rw [h4] at h5
  simp only [Option.map_some, Option.some.injEq] at h5
  split at h5
  · next pc hpc => exact ⟨pc, hpc, h5⟩
  · cases h5

end Props
