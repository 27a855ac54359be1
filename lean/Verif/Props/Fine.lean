import Verif.Lemmas.Simulate
import Verif.Props.Async
/-!
# One request at a time, and threads that do not mix on the adapter (C91)
-/
namespace Props
open Py Model Spec AW

/-! ## the synchronous connection -/

/-- After any constructor call and any calls, whatever the adapter does: lines are written one at a time. -/
theorem C91_one_at_a_time (dev : Device) (fl : Str → Option PyFloat) (s : OW) (h : Reachable dev fl s) : OneAtATime s.hist := (reachable_turns h).1

/-- The demo car after two calls: more than ten lines were written. -/
example : OneAtATime (session (demo table) fl0 [.query rpmCommand true, .lowPower] (demoObd true)).hist ∧
    10 ≤ (sent (session (demo table) fl0 [.query rpmCommand true, .lowPower] (demoObd true)).hist).length :=
  ⟨C91_one_at_a_time _ _ _ ⟨_, _, [.query rpmCommand true, .lowPower], demoObd_constructed true, rfl⟩, by decide +kernel⟩

/-- Also while the constructor raises. -/
theorem C91_constructor (dev : Device) (fl : Str → Option PyFloat) (a : Args) :
    OneAtATime (ObdM.construct dev fl a.ports a.portstr a.fast a.cfg).2.hist := (ObdM.turns_construct fl a).1

/-! ## the asynchronous connection -/

/-- The full statement: whatever the user and the callbacks do, and however single steps of the threads interleave, lines are written one at a time. -/
def C91_full : Prop := ∀ (dev : Device) (fl : Str → Option PyFloat) (f : FW), FReach dev fl anyCallback f → OneAtATime f.aw.obd.hist

/-- The rule of a careful user, and callbacks as `base` says. -/
def careful (base : AW → Action → Prop) : AW → Action → Prop := fun s a => base s a ∧ carefulUser s a

/-- Missing: users who call `low_power()` or `normal_power()` between `start()` and `stop()`. -/
theorem C91_async_partial (dev : Device) (fl : Str → Option PyFloat) (f : FW) (h : FReach dev fl (careful anyCallback) f) : OneAtATime f.aw.obd.hist := by
  obtain ⟨s, h1, h2⟩ := freach_sim (Or.inl rfl) h
  obtain ⟨o, h3, h4⟩ := h2.ahead h1
  exact (reachable_turns h3).1.of_prefix h4

/-- At any time at most one thread is in a call to the connection. -/
theorem C91_exclusive_partial (dev : Device) (fl : Str → Option PyFloat) (f : FW) (h : FReach dev fl (careful anyCallback) f) :
    (∀ t t', FW.talks f t → FW.talks f t' → t = t') ∧ (FW.userTalks f → ∀ t, ¬ FW.talks f t) := by
  obtain ⟨s, -, h2⟩ := freach_sim (Or.inl rfl) h
  have only : ∀ {t : Nat} {j : Job}, f.jobs = onlyJob t j → f.user = none →
      (∀ t t', FW.talks f t → FW.talks f t' → t = t') ∧ (FW.userTalks f → ∀ t, ¬ FW.talks f t) := by
    intro t j hj hu
    have : ∀ t', FW.talks f t' → t' = t := by
      intro t' h
      unfold FW.talks at h
      rw [hj] at h
      unfold onlyJob at h
      split at h
      · assumption
      · exact absurd rfl h
    exact ⟨fun t1 t2 h1 h2 => (this t1 h1).trans (this t2 h2).symm, fun h => absurd hu h⟩
  have non : f.jobs = (fun _ => none) → (∀ t t', FW.talks f t → FW.talks f t' → t = t') ∧ (FW.userTalks f → ∀ t, ¬ FW.talks f t) := by
    intro hj
    have : ∀ t', ¬ FW.talks f t' := by
      intro t' h
      unfold FW.talks at h
      rw [hj] at h
      exact h rfl
    exact ⟨fun t1 t2 h1 _ => absurd h1 (this t1), fun _ => this⟩
  cases h2.pending with
  | none hj hu ho => exact non hj
  | query t it c p hj hu => exact only hj hu
  | power t it r l i op p hj hu => exact only hj hu
  | userClose op p hj => exact non hj
  | userPower op p hj => exact non hj

/-- Calls to the connection are atomic: however single steps interleave, there is a schedule in which queries, power calls and `close()` happen at once that
leads to the same events, subscriptions, values and threads, and to the same connection if no call to it is under way.  So what C54–C60 and C85 say about
such schedules holds for all. -/
theorem C91_atomic_partial (dev : Device) (fl : Str → Option PyFloat) (base : AW → Action → Prop) (hb : base = anyCallback ∨ base = politeCallback) (f : FW)
    (h : FReach dev fl (careful base) f) :
    ∃ s, AReach dev fl base s ∧ f.aw.log = s.log ∧ f.aw.commands = s.commands ∧ f.aw.callbacks = s.callbacks ∧ f.aw.lists = s.lists ∧ f.aw.running = s.running ∧
      f.aw.thread = s.thread ∧ f.aw.threads = s.threads ∧ f.aw.caller = s.caller ∧
      (¬ FW.userTalks f → (∀ t, ¬ FW.talks f t) → f.aw = s) := by
  obtain ⟨s, h1, h2⟩ := freach_sim hb h
  refine ⟨s, h1, by rw [h2.same], by rw [h2.same], by rw [h2.same]; rfl, by rw [h2.same], by rw [h2.same], by rw [h2.same], by rw [h2.same], by rw [h2.same], ?_⟩
  intro hu hj
  have no : ∀ {t : Nat} {j : Job}, f.jobs = onlyJob t j → False := by
    intro t j h
    exact hj t (by unfold FW.talks; rw [h]; simp [onlyJob])
  cases h2.pending with
  | none hj hu ho => rw [h2.same, ho]
  | query t it c p hj => exact (no hj).elim
  | power t it r l i op p hj => exact (no hj).elim
  | userClose op p hj hu' => exact (hu (by unfold FW.userTalks; rw [hu']; simp)).elim
  | userPower op p hj hu' => exact (hu (by unfold FW.userTalks; rw [hu']; simp)).elim

/-! ## the demo car -/

/-- Performing a schedule of single steps. -/
def fplay (dev : Device) (fl : ElmM.FloatFn) (f : FW) : List Action → Option FW
  | [] => some f
  | a :: as => (f.step dev fl a).bind (fun f' => fplay dev fl f' as)

theorem fplay_reach {dev : Device} {fl : ElmM.FloatFn} {ok : AW → Action → Prop} : ∀ {as : List Action} {f f' : FW}, FReach dev fl ok f → (∀ s, ∀ a ∈ as, ok s a) →
    fplay dev fl f as = some f' → FReach dev fl ok f'
  | [], f, f', h, _, hp => by cases hp; exact h
  | a :: as, f, f', h, ho, hp => by
    simp only [fplay, Option.bind_eq_some_iff] at hp
    obtain ⟨g, h1, h2⟩ := hp
    exact fplay_reach (.step f a g h (ho _ a List.mem_cons_self) h1) (fun s x hx => ho s x (List.mem_cons_of_mem _ hx)) h2

def demoFine : FW := { aw := demoAsync }

theorem demoFine_reach (ok : AW → Action → Prop) : FReach (demo table) fl0 ok demoFine := .init _ _ (demoObd_constructed true)

/-- The state after a schedule of the demo car. -/
def fafter (as : List Action) : FW := (fplay (demo table) fl0 demoFine as).getD demoFine

theorem fafter_reach {ok : AW → Action → Prop} {as : List Action} (ho : ∀ s, ∀ a ∈ as, ok s a) (h : (fplay (demo table) fl0 demoFine as).isSome = true) :
    FReach (demo table) fl0 ok (fafter as) := by
  unfold fafter
  cases hp : fplay (demo table) fl0 demoFine as with
  | none => rw [hp] at h; cases h
  | some f => exact fplay_reach (demoFine_reach ok) ho hp

/-- A schedule without power calls of the user satisfies every rule of a careful user. -/
def noPower (as : List Action) : Bool := as.all (fun a => match a with
  | .call op => !(AOp.isPower op)
  | _ => true)

theorem careful_of {as : List Action} (h : noPower as = true) : ∀ s, ∀ a ∈ as, careful anyCallback s a := by
  intro s a ha
  refine ⟨trivial, ?_⟩
  have := List.all_eq_true.mp h a ha
  cases a with
  | call op => intro hp; simp [hp] at this
  | _ => trivial

/-- The last two events are lines written in a row. -/
def twoWrites (h : History) : Bool := match h.reverse with
  | .write _ _ :: .write b _ :: _ => b != line (ascii " ")
  | _ => false

theorem twoWrites_not {h : History} (ht : twoWrites h = true) : ¬ OneAtATime h := by
  intro H
  unfold twoWrites at ht
  split at ht
  · next b2 o2 b1 o1 rest hr =>
    have : h = rest.reverse ++ .write b1 o1 :: .write b2 o2 :: [] := by
      have := congrArg List.reverse hr
      simpa using this
    have := (H _ _ _ _ _ _ this).1
    simp [this] at ht
  · cases ht

/-- The loop has sent the request for the engine speed; the user's `low_power()` sends its line before the reply was read. -/
def mixed : List Action := watchRpm ++ startUp ++ loop 14 ++ (.call .lowPower :: user 6)

theorem C91_refuted : ¬ C91_full := by
  intro h
  have h1 : (fplay (demo table) fl0 demoFine mixed).isSome = true := by decide +kernel
  exact twoWrites_not (h := (fafter mixed).aw.obd.hist) (by decide +kernel) (h _ _ _ (fafter_reach (fun _ _ _ => trivial) h1))

/-- Two threads are in a call to the connection. -/
theorem C91_exclusive_refuted : ¬ ∀ (dev : Device) (fl : Str → Option PyFloat) (f : FW), FReach dev fl anyCallback f → FW.userTalks f → ∀ t, ¬ FW.talks f t := by
  intro h
  have h1 : (fplay (demo table) fl0 demoFine mixed).isSome = true := by decide +kernel
  have hu : (fafter mixed).user.isSome = true := by decide +kernel
  have ht : ((fafter mixed).jobs 0).isSome = true := by decide +kernel
  refine h _ _ _ (fafter_reach (fun _ _ _ => trivial) h1) ?_ 0 ?_
  · intro e; rw [e] at hu; cases hu
  · intro e; rw [e] at ht; cases ht

/-- A careful schedule: the loop is in the middle of a query, and the user asks for the value meanwhile. -/
example : FReach (demo table) fl0 (careful anyCallback) (fafter (watchRpm ++ startUp ++ loop 14 ++ (.call (.query rpmCommand) :: user 1))) ∧
    ((fafter (watchRpm ++ startUp ++ loop 14 ++ (.call (.query rpmCommand) :: user 1))).jobs 0).isSome = true ∧
    sent (fafter (watchRpm ++ startUp ++ loop 14)).aw.obd.hist ≠ sent (demoObd true).hist :=
  ⟨fafter_reach (careful_of (by decide)) (by decide +kernel), by decide +kernel, by decide +kernel⟩

/-- In the end of a careful schedule no call is under way, and the loop has stored the value. -/
example : ((fafter (watchRpm ++ startUp ++ loop 23)).jobs 0).isSome = false ∧ (fafter (watchRpm ++ startUp ++ loop 23)).user.isSome = false ∧
    (fafter (watchRpm ++ startUp ++ loop 23)).aw.commands.map (fun c => c.2.2.value) = [.qty 1726 "rpm"] :=
  ⟨by decide +kernel, by decide +kernel, by decide +kernel⟩

/-- The blank that wakes the adapter up: the exception in `OneAtATime` happens. -/
example : ¬ ∀ (dev : Device) (fl : Str → Option PyFloat) (a : Args), ∀ (x : History) (b1 : Bytes) (o1 : Bool) (b2 : Bytes) (o2 : Bool) (c : History),
    (ObdM.construct dev fl a.ports a.portstr a.fast a.cfg).2.hist ≠ x ++ .write b1 o1 :: .write b2 o2 :: c := by
  intro h
  have h1 : (match (ObdM.construct (demo table) fl0 [] (some "/dev/pts/1".toList) true { startLowPower := true }).2.hist with
    | _ :: .write _ _ :: .write _ _ :: _ => true
    | _ => false) = true := by decide +kernel
  split at h1
  · next e b1 o1 b2 o2 c hc => exact h (demo table) fl0 { portstr := some "/dev/pts/1".toList, cfg := { startLowPower := true } } [e] b1 o1 b2 o2 c hc
  · cases h1

end Props
