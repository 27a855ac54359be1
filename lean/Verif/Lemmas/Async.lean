import Verif.Spec.Async
import Verif.Lemmas.Construct
/-!
# Invariants of the asynchronous connection
-/
namespace Model
open Py Spec
namespace AW

/-! ## what the steps do to the control state -/

theorem doWatch_ctl (c : OBDCommand) (cb : Option Nat) (force : Bool) (s : AW) :
    (s.doWatch c cb force).2.thread = s.thread ∧ (s.doWatch c cb force).2.threads = s.threads ∧ (s.doWatch c cb force).2.running = s.running ∧
    (s.doWatch c cb force).2.caller = s.caller ∧ (s.doWatch c cb force).2.obd = s.obd ∧ (s.doWatch c cb force).2.wasRunning = s.wasRunning := by
  unfold doWatch
  split
  · simp
  · simp
  · have h : ∀ x : AW, x = (if s.commands.mem c.key then s
      else { s with commands := s.commands.set c.key (c, {}) }.newList c.key) →
      x.thread = s.thread ∧ x.threads = s.threads ∧ x.running = s.running ∧ x.caller = s.caller ∧ x.obd = s.obd ∧ x.wasRunning = s.wasRunning := by
      intro x hx; subst hx; split <;> simp [newList]
    generalize (if s.commands.mem c.key then s
      else { s with commands := s.commands.set c.key (c, {}) }.newList c.key) = x at h
    have h := h x rfl
    simp only
    split
    · exact h
    · split
      · exact h
      · split <;> exact h

theorem doUnwatch_ctl (c : OBDCommand) (cb : Option Nat) (s : AW) :
    (s.doUnwatch c cb).2.thread = s.thread ∧ (s.doUnwatch c cb).2.threads = s.threads ∧ (s.doUnwatch c cb).2.running = s.running ∧
    (s.doUnwatch c cb).2.caller = s.caller ∧ (s.doUnwatch c cb).2.obd = s.obd ∧ (s.doUnwatch c cb).2.wasRunning = s.wasRunning := by
  unfold doUnwatch
  repeat' split
  all_goals simp [emit, setList]

theorem doModify_ctl (op : AOp) (s : AW) :
    (s.doModify op).2.thread = s.thread ∧ (s.doModify op).2.threads = s.threads ∧ (s.doModify op).2.running = s.running ∧
    (s.doModify op).2.caller = s.caller ∧ (s.doModify op).2.obd = s.obd ∧ (s.doModify op).2.wasRunning = s.wasRunning := by
  unfold doModify
  split
  · exact doWatch_ctl ..
  · exact doUnwatch_ctl ..
  · simp [doUnwatchAll, emit]
  · simp

/-- What it means that an iterator goes on over a changed dictionary. -/
theorem reorder_eq {dev : Device} {fl : ElmM.FloatFn} {t : Nat} {rest : List Nat} {s s' : AW} (h : s.step dev fl (.reorder t rest) = some s') :
    ∃ it it', s.threads[t]? = some (.next it) ∧ it.dict = s.dictId ∧ it.keys ≠ s.commands.keys ∧ s' = s.setPc t (.next it') ∧ it'.dict = s.dictId ∧
      it'.keys = s.commands.keys ∧ ∀ c ∈ it'.rest, ∃ e ∈ s.commands, e.2.1 = c := by
  simp only [step] at h
  split at h
  · next it hp =>
    split at h
    · next hc =>
      cases h
      refine ⟨it, _, hp, hc.1, hc.2.1, rfl, hc.1, rfl, ?_⟩
      intro c hm
      obtain ⟨i, -, hi⟩ := List.mem_filterMap.mp hm
      cases he : s.commands[i]? with
      | none => rw [he] at hi; cases hi
      | some e => rw [he] at hi; cases hi; exact ⟨e, List.mem_of_getElem? he, rfl⟩
    · cases h
  · cases h

/-- Steps of an update thread. -/
theorem daemonStep_ctl {dev : Device} {fl : ElmM.FloatFn} {t : Nat} {pc : Pc} {s s' : AW} (h : s.daemonStep dev fl t pc = some s') :
    s'.caller = s.caller ∧ s'.wasRunning = s.wasRunning ∧ Pc.active pc = true ∧ ∃ pc', s'.threads = s.threads.set t pc' ∧ pc' ≠ .notStarted ∧
      ((s'.thread = s.thread ∧ s'.running = s.running ∧ pc ≠ .drop2 ∧ pc' ≠ .drop2) ∨
       (s'.thread = s.thread ∧ s'.running = false ∧ pc = .drop1 ∧ pc' = .drop2) ∨
       (s'.thread = none ∧ s'.running = s.running ∧ pc = .drop2 ∧ pc' = .finished .returned)) := by
  unfold daemonStep at h
  split at h
  case h_6 =>
    cases h
    exact ⟨rfl, rfl, rfl, _, rfl, by simp, Or.inr (Or.inl ⟨rfl, rfl, rfl, rfl⟩)⟩
  case h_7 =>
    cases h
    exact ⟨rfl, rfl, rfl, _, rfl, by simp, Or.inr (Or.inr ⟨rfl, rfl, rfl, rfl⟩)⟩
  all_goals repeat' split at h
  all_goals first
    | (cases h; done)
    | (cases h; exact ⟨rfl, rfl, rfl, _, rfl, by simp, Or.inl ⟨rfl, rfl, by simp, by simp⟩⟩)

/-- Calls made by a callback on the thread that the attribute names. -/
theorem cbCall_ctl {dev : Device} {t : Nat} {op : AOp} {s s' : AW} (ht : s.thread = some t) (h : s.cbCall dev t op = some s') :
    s'.caller = s.caller ∧ s'.threads = s.threads ∧ s'.thread = s.thread ∧ (s'.running = s.running ∨ s'.running = false) := by
  have hst : ∀ x : AW, x.cbStart = x ∨ x.thread = none := by
    intro x; unfold cbStart; split
    · next h => exact Or.inr h.2.2
    · exact Or.inl rfl
  have hss : s.cbStart = s := by
    rcases hst s with h | h
    · exact h
    · rw [ht] at h; cases h
  have hstop : ∀ x : AW, x.thread = some t → x.cbStop t = some { x with running := false } := by
    intro x hx; unfold cbStop; rw [hx]; simp
  have hm := doModify_ctl op s
  unfold cbCall at h
  cases op <;> simp only [hss] at h
  case start => cases h; simp
  case stop => rw [hstop s ht] at h; cases h; simp
  case enter => rw [hstop { s with wasRunning := s.running } ht] at h; cases h; simp
  case exit => simp at h; subst h; simp
  case close => rw [if_neg (by simp [ht]), hstop s ht] at h; cases h; simp
  case query => cases h; simp
  case lowPower => cases h; simp
  case normalPower => cases h; simp
  all_goals
    cases h
    split
    · simp
    · exact ⟨hm.2.2.2.1, hm.2.1, hm.1, Or.inl hm.2.2.1⟩

/-! ## the basic invariant -/

/-- What the user's thread knows at each point. -/
def CallerInv (s : AW) : Prop :=
  match s.caller with
  | .busy _ .startRun => s.thread = none
  | .busy _ .startNew => s.thread = none
  | .busy _ .startGo => ∃ t : Nat, s.thread = some t ∧ s.threads[t]? = some Pc.notStarted
  | .busy _ .stopRead => s.running = false
  | .busy _ (.join t) => s.running = false ∧ (s.thread = some t ∨ s.thread = none) ∧ t < s.threads.length
  | .busy _ .closeObd => s.thread = none
  | .busy _ .stopEnd => s.running = false ∧ ∀ t : Nat, s.thread = some t → s.over t = true
  | _ => True

structure Inv (s : AW) : Prop where
  act : ∀ (t : Nat) (pc : Pc), s.threads[t]? = some pc → Pc.active pc = true → s.thread = some t
  fresh : ∀ t : Nat, s.threads[t]? = some Pc.notStarted → s.thread = some t ∧ ∃ op, s.caller = .busy op .startGo
  caller : CallerInv s
  run : s.running = true → s.thread ≠ none ∨ ∃ op, s.caller = .busy op .startNew
  drop : ∀ t : Nat, s.threads[t]? = some Pc.drop2 → s.running = false
  bound : ∀ t : Nat, s.thread = some t → t < s.threads.length

theorem inv_init (o : OW) : Inv { obd := o } where
  act := by simp
  fresh := by simp
  caller := trivial
  run := by simp
  drop := by simp
  bound := by simp

theorem set_get {l : List Pc} {t : Nat} {pc : Pc} {t' : Nat} {x : Pc} (h : (l.set t pc)[t']? = some x) :
    (t' = t ∧ x = pc) ∨ (t' ≠ t ∧ l[t']? = some x) := by
  rw [List.getElem?_set] at h
  split at h
  · next e =>
    subst e
    split at h
    · left; simp at h; exact ⟨rfl, h.symm⟩
    · cases h
  · next e => right; exact ⟨fun h => e h.symm, h⟩

/-- Steps that keep the control attributes and change one thread. -/
theorem inv_daemon {s s' : AW} {t : Nat} {pc pc' : Pc} (hI : Inv s) (hpc : s.threads[t]? = some pc) (ha : Pc.active pc = true)
    (hc : s'.caller = s.caller) (hth : s'.threads = s.threads.set t pc') (hns : pc' ≠ .notStarted)
    (h : (s'.thread = s.thread ∧ s'.running = s.running ∧ pc ≠ .drop2 ∧ pc' ≠ .drop2) ∨
       (s'.thread = s.thread ∧ s'.running = false ∧ pc = .drop1 ∧ pc' = .drop2) ∨
       (s'.thread = none ∧ s'.running = s.running ∧ pc = .drop2 ∧ pc' = .finished .returned)) : Inv s' := by
  have hst := hI.act t pc hpc ha
  have hnostart : ∀ op, s.caller ≠ .busy op .startGo := by
    intro op ho
    have h1 := hI.caller
    unfold CallerInv at h1
    rw [ho] at h1
    obtain ⟨t', h2, h3⟩ := h1
    rw [hst] at h2; cases h2
    rw [hpc] at h3; cases h3
    cases ha
  have hnonew : ∀ op, s.caller ≠ .busy op .startNew ∧ s.caller ≠ .busy op .startRun := by
    intro op
    constructor <;> intro ho
    all_goals
      have h1 := hI.caller
      unfold CallerInv at h1
      rw [ho] at h1
      simp only at h1
      rw [hst] at h1; cases h1
  have hnoend : ∀ op, s.caller ≠ .busy op .stopEnd := by
    intro op ho
    have h1 := hI.caller
    unfold CallerInv at h1
    rw [ho] at h1
    have h2 := h1.2 t hst
    unfold over at h2
    rw [hpc] at h2
    cases pc <;> first | (cases h2; done) | (cases ha; done)
  have hact : ∀ t1 pc1, s'.threads[t1]? = some pc1 → Pc.active pc1 = true → t1 = t ∧ pc1 = pc' := by
    intro t1 pc1 h1 h2
    rw [hth] at h1
    rcases set_get h1 with h1 | ⟨h1, h3⟩
    · exact h1
    · have := hI.act t1 pc1 h3 h2
      rw [hst] at this; cases this; exact absurd rfl h1
  have hrun : s'.running = true → s.running = true := by
    intro hr
    rcases h with h | h | h
    · rw [← h.2.1]; exact hr
    · rw [h.2.1] at hr; cases hr
    · rw [← h.2.1]; exact hr
  constructor
  · intro t1 pc1 h1 h2
    obtain ⟨rfl, rfl⟩ := hact t1 pc1 h1 h2
    rcases h with h | h | h
    · rw [h.1]; exact hst
    · rw [h.1]; exact hst
    · rw [h.2.2.2] at h2; cases h2
  · intro t1 h1
    rw [hth] at h1
    rcases set_get h1 with ⟨-, h1⟩ | ⟨h1, h3⟩
    · exact absurd h1.symm hns
    · obtain ⟨-, op, h5⟩ := hI.fresh t1 h3
      exact absurd h5 (hnostart op)
  · have h1 := hI.caller
    have hthr : s'.thread = s.thread ∨ s'.thread = none := by
      rcases h with h | h | h
      · exact Or.inl h.1
      · exact Or.inl h.1
      · exact Or.inr h.1
    have hrf : s.running = false → s'.running = false := by
      intro hr
      cases hr' : s'.running with
      | false => rfl
      | true => rw [hrun hr'] at hr; cases hr
    unfold CallerInv at h1 ⊢
    rw [hc]
    cases hca : s.caller with
    | idle => trivial
    | busy op cp =>
      rw [hca] at h1
      cases cp <;> simp only at h1 ⊢
      case startRun => rcases hthr with h2 | h2 <;> rw [h2] <;> first | exact h1 | rfl
      case startNew => rcases hthr with h2 | h2 <;> rw [h2] <;> first | exact h1 | rfl
      case startGo => exact absurd hca (hnostart op)
      case stopRead => exact hrf h1
      case join t1 =>
        refine ⟨hrf h1.1, ?_, by rw [hth, List.length_set]; exact h1.2.2⟩
        rcases hthr with h2 | h2 <;> rw [h2]
        · exact h1.2.1
        · exact Or.inr rfl
      case stopEnd => exact absurd hca (hnoend op)
      case closeObd => rw [hst] at h1; cases h1
  · intro hr
    rcases h with h | h | h
    · left; rw [h.1, hst]; simp
    · rw [h.2.1] at hr; cases hr
    · have := hI.drop t (by rw [hpc, h.2.2.1])
      rw [hrun hr] at this; cases this
  · intro t1 h1
    obtain ⟨rfl, h2⟩ := hact t1 _ h1 rfl
    rcases h with h | h | h
    · exact absurd h2.symm h.2.2.2
    · exact h.2.1
    · rw [h.2.2.2] at h2; cases h2
  · intro t1 h1
    rw [hth, List.length_set]
    apply hI.bound
    rcases h with h | h | h
    · rw [← h.1]; exact h1
    · rw [← h.1]; exact h1
    · rw [h.1] at h1; cases h1

theorem inv_cb {s s' : AW} {t : Nat} {it : Iter} {r : Response} {l i : Nat} (hI : Inv s) (hpc : s.threads[t]? = some (.inside it r l i))
    (hc : s'.caller = s.caller) (hth : s'.threads = s.threads) (htd : s'.thread = s.thread) (hr : s'.running = s.running ∨ s'.running = false) : Inv s' := by
  have hst := hI.act t _ hpc rfl
  have hrf : s.running = false → s'.running = false := by
    intro h; rcases hr with hr | hr
    · rw [hr]; exact h
    · exact hr
  have hrun : s'.running = true → s.running = true := by
    intro h
    cases h2 : s.running with
    | true => rfl
    | false => rw [hrf h2] at h; cases h
  constructor
  · intro t1 pc h1 h2; rw [htd]; exact hI.act t1 pc (by rw [← hth]; exact h1) h2
  · intro t1 h1; rw [htd, hc]; exact hI.fresh t1 (by rw [← hth]; exact h1)
  · have h1 := hI.caller
    unfold CallerInv at h1 ⊢
    unfold over at h1 ⊢
    rw [hc, htd, hth]
    split <;> split at h1 <;> simp_all
  · intro h; rw [htd, hc]; exact hI.run (hrun h)
  · intro t1 h1; exact hrf (hI.drop t1 (by rw [← hth]; exact h1))
  · intro t1 h1; rw [hth]; exact hI.bound t1 (by rw [← htd]; exact h1)

/-- Steps of the user's thread that only move it. -/
theorem inv_move {s s' : AW} (hI : Inv s) (htd : s'.thread = s.thread) (hth : s'.threads = s.threads) (hr : s'.running = s.running)
    (h1 : ∀ op, s.caller ≠ .busy op .startGo) (h2 : ∀ op, s.caller ≠ .busy op .startNew) (hc : CallerInv s') : Inv s' where
  act := by intro t pc; rw [hth, htd]; exact hI.act t pc
  fresh := by
    intro t h; rw [hth] at h
    obtain ⟨-, op, h3⟩ := hI.fresh t h
    exact absurd h3 (h1 op)
  caller := hc
  run := by
    intro h; rw [hr] at h; rw [htd]
    rcases hI.run h with h | ⟨op, h⟩
    · exact Or.inl h
    · exact absurd h (h2 op)
  drop := by intro t; rw [hth, hr]; exact hI.drop t
  bound := by intro t; rw [hth, htd]; exact hI.bound t

theorem noactive {s : AW} (hI : Inv s) (h : s.thread = none) : ∀ (t : Nat) (pc : Pc), s.threads[t]? = some pc → Pc.active pc = false := by
  intro t pc h1
  cases h2 : Pc.active pc with
  | false => rfl
  | true => have := hI.act t pc h1 h2; rw [h] at this; cases this

theorem callerInv_idle {s : AW} (h : s.caller = .idle) : CallerInv s := by unfold CallerInv; rw [h]; trivial

theorem afterStop_caller (op : AOp) (s : AW) : ((s.afterStop op).caller = .idle ∨ (s.afterStop op).caller = .busy op .closeObd) ∧
    (s.afterStop op).thread = s.thread ∧ (s.afterStop op).threads = s.threads ∧ (s.afterStop op).running = s.running ∧
    (s.afterStop op).obd = s.obd ∧ (s.afterStop op).commands = s.commands ∧ (s.afterStop op).callbacks = s.callbacks ∧
    (s.afterStop op).dictId = s.dictId ∧ (s.afterStop op).wasRunning = s.wasRunning := by
  unfold afterStop
  split
  · simp [goto, callbacks, list]
  · simp [ret, emit, callbacks, list]

theorem callerInv_after (op : AOp) (s : AW) (hn : s.thread = none) : CallerInv (s.afterStop op) := by
  rcases (afterStop_caller op s).1 with h | h
  · exact callerInv_idle h
  · unfold CallerInv; rw [h]; simp only; rw [(afterStop_caller op s).2.1]; exact hn

theorem inv_caller {dev : Device} {op : AOp} {pc : CPc} {s s' : AW} (hI : Inv s) (hc : s.caller = .busy op pc)
    (h : s.callerStep dev op pc = some s') : Inv s' := by
  have hCI := hI.caller
  unfold CallerInv at hCI
  rw [hc] at hCI
  have hmv : ∀ x : AW, x.thread = s.thread → x.threads = s.threads → x.running = s.running → pc ≠ .startGo → pc ≠ .startNew → CallerInv x → Inv x := by
    intro x h1 h2 h3 h4 h5 h6
    refine inv_move hI h1 h2 h3 ?_ ?_ h6
    · intro op' h; rw [hc] at h; cases h; exact h4 rfl
    · intro op' h; rw [hc] at h; cases h; exact h5 rfl
  have hfresh : pc ≠ .startGo → ∀ t : Nat, s.threads[t]? ≠ some Pc.notStarted := by
    intro h1 t h2
    obtain ⟨-, op', h3⟩ := hI.fresh t h2
    rw [hc] at h3; cases h3; exact h1 rfl
  unfold callerStep at h
  cases pc <;> simp only [Option.some.injEq] at h hCI
  case startConn =>
    subst h; split
    · exact hmv _ rfl rfl rfl (by simp) (by simp) (by simp [CallerInv, goto])
    · exact hmv _ rfl rfl rfl (by simp) (by simp) (callerInv_idle rfl)
  case startLen =>
    subst h; split
    · exact hmv _ rfl rfl rfl (by simp) (by simp) (callerInv_idle rfl)
    · exact hmv _ rfl rfl rfl (by simp) (by simp) (by simp [CallerInv, goto])
  case startNone =>
    subst h; split
    · next h => exact hmv _ rfl rfl rfl (by simp) (by simp) (by simpa [CallerInv, goto] using h)
    · exact hmv _ rfl rfl rfl (by simp) (by simp) (callerInv_idle rfl)
  case startRun =>
    subst h
    have hna := noactive hI hCI
    constructor
    · exact hI.act
    · intro t h; exact absurd h (hfresh (by simp) t)
    · simpa [CallerInv, goto] using hCI
    · intro _; exact Or.inr ⟨op, rfl⟩
    · intro t h; have := hna t _ h; cases this
    · exact hI.bound
  case startNew =>
    subst h
    have hna := noactive hI hCI
    have key : ∀ (t : Nat) (x : Pc), (s.threads ++ [Pc.notStarted])[t]? = some x → (s.threads[t]? = some x) ∨ (t = s.threads.length ∧ x = .notStarted) := by
      intro t x h
      rw [List.getElem?_append] at h
      split at h
      · exact Or.inl h
      · next h2 =>
        right
        have : t - s.threads.length < 1 := by
          by_contra h3
          rw [List.getElem?_eq_none (by simp; omega)] at h; cases h
        have e : t - s.threads.length = 0 := by omega
        rw [e] at h; simp at h
        exact ⟨by omega, h.symm⟩
    constructor
    · intro t pc h1 h2
      rcases key t pc h1 with h3 | ⟨-, h3⟩
      · rw [hna t pc h3] at h2; cases h2
      · subst h3; cases h2
    · intro t h1
      rcases key t _ h1 with h3 | ⟨h3, -⟩
      · exact absurd h3 (hfresh (by simp) t)
      · subst h3; exact ⟨rfl, op, rfl⟩
    · simp only [CallerInv, goto]
      exact ⟨s.threads.length, rfl, by simp⟩
    · intro _; left; simp [goto]
    · intro t h1
      rcases key t _ h1 with h3 | ⟨-, h3⟩
      · exact hI.drop t h3
      · cases h3
    · intro t h1
      simp only [goto, Option.some.injEq] at h1 ⊢
      subst h1; simp
  case startGo =>
    obtain ⟨t, h1, h2⟩ := hCI
    rw [h1] at h
    simp only [Option.some.injEq] at h
    subst h
    constructor
    · intro t1 pc h3 h4
      rcases set_get h3 with ⟨h5, -⟩ | ⟨-, h5⟩
      · rw [h5]; exact h1
      · exact hI.act t1 pc h5 h4
    · intro t1 h3
      rcases set_get h3 with ⟨-, h5⟩ | ⟨h5, h6⟩
      · cases h5
      · have := (hI.fresh t1 h6).1
        rw [h1] at this; cases this; exact absurd rfl h5
    · exact callerInv_idle rfl
    · intro _; left; show s.thread ≠ none; rw [h1]; simp
    · intro t1 h3
      rcases set_get h3 with ⟨-, h5⟩ | ⟨-, h5⟩
      · cases h5
      · exact hI.drop t1 h5
    · intro t1 h3
      show t1 < (s.threads.set t .test).length
      rw [List.length_set]; exact hI.bound t1 h3
  case stopNone =>
    subst h; split
    · next hn =>
      obtain ⟨-, h1, h2, h3, -⟩ := afterStop_caller op s
      exact hmv _ h1 h2 h3 (by simp) (by simp) (callerInv_after op s hn)
    · exact hmv _ rfl rfl rfl (by simp) (by simp) (by simp [CallerInv, goto])
  case stopRun =>
    subst h
    constructor
    · exact hI.act
    · intro t h; exact absurd h (hfresh (by simp) t)
    · simp [CallerInv, goto]
    · intro h; cases h
    · intro t _; rfl
    · exact hI.bound
  case stopRead =>
    cases ht : s.thread with
    | none =>
      rw [ht] at h; simp only [Option.some.injEq] at h; subst h
      exact hmv _ rfl rfl rfl (by simp) (by simp) (callerInv_idle rfl)
    | some t =>
      rw [ht] at h; simp only [Option.some.injEq] at h; subst h
      exact hmv _ rfl rfl rfl (by simp) (by simp) (by simpa [CallerInv, goto, hCI, ht] using hI.bound t ht)
  case join t =>
    split at h
    · next h1 =>
      simp only [Option.some.injEq] at h; subst h
      refine hmv _ rfl rfl rfl (by simp) (by simp) ?_
      simp only [CallerInv, goto]
      refine ⟨hCI.1, ?_⟩
      intro t' h2
      rcases hCI.2.1 with h3 | h3
      · rw [h3] at h2; cases h2; exact h1
      · rw [h3] at h2; cases h2
    · cases h
  case stopEnd =>
    subst h
    obtain ⟨-, h1, h2, h3, -⟩ := afterStop_caller op { s with thread := none }
    constructor
    · intro t pc h4 h5
      rw [h2] at h4
      have h6 := hI.act t pc h4 h5
      have h7 := hCI.2 t h6
      unfold over at h7
      have h8 : s.threads[t]? = some pc := h4
      rw [h8] at h7
      cases pc <;> first | (cases h7; done) | (cases h5; done)
    · intro t h; rw [h2] at h; exact absurd h (hfresh (by simp) t)
    · exact callerInv_after _ _ rfl
    · intro h; rw [h3] at h
      have h : s.running = true := h
      rw [hCI.1] at h; cases h
    · intro t _; rw [h3]; exact hCI.1
    · intro t h; rw [h1] at h; cases h
  case enter =>
    subst h
    exact hmv _ rfl rfl rfl (by simp) (by simp) (by simp [CallerInv, goto])
  case exit =>
    subst h; split
    · exact hmv _ rfl rfl rfl (by simp) (by simp) (by simp [CallerInv, goto])
    · exact hmv _ rfl rfl rfl (by simp) (by simp) (callerInv_idle rfl)
  case closeObd =>
    split at h <;> simp only [Option.some.injEq] at h <;> subst h
    all_goals exact hmv _ rfl rfl rfl (by simp) (by simp) (callerInv_idle rfl)
  case gate =>
    subst h; split
    · exact hmv _ rfl rfl rfl (by simp) (by simp) (callerInv_idle rfl)
    · exact hmv _ rfl rfl rfl (by simp) (by simp) (by simp [CallerInv, goto])
  case modify =>
    have hm := doModify_ctl op s
    cases hd : s.doModify op with
    | mk x s1 =>
      rw [hd] at hm h
      cases x <;> simp only [Option.some.injEq] at h <;> subst h
      all_goals exact hmv _ hm.1 hm.2.1 hm.2.2.1 (by simp) (by simp) (callerInv_idle rfl)
  case ask =>
    cases op <;> simp only [Option.some.injEq] at h <;> subst h
    all_goals exact hmv _ rfl rfl rfl (by simp) (by simp) (callerInv_idle rfl)
  case power =>
    split at h <;> simp only [Option.some.injEq] at h <;> subst h
    all_goals exact hmv _ rfl rfl rfl (by simp) (by simp) (callerInv_idle rfl)

theorem inv_step {dev : Device} {fl : ElmM.FloatFn} {s s' : AW} {a : Action} (hI : Inv s) (h : s.step dev fl a = some s') : Inv s' := by
  have hh := h
  unfold step at h
  cases a with
  | reorder t rest =>
    obtain ⟨it, it', hp, -, -, rfl, -⟩ := reorder_eq hh
    exact inv_daemon hI hp rfl rfl rfl (by simp) (Or.inl ⟨rfl, rfl, by simp, by simp⟩)
  | call op =>
    simp only at h
    cases hc : s.caller with
    | busy o p => rw [hc] at h; cases h
    | idle =>
      rw [hc] at h; simp only [Option.some.injEq] at h; subst h
      refine inv_move hI rfl rfl rfl (by simp [hc]) (by simp [hc]) ?_
      cases op <;> simp [CallerInv, goto, emit, entry]
  | caller =>
    simp only at h
    cases hc : s.caller with
    | idle => rw [hc] at h; cases h
    | busy o p => rw [hc] at h; exact inv_caller hI hc h
  | daemon t =>
    simp only at h
    cases hp : s.threads[t]? with
    | none => rw [hp] at h; cases h
    | some pc =>
      rw [hp] at h
      obtain ⟨h1, -, h3, pc', h4, h5, h6⟩ := daemonStep_ctl h
      exact inv_daemon hI hp h3 h1 h4 h5 h6
  | cb t op =>
    simp only at h
    split at h
    · next it r rest hp =>
      obtain ⟨h1, h2, h3, h4⟩ := cbCall_ctl (hI.act t _ hp rfl) h
      exact inv_cb hI hp h1 h2 h3 h4
    · cases h
  | cbEnd t ok =>
    simp only at h
    split at h
    · next it r rest hp =>
      split at h <;> simp only [Option.some.injEq] at h <;> subst h
      · exact inv_daemon hI hp rfl rfl rfl (by simp) (Or.inl ⟨rfl, rfl, by simp, by simp⟩)
      · exact inv_daemon hI hp rfl rfl rfl (by simp) (Or.inl ⟨rfl, rfl, by simp, by simp⟩)
    · cases h

theorem areach_inv {dev : Device} {fl : Str → Option PyFloat} {ok : AW → Action → Prop} {s : AW} (h : AReach dev fl ok s) : Inv s := by
  induction h with
  | init a o h => exact inv_init o
  | step s a s' _ _ hs ih => exact inv_step ih hs

/-! ## the log -/

theorem doWatch_log (c : OBDCommand) (cb : Option Nat) (force : Bool) (s : AW) :
    (s.doWatch c cb force).2.log = s.log ∨ (s.doWatch c cb force).2.log = s.log ++ [.did (.watch c cb force)] := by
  unfold doWatch
  split
  · simp
  · simp
  · have h : ∀ x : AW, x = (if s.commands.mem c.key then s
      else { s with commands := s.commands.set c.key (c, {}) }.newList c.key) → x.log = s.log := by
      intro x hx; subst hx; split <;> simp [newList]
    generalize (if s.commands.mem c.key then s
      else { s with commands := s.commands.set c.key (c, {}) }.newList c.key) = x at h
    have h := h x rfl
    simp only
    split
    · right; simp [emit, h]
    · split
      · left; exact h
      · split <;> (right; simp [emit, setList, h])

theorem doModify_log (op : AOp) (s : AW) : (s.doModify op).2.log = s.log ∨ (s.doModify op).2.log = s.log ++ [.did op] := by
  unfold doModify
  split
  · exact doWatch_log ..
  · unfold doUnwatch
    repeat' split
    all_goals simp [emit, setList]
  · simp [doUnwatchAll, emit]
  · simp

/-- Events of a method before it returns. -/
def Mid (op : AOp) : Ev → Prop
  | .did o => o = op
  | .answer _ _ => True
  | .started => True
  | _ => False

/-- What a step of the user's thread records. -/
theorem callerStep_log {dev : Device} {op : AOp} {pc : CPc} {s s' : AW} (h : s.callerStep dev op pc = some s') :
    ∃ pre fin, s'.log = s.log ++ (pre ++ fin) ∧ (∀ e ∈ pre, Mid op e) ∧
      ((fin = [] ∧ pre = [] ∧ ∃ pc', s'.caller = .busy op pc') ∨
       (s'.caller = .idle ∧ (fin = [.ret op] ∨ ∃ x, fin = [.raised op x] ∧
          ((pc = .stopRead ∧ s.thread = none) ∨ (pc = .startGo ∧ s.thread = none) ∨ pc = .closeObd ∨ pc = .modify ∨ pc = .power)))) := by
  have hgo : ∀ (x : AW) (p : CPc), x.log = s.log → ∃ pre fin, (x.goto op p).log = s.log ++ (pre ++ fin) ∧ (∀ e ∈ pre, Mid op e) ∧
      ((fin = [] ∧ pre = [] ∧ ∃ pc', (x.goto op p).caller = .busy op pc') ∨
       ((x.goto op p).caller = .idle ∧ (fin = [.ret op] ∨ ∃ x, fin = [.raised op x] ∧
          ((pc = .stopRead ∧ s.thread = none) ∨ (pc = .startGo ∧ s.thread = none) ∨ pc = .closeObd ∨ pc = .modify ∨ pc = .power)))) := by
    intro x p hx
    exact ⟨[], [], by simp [goto, hx], by simp, Or.inl ⟨rfl, rfl, _, rfl⟩⟩
  have hret : ∀ (x : AW) (pre : List Ev), x.log = s.log ++ pre → (∀ e ∈ pre, Mid op e) →
      ∃ pre fin, (x.ret op).log = s.log ++ (pre ++ fin) ∧ (∀ e ∈ pre, Mid op e) ∧
      ((fin = [] ∧ pre = [] ∧ ∃ pc', (x.ret op).caller = .busy op pc') ∨
       ((x.ret op).caller = .idle ∧ (fin = [.ret op] ∨ ∃ x, fin = [.raised op x] ∧
          ((pc = .stopRead ∧ s.thread = none) ∨ (pc = .startGo ∧ s.thread = none) ∨ pc = .closeObd ∨ pc = .modify ∨ pc = .power)))) := by
    intro x pre hx hp
    exact ⟨pre, [.ret op], by simp [ret, emit, hx], hp, Or.inr ⟨rfl, Or.inl rfl⟩⟩
  have hra : ∀ (x : AW) (y : Exc) (pre : List Ev), x.log = s.log ++ pre → (∀ e ∈ pre, Mid op e) →
      ((pc = .stopRead ∧ s.thread = none) ∨ (pc = .startGo ∧ s.thread = none) ∨ pc = .closeObd ∨ pc = .modify ∨ pc = .power) →
      ∃ pre fin, (x.raise op y).log = s.log ++ (pre ++ fin) ∧ (∀ e ∈ pre, Mid op e) ∧
      ((fin = [] ∧ pre = [] ∧ ∃ pc', (x.raise op y).caller = .busy op pc') ∨
       ((x.raise op y).caller = .idle ∧ (fin = [.ret op] ∨ ∃ x, fin = [.raised op x] ∧
          ((pc = .stopRead ∧ s.thread = none) ∨ (pc = .startGo ∧ s.thread = none) ∨ pc = .closeObd ∨ pc = .modify ∨ pc = .power)))) := by
    intro x y pre hx hp hk
    exact ⟨pre, [.raised op y], by simp [raise, emit, hx], hp, Or.inr ⟨rfl, Or.inr ⟨y, rfl, hk⟩⟩⟩
  have hafter : ∀ x : AW, x.log = s.log → ∃ pre fin, (x.afterStop op).log = s.log ++ (pre ++ fin) ∧ (∀ e ∈ pre, Mid op e) ∧
      ((fin = [] ∧ pre = [] ∧ ∃ pc', (x.afterStop op).caller = .busy op pc') ∨
       ((x.afterStop op).caller = .idle ∧ (fin = [.ret op] ∨ ∃ x, fin = [.raised op x] ∧
          ((pc = .stopRead ∧ s.thread = none) ∨ (pc = .startGo ∧ s.thread = none) ∨ pc = .closeObd ∨ pc = .modify ∨ pc = .power)))) := by
    intro x hx
    unfold afterStop
    split
    · exact hgo _ _ hx
    · exact hret _ [] (by simp [hx]) (by simp)
  have hret0 := fun (x : AW) (hx : x.log = s.log) => hret x [] (by simp [hx]) (by simp)
  cases pc <;> simp only [callerStep] at h
  case startConn => cases h; split; exacts [hgo _ _ rfl, hret0 _ rfl]
  case startLen => cases h; split; exacts [hret0 _ rfl, hgo _ _ rfl]
  case startNone => cases h; split; exacts [hgo _ _ rfl, hret0 _ rfl]
  case startRun => cases h; exact hgo _ _ rfl
  case startNew => cases h; exact hgo _ _ rfl
  case startGo =>
    cases ht : s.thread with
    | none => rw [ht] at h; cases h; have q := hra s .attributeError [] (List.append_nil _).symm (by simp) (Or.inr (Or.inl ⟨rfl, ht⟩)); rw [ht] at q; exact q
    | some t => rw [ht] at h; cases h; rw [← ht]; exact hret ((s.setPc t .test).emit .started) [.started] rfl (by simp [Mid])
  case stopNone => cases h; split; exacts [hafter _ rfl, hgo _ _ rfl]
  case stopRun => cases h; exact hgo _ _ rfl
  case stopRead =>
    cases ht : s.thread with
    | none => rw [ht] at h; cases h; have q := hra s .attributeError [] (List.append_nil _).symm (by simp) (Or.inl ⟨rfl, ht⟩); rw [ht] at q; exact q
    | some t => rw [ht] at h; cases h; rw [← ht]; exact hgo s (.join t) rfl
  case join => split at h <;> cases h; exact hgo _ _ rfl
  case stopEnd => cases h; exact hafter _ rfl
  case enter => cases h; exact hgo _ _ rfl
  case exit => cases h; split; exacts [hgo _ _ rfl, hret0 _ rfl]
  case closeObd =>
    split at h <;> cases h
    · exact hret0 _ rfl
    · exact hra _ _ [] (by simp) (by simp) (by simp)
  case gate => cases h; split; exacts [hret0 _ rfl, hgo _ _ rfl]
  case modify =>
    have hm := doModify_log op s
    cases hd : s.doModify op with
    | mk x s1 =>
      rw [hd] at hm h
      cases x <;> simp only [Option.some.injEq] at h <;> subst h
      · rcases hm with hm | hm
        · exact hra _ _ [] (by simpa using hm) (by simp) (by simp)
        · exact hra _ _ _ hm (by simp [Mid]) (by simp)
      · rcases hm with hm | hm
        · exact hret0 _ hm
        · exact hret _ _ hm (by simp [Mid])
  case ask =>
    cases op <;> simp only [Option.some.injEq] at h <;> subst h
    case query c => exact hret _ [.answer c (s.lookup c)] rfl (by simp [Mid])
    all_goals exact hret0 _ rfl
  case power =>
    split at h <;> cases h
    · exact hret0 _ rfl
    · exact hra _ _ [] (by simp) (by simp) (by simp)

/-! ## methods and their positions -/

def belongs : AOp → CPc → Bool
  | .start, .startConn | .start, .startLen | .start, .startNone | .start, .startRun | .start, .startNew | .start, .startGo => true
  | .exit, .exit | .exit, .startConn | .exit, .startLen | .exit, .startNone | .exit, .startRun | .exit, .startNew | .exit, .startGo => true
  | .stop, .stopNone | .stop, .stopRun | .stop, .stopRead | .stop, .join _ | .stop, .stopEnd => true
  | .enter, .enter | .enter, .stopNone | .enter, .stopRun | .enter, .stopRead | .enter, .join _ | .enter, .stopEnd => true
  | .close, .stopNone | .close, .stopRun | .close, .stopRead | .close, .join _ | .close, .stopEnd | .close, .closeObd => true
  | .watch .., .gate | .watch .., .modify | .unwatch .., .gate | .unwatch .., .modify | .unwatchAll, .gate | .unwatchAll, .modify => true
  | .query _, .ask => true
  | .lowPower, .power | .normalPower, .power => true
  | _, _ => false

/-- The user's thread is at a position of the method it is in. -/
def Placed (s : AW) : Prop := ∀ op pc, s.caller = .busy op pc → belongs op pc = true

theorem placed_caller {dev : Device} {op : AOp} {pc : CPc} {s s' : AW} (hb : belongs op pc = true)
    (h : s.callerStep dev op pc = some s') : Placed s' := by
  have hi : ∀ x : AW, x.caller = .idle → Placed x := by intro x hx op pc h; rw [hx] at h; cases h
  have hg : ∀ (x : AW) (p : CPc), belongs op p = true → Placed (x.goto op p) := by
    intro x p hp op' pc' h; cases h; exact hp
  cases pc <;> simp only [callerStep] at h
  case closeObd => split at h <;> cases h <;> exact hi _ rfl
  case modify => split at h <;> cases h <;> exact hi _ rfl
  case power => split at h <;> cases h <;> exact hi _ rfl
  case ask => cases op <;> simp only [Option.some.injEq] at h <;> subst h <;> exact hi _ rfl
  case startGo => split at h <;> cases h <;> exact hi _ rfl
  case stopRead =>
    split at h <;> cases h
    · exact hi _ rfl
    · apply hg; cases op <;> first | rfl | cases hb
  case join =>
    split at h <;> cases h
    apply hg; cases op <;> first | rfl | cases hb
  case stopEnd =>
    cases h; unfold afterStop; cases op <;> first | (cases hb; done) | exact hi _ rfl | exact hg _ _ rfl
  case stopNone =>
    cases h; split
    · unfold afterStop; cases op <;> first | (cases hb; done) | exact hi _ rfl | exact hg _ _ rfl
    · apply hg; cases op <;> first | rfl | cases hb
  case startRun => cases h; apply hg; cases op <;> first | rfl | cases hb
  case startNew => cases h; apply hg; cases op <;> first | rfl | cases hb
  case stopRun => cases h; apply hg; cases op <;> first | rfl | cases hb
  case enter => cases h; apply hg; cases op <;> first | rfl | cases hb
  all_goals
    cases h
    split
    · first
      | exact hi _ rfl
      | (apply hg; cases op <;> first | rfl | cases hb)
    · first
      | exact hi _ rfl
      | (apply hg; cases op <;> first | rfl | cases hb)

end AW
end Model
