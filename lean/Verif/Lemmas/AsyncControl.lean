import Verif.Lemmas.AsyncPause
/-!
# Calls that start and stop the loop, in any order
-/
namespace Model
open Py Spec
namespace AW

/-- While a thread is named and nobody is stopping it, the loop counts as running. -/
structure Named (s : AW) : Prop where
  thread : s.thread ≠ none → s.running = true ∨ ∃ op pc, s.caller = .busy op pc ∧ (pc = .stopRead ∨ (∃ t, pc = .join t) ∨ pc = .stopEnd)
  new : ∀ op, s.caller = .busy op .startNew → s.running = true

theorem named_caller {dev : Device} {op : AOp} {pc : CPc} {s s' : AW} (hI : Inv s) (hG : GoneInv s) (hg : ¬ ObdM.Gone s.obd) (hc : s.caller = .busy op pc)
    (h : s.callerStep dev op pc = some s') (hN : Named s) : Named s' := by
  have hCI := hI.caller
  unfold CallerInv at hCI
  rw [hc] at hCI
  have hrun' : pc ≠ .stopRead → (∀ t, pc ≠ .join t) → pc ≠ .stopEnd → s.thread ≠ none → s.running = true := by
    intro h1 h2 h3 ht
    rcases hN.thread ht with h | ⟨o, p, h, h4⟩
    · exact h
    · rw [hc] at h; cases h
      rcases h4 with h | ⟨t, h⟩ | h
      exacts [absurd h h1, absurd h (h2 t), absurd h h3]
  have hm := doModify_ctl op s
  cases pc <;> simp only [callerStep] at h
  case startConn =>
    cases h
    split
    all_goals exact ⟨fun ht => Or.inl (hrun' (by simp) (by simp) (by simp) ht), fun o h => by cases h⟩
  case startLen =>
    cases h
    split
    all_goals exact ⟨fun ht => Or.inl (hrun' (by simp) (by simp) (by simp) ht), fun o h => by cases h⟩
  case startNone =>
    cases h
    split
    all_goals exact ⟨fun ht => Or.inl (hrun' (by simp) (by simp) (by simp) ht), fun o h => by cases h⟩
  case startRun => cases h; exact ⟨fun _ => Or.inl rfl, fun _ _ => rfl⟩
  case startNew => cases h; exact ⟨fun _ => Or.inl (hN.new _ hc), fun o h => by cases h⟩
  case startGo =>
    obtain ⟨t, ht, -⟩ := hCI
    rw [ht] at h; cases h
    exact ⟨fun ht => Or.inl (hrun' (by simp) (by simp) (by simp) ht), fun o h => by cases h⟩
  case stopNone =>
    cases h
    split
    · next e =>
      refine ⟨fun ht => ?_, fun o h => ?_⟩
      · exfalso; revert ht; cases op <;> exact fun ht => ht e
      · revert h; cases op <;> (intro h; cases h)
    · exact ⟨fun ht => Or.inl (hrun' (by simp) (by simp) (by simp) ht), fun o h => by cases h⟩
  case stopRun => cases h; exact ⟨fun _ => Or.inr ⟨op, _, rfl, Or.inl rfl⟩, fun o h => by cases h⟩
  case stopRead =>
    cases ht : s.thread with
    | none => exact absurd (hG.call _ _ hc (Or.inr rfl) ht) hg
    | some t =>
      rw [ht] at h; cases h
      exact ⟨fun _ => Or.inr ⟨op, _, rfl, Or.inr (Or.inl ⟨t, rfl⟩)⟩, fun o h => by cases h⟩
  case join t =>
    split at h <;> cases h
    exact ⟨fun _ => Or.inr ⟨op, _, rfl, Or.inr (Or.inr rfl)⟩, fun o h => by cases h⟩
  case stopEnd =>
    cases h
    refine ⟨fun ht => ?_, fun o h => ?_⟩
    · exfalso; revert ht; cases op <;> exact fun ht => ht rfl
    · revert h; cases op <;> (intro h; cases h)
  case enter => cases h; exact ⟨fun ht => Or.inl (hrun' (by simp) (by simp) (by simp) ht), fun o h => by cases h⟩
  case exit =>
    cases h
    split
    all_goals exact ⟨fun ht => Or.inl (hrun' (by simp) (by simp) (by simp) ht), fun o h => by cases h⟩
  case closeObd =>
    split at h <;> cases h
    all_goals exact ⟨fun ht => Or.inl (hrun' (by simp) (by simp) (by simp) ht), fun o h => by cases h⟩
  case gate =>
    cases h
    split
    all_goals exact ⟨fun ht => Or.inl (hrun' (by simp) (by simp) (by simp) ht), fun o h => by cases h⟩
  case modify =>
    cases hd : s.doModify op with
    | mk x s1 =>
      rw [hd] at hm h
      cases x <;> cases h
      all_goals
        refine ⟨fun ht => Or.inl ?_, fun o h => by cases h⟩
        show s1.running = true
        rw [hm.2.2.1]
        exact hrun' (by simp) (by simp) (by simp) (by rw [← hm.1]; exact ht)
  case ask =>
    split at h <;> cases h
    all_goals exact ⟨fun ht => Or.inl (hrun' (by simp) (by simp) (by simp) ht), fun o h => by cases h⟩
  case power =>
    split at h <;> cases h
    all_goals exact ⟨fun ht => Or.inl (hrun' (by simp) (by simp) (by simp) ht), fun o h => by cases h⟩

theorem named_step {dev : Device} {fl : ElmM.FloatFn} {s s' : AW} {a : Action} (hI : Inv s) (hA : AnyInv s) (hB : PoliteInv s) (hG : GoneInv s)
    (hp : politeCallback s a) (hg : ¬ ObdM.Gone s.obd) (h : s.step dev fl a = some s') (hN : Named s) : Named s' := by
  by_cases ha : a = .caller
  · subst ha
    unfold step at h
    cases hc : s.caller with
    | idle => simp only [hc] at h; cases h
    | busy op pc =>
      simp only [hc] at h
      exact named_caller hI hG hg hc h hN
  · by_cases hcall : ∃ op, a = .call op
    · obtain ⟨op, rfl⟩ := hcall
      unfold step at h
      cases hc : s.caller with
      | busy o p => simp only [hc] at h; cases h
      | idle =>
        simp only [hc, Option.some.injEq] at h
        subst h
        refine ⟨fun ht => ?_, fun o h => by cases op <;> cases h⟩
        rcases hN.thread ht with h | ⟨o, p, h, -⟩
        · exact Or.inl h
        · rw [hc] at h; cases h
    · obtain ⟨h1, h2, h3, h4, h5⟩ := thread_step hI hA hB hG hp hg ha (fun op h => hcall ⟨op, h⟩) h
      refine ⟨fun ht => ?_, fun o h => ?_⟩
      · rw [h1, h3]; exact hN.thread (by rw [← h4]; exact ht)
      · rw [h3]; exact hN.new o (by rw [← h1]; exact h)

theorem areach_named {dev : Device} {fl : Str → Option PyFloat} {s : AW} (h : AReach dev fl politeCallback s) (hg : ¬ ObdM.Gone s.obd) : Named s := by
  induction h with
  | init a o h => exact ⟨fun h => absurd rfl h, fun o h => by cases h⟩
  | step s1 a s2 h hok hs ih =>
    have hg1 : ¬ ObdM.Gone s1.obd := fun hx => hg (gone_step hs hx)
    exact named_step (areach_inv h) (areach_any h) (areach_polite h) (areach_gone h) hok hg1 hs (ih hg1)

/-! ### Something stays watched -/

theorem dict_set_ne {κ ν} [DecidableEq κ] (d : Dict κ ν) (k : κ) (v : ν) : d.set k v ≠ [] := by
  cases d with
  | nil => simp [Dict.set]
  | cons e d => unfold Dict.set; split <;> simp

theorem doWatch_ne (c : OBDCommand) (cb : Option Nat) (force : Bool) (s : AW) (hne : s.commands ≠ []) : (s.doWatch c cb force).2.commands ≠ [] := by
  have h1 : (if s.commands.mem c.key then s else { s with commands := s.commands.set c.key (c, {}) }.newList c.key).commands ≠ [] := by
    split
    · exact hne
    · exact dict_set_ne _ _ _
  unfold doWatch
  split
  · exact hne
  · exact hne
  · generalize (if s.commands.mem c.key then s else { s with commands := s.commands.set c.key (c, {}) }.newList c.key) = s1 at h1 ⊢
    cases cb with
    | none => exact h1
    | some k =>
      simp only
      split
      · exact h1
      · split
        · exact h1
        · exact h1

theorem daemon_ne {dev : Device} {fl : ElmM.FloatFn} {t : Nat} {pc : Pc} {s s' : AW} (h : s.daemonStep dev fl t pc = some s') (hne : s.commands ≠ []) :
    s'.commands ≠ [] := by
  unfold daemonStep at h
  repeat' split at h
  all_goals first
    | (cases h; done)
    | (cases h; exact hne)
    | (cases h; exact dict_set_ne _ _ _)

theorem caller_ne {dev : Device} {op : AOp} {pc : CPc} {s s' : AW} (hk : AOp.keeps op = true) (h : s.callerStep dev op pc = some s') (hne : s.commands ≠ []) :
    s'.commands ≠ [] := by
  have hm : (s.doModify op).2.commands ≠ [] := by
    cases op <;> first | (cases hk; done) | skip
    all_goals first
      | exact doWatch_ne _ _ _ _ hne
      | exact hne
  cases pc <;> simp only [callerStep] at h
  case modify =>
    cases hd : s.doModify op with
    | mk x s1 =>
      rw [hd] at hm h
      cases x <;> (cases h; exact hm)
  case stopNone =>
    cases h
    split
    · cases op <;> exact hne
    · exact hne
  case stopEnd => cases h; cases op <;> exact hne
  all_goals repeat' split at h
  all_goals first
    | (cases h; done)
    | (cases h; exact hne)

/-- Positions inside a call; `x` says how things were when it began. -/
def Within (x : Bool × Bool) (op : AOp) (pc : CPc) (s : AW) : Prop :=
  match op with
  | .start => s.wasRunning = x.2 ∧ (pc = .startConn ∨ pc = .startLen ∨ pc = .startNone ∨ pc = .startRun → s.running = x.1) ∧
      (pc = .startNew ∨ pc = .startGo → s.running = true)
  | .stop => s.wasRunning = x.2
  | .enter => (pc = .enter → s.running = x.1 ∧ s.wasRunning = x.2) ∧ (pc ≠ .enter → s.wasRunning = x.1)
  | .exit => s.wasRunning = x.2 ∧ (pc = .exit → s.running = x.1) ∧ (pc ≠ .exit → x.2 = true) ∧
      (pc = .startConn ∨ pc = .startLen ∨ pc = .startNone ∨ pc = .startRun → s.running = false) ∧
      (pc = .startNew ∨ pc = .startGo → s.running = true)
  | _ => s.running = x.1 ∧ s.wasRunning = x.2

/-- After a call. -/
def Done (x : Bool × Bool) (op : AOp) (s : AW) : Prop :=
  (s.caller = .idle ∧ (s.running, s.wasRunning) = switched x op) ∨ ∃ pc, s.caller = .busy op pc ∧ Within x op pc s

theorem mid_caller {dev : Device} {x : Bool × Bool} {op : AOp} {pc : CPc} {s s' : AW} (hI : Inv s) (hG : GoneInv s) (hN : Named s) (hb : belongs op pc = true)
    (hk : AOp.keeps op = true) (hg : ¬ ObdM.Gone s.obd) (hne : s.commands ≠ []) (hc : s.caller = .busy op pc)
    (h : s.callerStep dev op pc = some s') (hM : Within x op pc s) : Done x op s' := by
  have hCI := hI.caller
  unfold CallerInv at hCI
  rw [hc] at hCI
  have hconn : ObdM.isConnected s.obd = true := by
    cases hx : ObdM.isConnected s.obd with
    | true => rfl
    | false => exact absurd hx hg
  have hlen : s.commands.length ≠ 0 := fun h => hne (List.length_eq_zero_iff.1 h)
  have hrun' : pc ≠ .stopRead → (∀ t, pc ≠ .join t) → pc ≠ .stopEnd → s.thread ≠ none → s.running = true := by
    intro h1 h2 h3 ht
    rcases hN.thread ht with h | ⟨o, p, h, h4⟩
    · exact h
    · rw [hc] at h; cases h
      rcases h4 with h | ⟨t, h⟩ | h
      exacts [absurd h h1, absurd h (h2 t), absurd h h3]
  have hstill : s.thread = none → pc ≠ .startNew → s.running = false := by
    intro ht hp
    cases hr : s.running with
    | false => rfl
    | true =>
      rcases hI.run hr with h5 | ⟨o, h5⟩
      · exact absurd ht h5
      · rw [hc] at h5; cases h5; exact absurd rfl hp
  have hm := doModify_ctl op s
  cases op with
  | unwatch c k => cases hk
  | unwatchAll => cases hk
  | close => cases hk
  | start =>
    obtain ⟨hw, h1, h2⟩ := hM
    cases pc <;> first | (cases hb; done) | skip
    all_goals simp only [callerStep, hconn, hlen, if_true, if_false] at h
    · cases h; exact Or.inr ⟨_, rfl, hw, fun _ => h1 (by simp), by simp⟩
    · cases h; exact Or.inr ⟨_, rfl, hw, fun _ => h1 (by simp), by simp⟩
    · split at h <;> cases h
      · exact Or.inr ⟨_, rfl, hw, fun _ => h1 (by simp), by simp⟩
      · next e =>
        refine Or.inl ⟨rfl, ?_⟩
        show (s.running, s.wasRunning) = (true, x.2)
        rw [hw, hrun' (by simp) (by simp) (by simp) e]
    · cases h; exact Or.inr ⟨_, rfl, hw, by simp, fun _ => rfl⟩
    · cases h; exact Or.inr ⟨_, rfl, hw, by simp, fun _ => h2 (by simp)⟩
    · obtain ⟨t, ht, -⟩ := hCI
      rw [ht] at h; cases h
      refine Or.inl ⟨rfl, ?_⟩
      show (s.running, s.wasRunning) = (true, x.2)
      rw [hw, h2 (by simp)]
  | exit =>
    obtain ⟨hw, h0, h1, h2, h3⟩ := hM
    cases pc <;> first | (cases hb; done) | skip
    all_goals simp only [callerStep, hconn, hlen, if_true, if_false] at h
    case exit =>
      cases hr : s.running <;> cases hw' : s.wasRunning <;> simp [hr, hw'] at h <;> cases h
      · refine Or.inl ⟨rfl, ?_⟩
        show (s.running, s.wasRunning) = (x.1 || x.2, x.2)
        rw [← h0 rfl, ← hw, hr, hw']; rfl
      · exact Or.inr ⟨_, rfl, hw, by simp, fun _ => by rw [← hw, hw'], fun _ => hr, by simp⟩
      · refine Or.inl ⟨rfl, ?_⟩
        show (s.running, s.wasRunning) = (x.1 || x.2, x.2)
        rw [← h0 rfl, ← hw, hr, hw']; rfl
      · refine Or.inl ⟨rfl, ?_⟩
        show (s.running, s.wasRunning) = (x.1 || x.2, x.2)
        rw [← h0 rfl, ← hw, hr, hw']; rfl
    · cases h; exact Or.inr ⟨_, rfl, hw, by simp, fun _ => h1 (by simp), fun _ => h2 (by simp), by simp⟩
    · cases h; exact Or.inr ⟨_, rfl, hw, by simp, fun _ => h1 (by simp), fun _ => h2 (by simp), by simp⟩
    · split at h <;> cases h
      · exact Or.inr ⟨_, rfl, hw, by simp, fun _ => h1 (by simp), fun _ => h2 (by simp), by simp⟩
      · next e =>
        have := hrun' (by simp) (by simp) (by simp) e
        rw [h2 (by simp)] at this; cases this
    · cases h; exact Or.inr ⟨_, rfl, hw, by simp, fun _ => h1 (by simp), by simp, fun _ => rfl⟩
    · cases h; exact Or.inr ⟨_, rfl, hw, by simp, fun _ => h1 (by simp), by simp, fun _ => h3 (by simp)⟩
    · obtain ⟨t, ht, -⟩ := hCI
      rw [ht] at h; cases h
      refine Or.inl ⟨rfl, ?_⟩
      show (s.running, s.wasRunning) = (x.1 || x.2, x.2)
      rw [hw, h3 (by simp), h1 (by simp)]; simp
  | stop =>
    cases pc <;> first | (cases hb; done) | skip
    all_goals simp only [callerStep] at h
    · split at h <;> cases h
      · next e =>
        refine Or.inl ⟨rfl, ?_⟩
        show (s.running, s.wasRunning) = (false, x.2)
        rw [hstill e (by simp), show s.wasRunning = x.2 from hM]
      · exact Or.inr ⟨_, rfl, hM⟩
    · cases h; exact Or.inr ⟨_, rfl, hM⟩
    · cases ht : s.thread with
      | none => exact absurd (hG.call _ _ hc (Or.inr rfl) ht) hg
      | some t => rw [ht] at h; cases h; exact Or.inr ⟨_, rfl, hM⟩
    · split at h <;> cases h
      exact Or.inr ⟨_, rfl, hM⟩
    · cases h
      refine Or.inl ⟨rfl, ?_⟩
      show (s.running, s.wasRunning) = (false, x.2)
      rw [hCI.1, show s.wasRunning = x.2 from hM]
  | enter =>
    obtain ⟨h1, h2⟩ := hM
    cases pc <;> first | (cases hb; done) | skip
    all_goals simp only [callerStep] at h
    · split at h <;> cases h
      · next e =>
        refine Or.inl ⟨rfl, ?_⟩
        show (s.running, s.wasRunning) = (false, x.1)
        rw [hstill e (by simp), h2 (by simp)]
      · exact Or.inr ⟨_, rfl, by simp, fun _ => h2 (by simp)⟩
    · cases h; exact Or.inr ⟨_, rfl, by simp, fun _ => h2 (by simp)⟩
    · cases ht : s.thread with
      | none => exact absurd (hG.call _ _ hc (Or.inr rfl) ht) hg
      | some t => rw [ht] at h; cases h; exact Or.inr ⟨_, rfl, by simp, fun _ => h2 (by simp)⟩
    · split at h <;> cases h
      exact Or.inr ⟨_, rfl, by simp, fun _ => h2 (by simp)⟩
    · cases h
      refine Or.inl ⟨rfl, ?_⟩
      show (s.running, s.wasRunning) = (false, x.1)
      rw [hCI.1, h2 (by simp)]
    · cases h; exact Or.inr ⟨_, rfl, by simp, fun _ => (h1 rfl).1⟩
  | watch c k f =>
    obtain ⟨h1, h2⟩ := hM
    cases pc <;> first | (cases hb; done) | skip
    all_goals simp only [callerStep] at h
    · split at h <;> cases h
      · exact Or.inl ⟨rfl, Prod.ext h1 h2⟩
      · exact Or.inr ⟨_, rfl, h1, h2⟩
    · cases hd : s.doModify (.watch c k f) with
      | mk e s1 =>
        rw [hd] at hm h
        cases e <;> (cases h; exact Or.inl ⟨rfl, Prod.ext (hm.2.2.1.trans h1) (hm.2.2.2.2.2.trans h2)⟩)
  | query c =>
    obtain ⟨h1, h2⟩ := hM
    cases pc <;> first | (cases hb; done) | skip
    cases h; exact Or.inl ⟨rfl, Prod.ext h1 h2⟩
  | lowPower =>
    obtain ⟨h1, h2⟩ := hM
    cases pc <;> first | (cases hb; done) | skip
    simp only [callerStep] at h
    split at h <;> (cases h; exact Or.inl ⟨rfl, Prod.ext h1 h2⟩)
  | normalPower =>
    obtain ⟨h1, h2⟩ := hM
    cases pc <;> first | (cases hb; done) | skip
    simp only [callerStep] at h
    split at h <;> (cases h; exact Or.inl ⟨rfl, Prod.ext h1 h2⟩)

theorem mid_same {x : Bool × Bool} {op : AOp} {pc : CPc} {s s' : AW} (h1 : s'.running = s.running) (h2 : s'.wasRunning = s.wasRunning) (h : Within x op pc s) :
    Within x op pc s' := by
  cases op <;> simp only [Within, h1, h2] at h ⊢ <;> exact h

/-- How things are after the calls of a schedule, the last of which may be under way. -/
def After (x : Bool × Bool) (cs : List AOp) (s : AW) : Prop :=
  (s.caller = .idle ∧ (s.running, s.wasRunning) = cs.foldl switched x) ∨
  ∃ pre op pc, cs = pre ++ [op] ∧ s.caller = .busy op pc ∧ Within (pre.foldl switched x) op pc s

theorem after_step {dev : Device} {fl : ElmM.FloatFn} {s s' : AW} {a : Action} {x : Bool × Bool} {cs : List AOp} (hI : Inv s) (hA : AnyInv s) (hB : PoliteInv s)
    (hG : GoneInv s) (hP : Placed s) (hN : Named s) (hp : politeCallback s a) (hg : ¬ ObdM.Gone s.obd) (h : s.step dev fl a = some s')
    (hk : ∀ o ∈ cs ++ userCalls [a], AOp.keeps o = true) (hne : s.commands ≠ []) (hX : After x cs s) : After x (cs ++ userCalls [a]) s' ∧ s'.commands ≠ [] := by
  have hstep := h
  by_cases hcall : ∃ op, a = .call op
  · obtain ⟨op, rfl⟩ := hcall
    unfold step at h
    cases hc : s.caller with
    | busy o p => simp only [hc] at h; cases h
    | idle =>
      simp only [hc, Option.some.injEq] at h
      subst h
      refine ⟨Or.inr ⟨cs, op, _, rfl, rfl, ?_⟩, hne⟩
      rcases hX with ⟨-, hX⟩ | ⟨pre, o, pc, -, h1, -⟩
      · have e1 : s.running = (cs.foldl switched x).1 := by rw [← hX]
        have e2 : s.wasRunning = (cs.foldl switched x).2 := by rw [← hX]
        cases op
        case start => exact ⟨e2, fun _ => e1, by simp [entry]⟩
        case stop => exact e2
        case enter => exact ⟨fun _ => ⟨e1, e2⟩, by simp [entry]⟩
        case exit => exact ⟨e2, fun _ => e1, by simp [entry], by simp [entry], by simp [entry]⟩
        all_goals exact ⟨e1, e2⟩
      · rw [hc] at h1; cases h1
  · have hn : ∀ op, a ≠ .call op := fun op h => hcall ⟨op, h⟩
    have e1 : userCalls [a] = [] := by cases a <;> first | rfl | exact absurd rfl (hn _)
    rw [e1, List.append_nil] at hk ⊢
    by_cases ha : a = .caller
    · subst ha
      unfold step at h
      cases hc : s.caller with
      | idle => simp only [hc] at h; cases h
      | busy op pc =>
        simp only [hc] at h
        rcases hX with ⟨h1, -⟩ | ⟨pre, o, p, rfl, h1, hM⟩
        · rw [hc] at h1; cases h1
        · rw [hc] at h1; cases h1
          have hko := hk op (by simp)
          refine ⟨?_, caller_ne hko h hne⟩
          rcases mid_caller hI hG hN (hP _ _ hc) hko hg hne hc h hM with ⟨h2, h3⟩ | ⟨p', h2, h3⟩
          · exact Or.inl ⟨h2, by rw [h3, List.foldl_append]; rfl⟩
          · exact Or.inr ⟨pre, op, p', rfl, h2, h3⟩
    · obtain ⟨h1, h2, h3, h4, h5⟩ := thread_step hI hA hB hG hp hg ha hn hstep
      refine ⟨?_, ?_⟩
      · rcases hX with ⟨g1, g2⟩ | ⟨pre, o, p, rfl, g1, hM⟩
        · exact Or.inl ⟨by rw [h1]; exact g1, by rw [h3, h2]; exact g2⟩
        · exact Or.inr ⟨pre, o, p, rfl, by rw [h1]; exact g1, mid_same h3 h2 hM⟩
      · unfold step at h
        cases a with
        | call o => exact absurd rfl (hn o)
        | caller => exact absurd rfl ha
        | daemon t =>
          simp only at h
          cases hq : s.threads[t]? with
          | none => rw [hq] at h; cases h
          | some pc => rw [hq] at h; exact daemon_ne h hne
        | cb t o =>
          simp only at h
          split at h
          · next it r rest i hq =>
            rw [(cbCall_polite (hI.act t _ hq rfl) hp h).1]; exact hne
          · cases h
        | cbEnd t ok =>
          simp only at h
          split at h
          · split at h <;> (cases h; exact hne)
          · cases h
        | reorder t rest =>
          obtain ⟨it, it', g1, -, g2, -⟩ := reorder_eq hstep
          exact absurd (hB.ok t _ g1).keys g2

theorem after_run {dev : Device} {fl : Str → Option PyFloat} {s s' : AW} {as : List Action} (h : AReach dev fl politeCallback s)
    (hi : s.caller = .idle) (hr : ARun dev fl politeCallback s as s') (hk : ∀ o ∈ userCalls as, AOp.keeps o = true) (hne : s.commands ≠ [])
    (hg : ¬ ObdM.Gone s'.obd) : After (s.running, s.wasRunning) (userCalls as) s' ∧ s'.commands ≠ [] := by
  induction hr with
  | nil => exact ⟨Or.inl ⟨hi, rfl⟩, hne⟩
  | snoc as s1 a s2 h1 hok hs ih =>
    have hR := arun_reach h h1
    have hg1 : ¬ ObdM.Gone s1.obd := fun hx => hg (gone_step hs hx)
    rw [userCalls_append] at hk ⊢
    obtain ⟨i1, i2⟩ := ih (fun o ho => hk o (List.mem_append.2 (Or.inl ho))) hg1
    exact after_step (areach_inv hR) (areach_any hR) (areach_polite hR) (areach_gone hR) (areach_placed hR) (areach_named hR hg1) hok hg1 hs hk i2 i1

end AW
end Model
