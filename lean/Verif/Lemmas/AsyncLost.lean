import Verif.Lemmas.AsyncLive
import Verif.Lemmas.Simulate
import Verif.Spec.Lost
/-!
# What the update loop does once the connection is lost
-/
namespace Model
open Py Spec
namespace AW
open ObdM

/-- About to query. -/
def atQuery : Pc → Bool
  | .query .. => true
  | _ => false

/-- About to store. -/
def atStore : Pc → Bool
  | .store .. => true
  | _ => false

def isQueried : Ev → Bool
  | .queried _ => true
  | _ => false

def isStored : Ev → Bool
  | .stored _ _ => true
  | _ => false

/-- No step of a lost connection brings a thread to a query. -/
theorem lost_daemon {dev : Device} {fl : ElmM.FloatFn} {t : Nat} {pc : Pc} {s s' : AW} (hg : Gone s.obd) (h : s.daemonStep dev fl t pc = some s') :
    ∃ pc' es, s'.threads = s.threads.set t pc' ∧ s'.log = s.log ++ es ∧ atQuery pc' = false ∧
      (atStore pc' = true → atQuery pc = true) ∧
      es.countP isQueried ≤ (if atQuery pc then 1 else 0) ∧ es.countP isStored ≤ (if atStore pc then 1 else 0) := by
  cases pc <;> simp only [daemonStep] at h
  case conn it c =>
    rw [if_neg (by rw [show isConnected s.obd = false from hg]; simp)] at h
    cases h
    exact ⟨_, [], rfl, by simp [setPc], rfl, by simp [atStore], by simp, by simp⟩
  case query it c =>
    cases hq : ObdM.query dev fl c true s.obd with
    | mk x o =>
      rw [hq] at h
      cases x <;> cases h
      · exact ⟨_, [.queried c, .ended _], rfl, by simp [emit, setPc]; rfl, rfl, by simp [atStore], by simp [atQuery, isQueried, List.countP_cons], by simp [isStored]⟩
      · exact ⟨_, [.queried c], rfl, rfl, rfl, by simp [atQuery], by simp [atQuery, isQueried], by simp [isStored]⟩
  case store it c r =>
    cases h
    exact ⟨_, [.stored c r], rfl, rfl, rfl, by simp [atStore], by simp [isQueried], by simp [atStore, isStored]⟩
  all_goals repeat' split at h
  all_goals first
    | (cases h; done)
    | (cases h; exact ⟨_, [], rfl, (List.append_nil _).symm, rfl, by simp [atStore], by simp, by simp⟩)
    | (cases h; exact ⟨_, [_], rfl, rfl, rfl, by simp [atStore], by simp [isQueried], by simp [isStored]⟩)

theorem countP_zero {p : Ev → Bool} {es : List Ev} (h : ∀ e ∈ es, p e = false) : es.countP p = 0 := by
  rw [List.countP_eq_zero]; intro e he; simp [h e he]

/-- What one step of a lost connection can do. -/
def LostStep (s s' : AW) : Prop :=
    ∃ es, s'.log = s.log ++ es ∧
      (∀ (t : Nat) pc, s'.threads[t]? = some pc → atQuery pc = true → es.countP isQueried = 0 ∧ ∃ pc0, s.threads[t]? = some pc0 ∧ atQuery pc0 = true) ∧
      (∀ (t : Nat) pc, s'.threads[t]? = some pc → atStore pc = true → es.countP isStored = 0 ∧ ∃ pc0, s.threads[t]? = some pc0 ∧ (atQuery pc0 = true ∨ atStore pc0 = true)) ∧
      (es.countP isQueried = 0 ∨ (es.countP isQueried = 1 ∧ ∃ (t : Nat) (pc : Pc), s.threads[t]? = some pc ∧ atQuery pc = true)) ∧
      (es.countP isStored = 0 ∨ (es.countP isStored = 1 ∧ (∃ (t : Nat) (pc : Pc), s.threads[t]? = some pc ∧ atStore pc = true) ∧
        ∀ (t : Nat) pc, s'.threads[t]? = some pc → atQuery pc = false))

theorem lost_step {dev : Device} {fl : ElmM.FloatFn} {s s' : AW} {a : Action} (hI : Inv s) (hg : Gone s.obd) (h : s.step dev fl a = some s') :
    LostStep s s' := by
  have hq : ∀ pc, atQuery pc = true → Pc.active pc = true := by intro pc h; cases pc <;> first | rfl | cases h
  have hs : ∀ pc, atStore pc = true → Pc.active pc = true := by intro pc h; cases pc <;> first | rfl | cases h
  -- steps that bring no thread to these places and record nothing of the kind
  have quiet : ∀ es, s'.log = s.log ++ es → (∀ e ∈ es, isQueried e = false ∧ isStored e = false) →
      (∀ (t : Nat) pc, s'.threads[t]? = some pc → s.threads[t]? = some pc ∨ (atQuery pc = false ∧ atStore pc = false)) → LostStep s s' := by
    intro es h1 h2 h3
    have h4 := countP_zero (fun e he => (h2 e he).1)
    have h5 := countP_zero (fun e he => (h2 e he).2)
    refine ⟨es, h1, ?_, ?_, Or.inl h4, Or.inl h5⟩
    · intro t pc hp hx
      rcases h3 t pc hp with h6 | h6
      · exact ⟨h4, pc, h6, hx⟩
      · rw [h6.1] at hx; cases hx
    · intro t pc hp hx
      rcases h3 t pc hp with h6 | h6
      · exact ⟨h5, pc, h6, Or.inr hx⟩
      · rw [h6.2] at hx; cases hx
  have setq : ∀ (t : Nat) (x : Pc), atQuery x = false → atStore x = false → s'.threads = s.threads.set t x →
      ∀ (t' : Nat) pc, s'.threads[t']? = some pc → s.threads[t']? = some pc ∨ (atQuery pc = false ∧ atStore pc = false) := by
    intro t x h1 h2 h3 t' pc h4
    rw [h3] at h4
    rcases set_get h4 with ⟨-, h5⟩ | ⟨-, h5⟩
    · subst h5; exact Or.inr ⟨h1, h2⟩
    · exact Or.inl h5
  have hh := h
  unfold step at h
  cases a with
  | call op =>
    simp only at h
    cases hc : s.caller with
    | busy o p => rw [hc] at h; cases h
    | idle => rw [hc] at h; cases h; exact quiet [.call op] rfl (by simp [isQueried, isStored]) (fun t pc h => Or.inl h)
  | caller =>
    simp only at h
    cases hc : s.caller with
    | idle => rw [hc] at h; cases h
    | busy o p =>
      rw [hc] at h
      obtain ⟨pre, fin, h1, h2, h3⟩ := callerStep_log h
      refine quiet (pre ++ fin) h1 ?_ ?_
      · intro e he
        rcases List.mem_append.mp he with he | he
        · have := h2 e he
          cases e <;> first | exact ⟨rfl, rfl⟩ | (cases o <;> simp [Mid] at this)
        · rcases h3 with ⟨h3, -⟩ | ⟨-, h3 | ⟨x, h3, -⟩⟩ <;> rw [h3] at he
          · cases he
          · simp at he; subst he; exact ⟨rfl, rfl⟩
          · simp at he; subst he; exact ⟨rfl, rfl⟩
      · rcases callerStep_threads h with ⟨h4, -⟩ | ⟨-, h4, -⟩ | ⟨-, t, -, h4, -⟩
        · intro t pc hp; rw [h4] at hp; exact Or.inl hp
        · intro t pc hp
          rw [h4] at hp
          rcases append_get hp with hp | ⟨-, rfl⟩
          · exact Or.inl hp
          · exact Or.inr ⟨rfl, rfl⟩
        · exact setq t .test rfl rfl h4
  | daemon t =>
    simp only at h
    cases hp : s.threads[t]? with
    | none => rw [hp] at h; cases h
    | some pc =>
      rw [hp] at h
      obtain ⟨pc', es, h1, h2, h3, h4, h5, h6⟩ := lost_daemon hg h
      have hact := (daemonStep_ctl h).2.2.1
      have hth := hI.act t pc hp hact
      have honly : ∀ (t' : Nat) (x : Pc), s.threads[t']? = some x → Pc.active x = true → t' = t := by
        intro t' x e1 e2
        have := hI.act t' x e1 e2
        rw [hth] at this; cases this; rfl
      refine ⟨es, h2, ?_, ?_, ?_, ?_⟩
      · intro t' x e1 e2
        rw [h1] at e1
        rcases set_get e1 with ⟨-, e3⟩ | ⟨e4, e3⟩
        · subst e3; rw [h3] at e2; cases e2
        · exact absurd (honly t' x e3 (hq x e2)) e4
      · intro t' x e1 e2
        rw [h1] at e1
        rcases set_get e1 with ⟨e5, e3⟩ | ⟨e4, e3⟩
        · subst e3
          have e6 := h4 e2
          have e7 : atStore pc = false := by cases pc <;> first | rfl | cases e6
          rw [e7] at h6
          have e8 : t' = t := e5
          subst e8
          exact ⟨by simpa using h6, pc, hp, Or.inl e6⟩
        · exact absurd (honly t' x e3 (hs x e2)) e4
      · cases e : atQuery pc with
        | false => rw [e] at h5; left; simpa using h5
        | true =>
          rw [e] at h5
          rcases Nat.eq_zero_or_pos (es.countP isQueried) with e1 | e1
          · exact Or.inl e1
          · right; exact ⟨by simp at h5; omega, t, pc, hp, e⟩
      · cases e : atStore pc with
        | false => rw [e] at h6; left; simpa using h6
        | true =>
          rw [e] at h6
          rcases Nat.eq_zero_or_pos (es.countP isStored) with e1 | e1
          · exact Or.inl e1
          · right
            refine ⟨by simp at h6; omega, ⟨t, pc, hp, e⟩, ?_⟩
            intro t' x e2
            rw [h1] at e2
            rcases set_get e2 with ⟨-, e3⟩ | ⟨e4, e3⟩
            · subst e3; exact h3
            · cases e5 : atQuery x with
              | false => rfl
              | true => exact absurd (honly t' x e3 (hq x e5)) e4
  | cb t op =>
    simp only at h
    split at h
    · next it r l i hp =>
      obtain ⟨es, h1, h2⟩ := cbCall_log h
      have h3 := (cbCall_ctl (hI.act t _ hp rfl) h).2.1
      refine quiet es h1 ?_ ?_
      · intro e he
        have := h2 e he
        cases e <;> first | exact ⟨rfl, rfl⟩ | simp [FromCb] at this
      · intro t' pc e; rw [h3] at e; exact Or.inl e
    · cases h
  | cbEnd t ok =>
    simp only at h
    split at h
    · split at h <;> cases h
      · exact quiet [] (by simp [setPc]) (by simp) (setq t _ rfl rfl rfl)
      · exact quiet [.ended .callback] rfl (by simp [isQueried, isStored]) (setq t _ rfl rfl rfl)
    · cases h
  | reorder t rest =>
    obtain ⟨_, _, -, -, -, rfl, -⟩ := reorder_eq hh
    exact quiet [] (by simp [setPc]) (by simp) (setq t _ rfl rfl rfl)

/-- From a lost connection on there is at most one query and one response. -/
theorem lost_run {dev : Device} {fl : Str → Option PyFloat} {ok : AW → Action → Prop} {s s' : AW} {as : List Action} (hR : AReach dev fl ok s)
    (hg : Gone s.obd) (h : ARun dev fl ok s as s') :
    Gone s'.obd ∧ ∃ new, s'.log = s.log ++ new ∧ new.countP isQueried ≤ 1 ∧ new.countP isStored ≤ 1 ∧
      (1 ≤ new.countP isQueried → ∀ (t : Nat) pc, s'.threads[t]? = some pc → atQuery pc = false) ∧
      (1 ≤ new.countP isStored → ∀ (t : Nat) pc, s'.threads[t]? = some pc → atQuery pc = false ∧ atStore pc = false) := by
  induction h with
  | nil => exact ⟨hg, [], by simp, by simp, by simp, by simp, by simp⟩
  | snoc as s1 a s2 h hok hs ih =>
    obtain ⟨hg1, new, h1, h2, h3, h4, h5⟩ := ih
    have hI := areach_inv (arun_reach hR h)
    obtain ⟨es, e1, e2, e3, e4, e5⟩ := lost_step hI hg1 hs
    refine ⟨gone_step hs hg1, new ++ es, by rw [e1, h1, List.append_assoc], ?_, ?_, ?_, ?_⟩
    · rw [List.countP_append]
      rcases e4 with e4 | ⟨e4, t, pc, e6, e7⟩
      · omega
      · by_cases hn : 1 ≤ new.countP isQueried
        · rw [h4 hn t pc e6] at e7; cases e7
        · omega
    · rw [List.countP_append]
      rcases e5 with e5 | ⟨e5, ⟨t, pc, e6, e7⟩, -⟩
      · omega
      · by_cases hn : 1 ≤ new.countP isStored
        · rw [(h5 hn t pc e6).2] at e7; cases e7
        · omega
    · intro hn t pc hp
      cases hx : atQuery pc with
      | false => rfl
      | true =>
        obtain ⟨e6, pc0, e7, e8⟩ := e2 t pc hp hx
        rw [List.countP_append, e6] at hn
        rw [h4 (by omega) t pc0 e7] at e8; cases e8
    · intro hn t pc hp
      rw [List.countP_append] at hn
      constructor
      · cases hx : atQuery pc with
        | false => rfl
        | true =>
          obtain ⟨-, pc0, e7, e8⟩ := e2 t pc hp hx
          rcases e5 with e5 | ⟨-, -, e9⟩
          · rw [(h5 (by omega) t pc0 e7).1] at e8; cases e8
          · rw [e9 t pc hp] at hx; cases hx
      · cases hx : atStore pc with
        | false => rfl
        | true =>
          obtain ⟨e6, pc0, e7, e8⟩ := e3 t pc hp hx
          rw [e6] at hn
          have := h5 (by omega) t pc0 e7
          rcases e8 with e8 | e8
          · rw [this.1] at e8; cases e8
          · rw [this.2] at e8; cases e8

/-- Nothing is sent over a lost connection. -/
theorem silent_step {dev : Device} {fl : Str → Option PyFloat} {ok : AW → Action → Prop} {s s' : AW} {a : Action} (hR : AReach dev fl ok s)
    (hn : status s.obd = .notConnected) (h : s.step dev fl a = some s') : s'.obd.hist = s.obd.hist ∧ status s'.obd = .notConnected := by
  have hsnd := reachable_sound (areach_reachable hR)
  have hcl := close_nc (dev := dev) hsnd hn
  have hl : lowPower dev s.obd = (.ok none, s.obd) := lowPower_nc hn
  have hnp : normalPower dev s.obd = (.ok none, s.obd) := normalPower_nc hn
  have hsame : ∀ x : AW, x.obd = s.obd → x.obd.hist = s.obd.hist ∧ status x.obd = .notConnected := by
    intro x hx; rw [hx]; exact ⟨rfl, hn⟩
  have hh := h
  unfold step at h
  cases a with
  | call op =>
    simp only at h
    cases hc : s.caller with
    | busy o p => rw [hc] at h; cases h
    | idle => rw [hc] at h; cases h; exact ⟨rfl, hn⟩
  | caller =>
    simp only at h
    cases hc : s.caller with
    | idle => rw [hc] at h; cases h
    | busy o p =>
      rw [hc] at h
      rcases callerStep_obd h with h1 | ⟨-, h1⟩ | ⟨-, h1⟩
      · exact hsame _ h1
      · rw [hcl] at h1; rw [h1]; exact ⟨rfl, rfl⟩
      · refine hsame _ ?_
        rw [h1]; unfold powerCall; split
        · rw [hl]
        · rw [hnp]
  | daemon t =>
    simp only at h
    cases hp : s.threads[t]? with
    | none => rw [hp] at h; cases h
    | some pc =>
      rw [hp] at h
      cases pc <;> simp only [daemonStep] at h
      case query it c =>
        rw [query_nc hn] at h
        cases h; exact ⟨rfl, hn⟩
      all_goals repeat' split at h
      all_goals first | (cases h; done) | (cases h; exact ⟨rfl, hn⟩)
  | cb t op =>
    simp only at h
    split at h
    · next it r l i hp =>
      rcases cbCall_obd ((areach_inv hR).act t _ hp rfl) h with h1 | ⟨-, h1⟩ | ⟨-, h1⟩
      · exact hsame _ h1
      · rw [hl] at h1; exact hsame _ h1
      · rw [hnp] at h1; exact hsame _ h1
    · cases h
  | cbEnd t ok =>
    simp only at h
    split at h
    · split at h <;> cases h <;> exact ⟨rfl, hn⟩
    · cases h
  | reorder t rest => obtain ⟨_, _, -, -, -, rfl, -⟩ := reorder_eq hh; exact ⟨rfl, hn⟩

theorem silent_run {dev : Device} {fl : Str → Option PyFloat} {ok : AW → Action → Prop} {s s' : AW} {as : List Action} (hR : AReach dev fl ok s)
    (hn : status s.obd = .notConnected) (h : ARun dev fl ok s as s') : s'.obd.hist = s.obd.hist ∧ status s'.obd = .notConnected := by
  induction h with
  | nil => exact ⟨rfl, hn⟩
  | snoc as s1 a s2 h hok hs ih =>
    obtain ⟨h1, h2⟩ := silent_step (arun_reach hR h) ih.2 hs
    exact ⟨h1.trans ih.1, h2⟩

/-! ## something is watched while the loop runs -/

structure Fed (s : AW) : Prop where
  ne : ∀ (t : Nat) (pc : Pc), s.threads[t]? = some pc → Pc.active pc = true → pc ≠ .drop1 → pc ≠ .drop2 → s.commands ≠ []
  start : ∀ op pc, s.caller = .busy op pc → pc = .startNone ∨ pc = .startRun ∨ pc = .startNew ∨ pc = .startGo → s.commands ≠ []
  modify : ∀ op, s.caller = .busy op .modify → ∀ (t : Nat) (pc : Pc), s.threads[t]? = some pc → Pc.active pc = true → pc = .drop1 ∨ pc = .drop2

theorem fed_next {dev : Device} {op : AOp} {pc : CPc} {s s' : AW} (h : s.callerStep dev op pc = some s') (o : AOp) (p : CPc)
    (hc : s'.caller = .busy o p) (hp : p = .startNone ∨ p = .startRun ∨ p = .startNew ∨ p = .startGo) :
    s'.commands = s.commands ∧ ((pc = .startLen ∧ s.commands ≠ []) ∨ (o = op ∧ (pc = .startNone ∨ pc = .startRun ∨ pc = .startNew ∨ pc = .startGo))) := by
  have hafter : ∀ (x : AW) (o : AOp) (p : CPc), (x.afterStop op).caller = .busy o p → p = .closeObd := by
    intro x o p hx
    rcases (afterStop_caller op x).1 with h1 | h1 <;> rw [h1] at hx <;> cases hx
    rfl
  cases pc <;> simp only [callerStep] at h
  case startLen =>
    split at h
    · cases h; cases hc
    · next hz =>
      cases h
      refine ⟨rfl, Or.inl ⟨rfl, ?_⟩⟩
      intro e; apply hz; show List.length s.commands = 0; rw [e]; rfl
  case stopEnd => cases h; have := hafter _ _ _ hc; subst this; simp at hp
  case stopNone =>
    cases h
    split at hc
    · have := hafter _ _ _ hc; subst this; simp at hp
    · cases hc; simp at hp
  case ask => cases op <;> simp only [Option.some.injEq] at h <;> subst h <;> cases hc
  case startNone => split at h <;> cases h <;> cases hc; exact ⟨rfl, Or.inr ⟨rfl, by simp⟩⟩
  case startRun => cases h; cases hc; exact ⟨rfl, Or.inr ⟨rfl, by simp⟩⟩
  case startNew => cases h; cases hc; exact ⟨rfl, Or.inr ⟨rfl, by simp⟩⟩
  all_goals repeat' split at h
  all_goals first
    | (cases h; done)
    | (cases h; cases hc; done)
    | (cases h; cases hc; simp at hp)

theorem fed_step {dev : Device} {fl : ElmM.FloatFn} {s s' : AW} {a : Action} (hI : Inv s) (hB : PoliteInv s) (hF : Fed s)
    (hpol : politeCallback s a) (h : s.step dev fl a = some s') : Fed s' := by
  have hh := h
  unfold step at h
  cases a with
  | call op =>
    simp only at h
    cases hc : s.caller with
    | busy o p => rw [hc] at h; cases h
    | idle =>
      rw [hc] at h; cases h
      refine ⟨fun t pc => hF.ne t pc, ?_, ?_⟩
      · intro o p h1 h2; exfalso
        cases op <;> cases h1 <;> simp [entry] at h2
      · intro o h1; exfalso; cases op <;> cases h1
  | caller =>
    simp only at h
    cases hc : s.caller with
    | idle => rw [hc] at h; cases h
    | busy o p =>
      rw [hc] at h
      have hnext := fed_next h
      refine ⟨?_, ?_, ?_⟩
      · intro t pc h1 h2 h3 h4
        have hold : ∀ pc0, s.threads[t]? = some pc0 → Pc.active pc0 = true → pc0 ≠ .drop1 → pc0 ≠ .drop2 → s'.commands ≠ [] := by
          intro pc0 e1 e2 e3 e4
          rcases callerStep_data h with ⟨e5, -⟩ | ⟨rfl, -⟩
          · rw [e5]; exact hF.ne t pc0 e1 e2 e3 e4
          · rcases hF.modify o hc t pc0 e1 e2 with e | e
            · exact absurd e e3
            · exact absurd e e4
        rcases callerStep_threads h with ⟨e1, -⟩ | ⟨rfl, e1, -⟩ | ⟨rfl, t1, e2, e1, -⟩
        · rw [e1] at h1; exact hold pc h1 h2 h3 h4
        · rw [e1] at h1
          rcases append_get h1 with h1 | ⟨-, rfl⟩
          · exact hold pc h1 h2 h3 h4
          · cases h2
        · rw [e1] at h1
          rcases set_get h1 with ⟨-, e3⟩ | ⟨-, e3⟩
          · rcases callerStep_data h with ⟨e5, -⟩ | ⟨e5, -⟩
            · rw [e5]; exact hF.start o _ hc (by simp)
            · cases e5
          · exact hold pc e3 h2 h3 h4
      · intro o' p' h1 h2
        obtain ⟨e1, e2⟩ := hnext o' p' h1 h2
        rw [e1]
        rcases e2 with ⟨-, e2⟩ | ⟨-, e2⟩
        · exact e2
        · exact hF.start o p hc e2
      · intro o' h1 t pc h2 h3
        obtain ⟨rfl, hr⟩ := (callerStep_next h).1 o' h1
        rcases callerStep_threads h with ⟨e1, -⟩ | ⟨e1, -⟩ | ⟨e1, -⟩
        · rw [e1] at h2
          by_cases h4 : pc = .drop1
          · exact Or.inl h4
          by_cases h5 : pc = .drop2
          · exact Or.inr h5
          exfalso
          rcases hB.run t pc h2 h3 h4 h5 with e | ⟨o2, e | ⟨t2, e⟩⟩
          · rw [hr] at e; cases e
          · rw [hc] at e; cases e
          · rw [hc] at e; cases e
        · cases e1
        · cases e1
  | daemon t =>
    simp only at h
    cases hp : s.threads[t]? with
    | none => rw [hp] at h; cases h
    | some pc =>
      rw [hp] at h
      obtain ⟨h1, -, h2, pc', h3, -, h4⟩ := daemonStep_ctl h
      have hd : pc = .drop1 → pc' = .drop2 := by
        rintro rfl
        rcases h4 with ⟨-, -, -, e⟩ | ⟨-, -, -, e⟩ | ⟨-, -, e, -⟩
        · simp only [daemonStep] at h; cases h
          have e2 := congrArg (fun l => l[t]?) h3
          have hlt := (List.getElem?_eq_some_iff.mp hp).1
          simp only [setPc, List.getElem?_set, if_pos hlt] at e2
          simp at e2
          exact e2.symm
        · exact e
        · cases e
      have hd2 : pc = .drop2 → Pc.active pc' = false := by
        rintro rfl
        rcases h4 with ⟨-, -, e, -⟩ | ⟨-, -, e, -⟩ | ⟨-, -, -, rfl⟩
        · exact absurd rfl e
        · cases e
        · rfl
      refine ⟨?_, ?_, ?_⟩
      · intro t' x e1 e2 e3 e4
        refine daemon_ne h ?_
        rw [h3] at e1
        rcases set_get e1 with ⟨-, e5⟩ | ⟨-, e5⟩
        · subst e5
          refine hF.ne t pc hp h2 ?_ ?_
          · intro e; exact e4 (hd e)
          · intro e; rw [hd2 e] at e2; cases e2
        · exact hF.ne t' x e5 e2 e3 e4
      · intro o p e1 e2; rw [h1] at e1; exact daemon_ne h (hF.start o p e1 e2)
      · intro o e1 t' x e2 e3
        rw [h1] at e1
        rw [h3] at e2
        rcases set_get e2 with ⟨-, e5⟩ | ⟨-, e5⟩
        · subst e5
          rcases hF.modify o e1 t pc hp h2 with e | e
          · exact Or.inr (hd e)
          · rw [hd2 e] at e3; cases e3
        · exact hF.modify o e1 t' x e5 e3
  | cb t op =>
    simp only at h
    split at h
    · next it r l i hp =>
      have ht := hI.act t _ hp rfl
      obtain ⟨h1, h2, -, -⟩ := cbCall_ctl ht h
      obtain ⟨h3, -⟩ := cbCall_polite ht hpol h
      exact ⟨by rw [h2, h3]; exact hF.ne, by rw [h1, h3]; exact hF.start, by rw [h1, h2]; exact hF.modify⟩
    · cases h
  | cbEnd t ok =>
    simp only at h
    split at h
    · next it r l i hp =>
      split at h <;> cases h
      all_goals
        refine ⟨?_, hF.start, ?_⟩
        · intro t' x e1 e2 e3 e4
          rcases set_get e1 with ⟨-, e5⟩ | ⟨-, e5⟩
          · exact hF.ne t _ hp rfl (by simp) (by simp)
          · exact hF.ne t' x e5 e2 e3 e4
        · intro o e1 t' x e2 e3
          rcases hF.modify o e1 t _ hp rfl with e | e <;> cases e
    · cases h
  | reorder t rest =>
    obtain ⟨it, it', h1, -, h2, -⟩ := reorder_eq hh
    exact absurd (hB.ok t _ h1).keys h2

theorem areach_fed {dev : Device} {fl : Str → Option PyFloat} {s : AW} (h : AReach dev fl politeCallback s) : Fed s := by
  induction h with
  | init a o h => exact ⟨by simp, by simp, by simp⟩
  | step s a s' h hp hs ih => exact fed_step (areach_inv h) (areach_polite h) ih hp hs

/-! ## fair runs end the loop -/

/-- Positions in `start()` after the connection was looked at. -/
def pastConn : CPc → Bool
  | .startLen => true
  | .startNone => true
  | .startRun => true
  | .startNew => true
  | .startGo => true
  | _ => false

/-- The user is not about to start the loop. -/
def Calm (s : AW) : Prop := ∀ op pc, s.caller = .busy op pc → pastConn pc = false

theorem calm_caller {dev : Device} {op : AOp} {pc : CPc} {s s' : AW} (hg : Gone s.obd) (h : s.callerStep dev op pc = some s') (hp : pastConn pc = false) :
    Calm s' := by
  have hafter : ∀ (x : AW), Calm (x.afterStop op) := by
    intro x o p hx
    rcases (afterStop_caller op x).1 with h1 | h1 <;> rw [h1] at hx <;> cases hx
    rfl
  have hidle : ∀ x : AW, x.caller = .idle → Calm x := by intro x hx o p h; rw [hx] at h; cases h
  cases pc <;> simp only [callerStep] at h <;> first | (cases hp; done) | skip
  case startConn =>
    rw [if_neg (by rw [show isConnected s.obd = false from hg]; simp)] at h
    cases h; exact hidle _ rfl
  case stopEnd => cases h; exact hafter _
  case stopNone =>
    cases h; split
    · exact hafter _
    · intro o p h; cases h; rfl
  case ask => cases op <;> simp only [Option.some.injEq] at h <;> subst h <;> exact hidle _ rfl
  all_goals repeat' split at h
  all_goals first
    | (cases h; done)
    | (cases h; exact hidle _ rfl)
    | (cases h; intro o p h; cases h; rfl)

/-- On a lost connection nobody starts the loop. -/
theorem calm_step {dev : Device} {fl : ElmM.FloatFn} {s s' : AW} {a : Action} (hI : Inv s) (hg : Gone s.obd) (hC : Calm s) (h : s.step dev fl a = some s') :
    Calm s' ∧ (∀ t, Active s' t → Active s t) ∧ (s'.running = true → s.running = true) := by
  have back : ∀ (t : Nat) (pc pc' : Pc), s.threads[t]? = some pc → Pc.active pc = true → s'.threads = s.threads.set t pc' → ∀ t', Active s' t' → Active s t' := by
    rintro t pc pc' h1 h2 h3 t' ⟨x, h4, h5⟩
    rw [h3] at h4
    rcases set_get h4 with ⟨rfl, -⟩ | ⟨-, h6⟩
    · exact ⟨pc, h1, h2⟩
    · exact ⟨x, h6, h5⟩
  have same : s'.threads = s.threads → ∀ t, Active s' t → Active s t := by
    rintro h1 t ⟨x, h2, h3⟩; exact ⟨x, by rw [← h1]; exact h2, h3⟩
  have keep : s'.caller = s.caller → Calm s' := by intro h1 o p h2; rw [h1] at h2; exact hC o p h2
  have hh := h
  unfold step at h
  cases a with
  | call op =>
    simp only at h
    cases hc : s.caller with
    | busy o p => rw [hc] at h; cases h
    | idle =>
      rw [hc] at h; cases h
      refine ⟨?_, same rfl, fun h => h⟩
      intro o p h1; cases op <;> cases h1 <;> rfl
  | caller =>
    simp only at h
    cases hc : s.caller with
    | idle => rw [hc] at h; cases h
    | busy o p =>
      rw [hc] at h
      have hp := hC o p hc
      refine ⟨calm_caller hg h hp, ?_, ?_⟩
      · rcases callerStep_threads h with ⟨h1, -⟩ | ⟨rfl, -⟩ | ⟨rfl, -⟩
        · exact same h1
        · cases hp
        · cases hp
      · intro hr
        rcases callerStep_running h with ⟨h1, -⟩ | ⟨rfl, -⟩ | ⟨-, h1, -⟩
        · rw [← h1]; exact hr
        · cases hp
        · rw [h1] at hr; cases hr
  | daemon t =>
    simp only at h
    cases hp : s.threads[t]? with
    | none => rw [hp] at h; cases h
    | some pc =>
      rw [hp] at h
      obtain ⟨h1, -, h2, pc', h3, -, h4⟩ := daemonStep_ctl h
      refine ⟨keep h1, back t pc pc' hp h2 h3, ?_⟩
      intro hr
      rcases h4 with ⟨-, h5, -⟩ | ⟨-, h5, -⟩ | ⟨-, h5, -⟩
      · rw [← h5]; exact hr
      · rw [h5] at hr; cases hr
      · rw [← h5]; exact hr
  | cb t op =>
    simp only at h
    split at h
    · next it r l i hp =>
      obtain ⟨h1, h2, -, h3⟩ := cbCall_ctl (hI.act t _ hp rfl) h
      refine ⟨keep h1, same h2, ?_⟩
      intro hr
      rcases h3 with h3 | h3
      · rw [← h3]; exact hr
      · rw [h3] at hr; cases hr
    · cases h
  | cbEnd t ok =>
    simp only at h
    split at h
    · next it r l i hp =>
      split at h <;> cases h
      · exact ⟨keep rfl, back t _ _ hp rfl rfl, fun h => h⟩
      · exact ⟨keep rfl, back t _ _ hp rfl rfl, fun h => h⟩
    · cases h
  | reorder t rest =>
    obtain ⟨it, it', h1, -, -, rfl, -⟩ := reorder_eq hh
    exact ⟨keep rfl, back t _ _ h1 rfl rfl, fun h => h⟩

section fair
variable {dev : Device} {fl : Str → Option PyFloat} {run : Nat → AW} {act : Nat → Action}

theorem fair_arun (hF : FairRun dev fl run act) (n d : Nat) : ∃ as, ARun dev fl politeCallback (run n) as (run (n + d)) := by
  induction d with
  | zero => exact ⟨[], .nil _⟩
  | succ d ih =>
    obtain ⟨as, h⟩ := ih
    exact ⟨as ++ [act (n + d)], .snoc _ _ _ _ _ h (hF.polite _) (hF.step _)⟩

theorem fair_gone (hF : FairRun dev fl run act) {n : Nat} (hg : Gone (run n).obd) : ∀ m ≥ n, Gone (run m).obd := by
  intro m hm
  obtain ⟨d, rfl⟩ := Nat.exists_eq_add_of_le hm
  clear hm
  induction d with
  | zero => exact hg
  | succ d ih => exact gone_step (hF.step (n + d)) ih

theorem fair_calm (hF : FairRun dev fl run act) {n : Nat} (hg : Gone (run n).obd) (hc : Calm (run n)) : ∀ m ≥ n, Calm (run m) := by
  intro m hm
  obtain ⟨d, rfl⟩ := Nat.exists_eq_add_of_le hm
  clear hm
  induction d with
  | zero => exact hc
  | succ d ih => exact (calm_step (areach_inv (hF.reach (n + d))) (fair_gone hF hg _ (by omega)) ih (hF.step (n + d))).1

/-- A thread that has noticed the loss ends. -/
theorem drop_ends (hF : FairRun dev fl run act) {n t : Nat} (ha : ∀ m ≥ n, Active (run m) t) {pc : Pc} (hp : (run n).threads[t]? = some pc)
    (hd : pc = .drop1 ∨ pc = .drop2) : False := by
  -- the thread stays where it is until it moves
  have one : ∀ m ≥ n, ∀ pc, (run m).threads[t]? = some pc → (pc = .drop1 ∨ pc = .drop2) →
      ((run (m + 1)).threads[t]? = some pc ∧ act m ≠ .daemon t ∧ ∀ ok, act m ≠ .cbEnd t ok) ∨ (pc = .drop1 ∧ (run (m + 1)).threads[t]? = some .drop2) := by
    intro m hm pc hp hd
    have hI := areach_inv (hF.reach m)
    have hact : Pc.active pc = true := by rcases hd with rfl | rfl <;> rfl
    have hth := hI.act t pc hp hact
    have hlt : t < (run m).threads.length := (List.getElem?_eq_some_iff.mp hp).1
    have honly : ∀ (t' : Nat) (x : Pc), (run m).threads[t']? = some x → Pc.active x = true → t' = t := by
      intro t' x e1 e2
      have := hI.act t' x e1 e2
      rw [hth] at this; cases this; rfl
    have hs := hF.step m
    have hh := hs
    unfold step at hs
    cases ea : act m with
    | call op =>
      rw [ea] at hs
      simp only at hs
      cases hc : (run m).caller with
      | busy o p => rw [hc] at hs; cases hs
      | idle =>
        rw [hc] at hs
        left
        refine ⟨?_, by simp, by simp⟩
        simp only [Option.some.injEq] at hs
        rw [← hs]; exact hp
    | caller =>
      rw [ea] at hs
      simp only at hs
      cases hc : (run m).caller with
      | idle => rw [hc] at hs; cases hs
      | busy o p =>
        rw [hc] at hs
        left
        refine ⟨?_, by simp, by simp⟩
        rcases callerStep_threads hs with ⟨e, -⟩ | ⟨-, e, -⟩ | ⟨rfl, t1, e1, e, -⟩
        · rw [e]; exact hp
        · rw [e, List.getElem?_append_left hlt]; exact hp
        · exfalso
          have hCI := hI.caller
          unfold CallerInv at hCI
          rw [hc] at hCI
          obtain ⟨t2, e2, e3⟩ := hCI
          rw [hth] at e2; cases e2
          rw [hp] at e3
          rcases hd with rfl | rfl <;> cases e3
    | daemon t' =>
      rw [ea] at hs
      simp only at hs
      cases hq : (run m).threads[t']? with
      | none => rw [hq] at hs; cases hs
      | some x =>
        rw [hq] at hs
        obtain rfl := honly t' x hq (daemonStep_ctl hs).2.2.1
        rw [hp] at hq; cases hq
        rcases hd with rfl | rfl
        · right
          refine ⟨rfl, ?_⟩
          simp only [daemonStep, Option.some.injEq] at hs
          rw [← hs]
          show ((run m).threads.set t' _)[t']? = _
          rw [List.getElem?_set, if_pos rfl, if_pos hlt]
        · exfalso
          simp only [daemonStep, Option.some.injEq] at hs
          obtain ⟨x, e1, e2⟩ := ha (m + 1) (by omega)
          rw [← hs] at e1
          have e3 : ((run m).threads.set t' (.finished .returned))[t']? = some x := e1
          rw [List.getElem?_set, if_pos rfl, if_pos hlt] at e3
          cases e3; cases e2
    | cb t' op =>
      rw [ea] at hs
      simp only at hs
      split at hs
      · next it r l i hq =>
        obtain rfl := honly t' _ hq rfl
        rw [hp] at hq
        rcases hd with rfl | rfl <;> cases hq
      · cases hs
    | cbEnd t' ok =>
      rw [ea] at hs
      simp only at hs
      split at hs
      · next it r l i hq =>
        obtain rfl := honly t' _ hq rfl
        rw [hp] at hq
        rcases hd with rfl | rfl <;> cases hq
      · cases hs
    | reorder t' rest =>
      rw [ea] at hh
      obtain ⟨it, it', h1, -⟩ := reorder_eq hh
      obtain rfl := honly t' _ h1 rfl
      rw [hp] at h1
      rcases hd with rfl | rfl <;> cases h1
  -- it does move
  have moves : ∀ m ≥ n, ∀ pc, (run m).threads[t]? = some pc → (pc = .drop1 ∨ pc = .drop2) → pc = .drop1 ∧ ∃ k ≥ m, (run k).threads[t]? = some .drop2 := by
    intro m hm pc hp hd
    obtain ⟨k, hk, hk2⟩ := hF.thread t m (fun k hk => ha k (by omega))
    obtain ⟨d, rfl⟩ := Nat.exists_eq_add_of_le hk
    have walk : ∀ e ≤ d, (run (m + e)).threads[t]? = some pc ∨ (pc = .drop1 ∧ ∃ k ≥ m, (run k).threads[t]? = some .drop2) := by
      intro e
      induction e with
      | zero => intro _; exact Or.inl hp
      | succ e ih =>
        intro he
        rcases ih (by omega) with h | h
        · rcases one (m + e) (by omega) pc h hd with ⟨h1, -⟩ | ⟨h1, h2⟩
          · exact Or.inl h1
          · exact Or.inr ⟨h1, m + e + 1, by omega, h2⟩
        · exact Or.inr h
    rcases walk d (Nat.le_refl _) with h | h
    · rcases one (m + d) (by omega) pc h hd with ⟨-, h1, h2⟩ | ⟨h1, h2⟩
      · rcases hk2 with hk2 | ⟨ok, hk2⟩
        · exact absurd hk2 h1
        · exact absurd hk2 (h2 ok)
      · exact ⟨h1, m + d + 1, by omega, h2⟩
    · exact h
  obtain ⟨-, k, hk, h1⟩ := moves n (Nat.le_refl _) pc hp hd
  have := (moves k hk .drop2 h1 (Or.inr rfl)).1
  cases this

/-- On a lost connection the loop ends, and nobody starts it again. -/
theorem lost_ends (hF : FairRun dev fl run act) {n : Nat} (hg : Gone (run n).obd) : ∃ m ≥ n, ∀ k ≥ m, Calm (run k) ∧ ∀ t, ¬ Active (run k) t := by
  obtain ⟨m, hm, hc⟩ : ∃ m ≥ n, Calm (run m) := by
    cases hi : (run n).caller with
    | idle => exact ⟨n, Nat.le_refl _, by intro o p h; rw [hi] at h; cases h⟩
    | busy op pc =>
      obtain ⟨k, hk, -, -, h⟩ := call_ends hF op pc n hi
      exact ⟨k + 1, by omega, by intro o p h2; rw [h] at h2; cases h2⟩
  have hg := fair_gone hF (fair_gone hF hg m hm)
  have hC := fair_calm hF (hg m (Nat.le_refl _)) hc
  have hI := fun k => areach_inv (hF.reach k)
  -- once no thread is at work it stays so
  have stay : ∀ k ≥ m, (∀ t, ¬ Active (run k) t) → ∀ j ≥ k, ∀ t, ¬ Active (run j) t := by
    intro k hk h j hj
    obtain ⟨d, rfl⟩ := Nat.exists_eq_add_of_le hj
    clear hj
    induction d with
    | zero => exact h
    | succ d ih => intro t ht; exact ih t ((calm_step (hI (k + d)) (hg _ (by omega)) (hC _ (by omega)) (hF.step (k + d))).2.1 t ht)
  by_cases hno : ∃ k ≥ m, ∀ t, ¬ Active (run k) t
  · obtain ⟨k, hk, h⟩ := hno
    exact ⟨k, by omega, fun j hj => ⟨hC j (by omega), stay k hk h j hj⟩⟩
  exfalso
  have hsome : ∀ k ≥ m, ∃ t, Active (run k) t := by
    intro k hk
    by_contra hx
    exact hno ⟨k, hk, fun t ht => hx ⟨t, ht⟩⟩
  obtain ⟨t, ht⟩ := hsome m (Nat.le_refl _)
  have hact : ∀ k ≥ m, Active (run k) t := by
    intro k hk
    obtain ⟨d, rfl⟩ := Nat.exists_eq_add_of_le hk
    clear hk
    induction d with
    | zero => exact ht
    | succ d ih =>
      obtain ⟨t', h1⟩ := hsome (m + (d + 1)) (by omega)
      have h2 := (calm_step (hI (m + d)) (hg _ (by omega)) (hC _ (by omega)) (hF.step (m + d))).2.1 t' h1
      have : t' = t := by
        obtain ⟨x, e1, e2⟩ := h2
        obtain ⟨y, e3, e4⟩ := ih
        have := hI (m + d) |>.act t' x e1 e2
        rw [(hI (m + d)).act t y e3 e4] at this
        cases this; rfl
      subst this; exact h1
  have hnodrop : ∀ k ≥ m, ∀ pc, (run k).threads[t]? = some pc → pc ≠ .drop1 ∧ pc ≠ .drop2 := by
    intro k hk pc hp
    constructor
    · intro e; exact drop_ends hF (fun j hj => hact j (by omega)) hp (Or.inl e)
    · intro e; exact drop_ends hF (fun j hj => hact j (by omega)) hp (Or.inr e)
  have hrun : ∀ k ≥ m, (run k).running = true := by
    intro k hk
    by_contra hr
    have hr : (run k).running = false := by simpa using hr
    have hfalse : ∀ j ≥ k, (run j).running = false := by
      intro j hj
      obtain ⟨d, rfl⟩ := Nat.exists_eq_add_of_le hj
      clear hj
      induction d with
      | zero => exact hr
      | succ d ih =>
        by_contra hx
        have hx : (run (k + (d + 1))).running = true := by simpa using hx
        rw [(calm_step (hI (k + d)) (hg _ (by omega)) (hC _ (by omega)) (hF.step (k + d))).2.2 hx] at ih
        cases ih
    have hidle : ∀ j ≥ k, (run j).caller ≠ .idle := by
      intro j hj hi
      obtain ⟨pc, h1, h2⟩ := hact j (by omega)
      obtain ⟨h3, h4⟩ := hnodrop j (by omega) pc h1
      rcases (areach_polite (hF.reach j)).run t pc h1 h2 h3 h4 with e | ⟨o, e | ⟨t', e⟩⟩
      · rw [hfalse j hj] at e; cases e
      · rw [hi] at e; cases e
      · rw [hi] at e; cases e
    cases hi : (run k).caller with
    | idle => exact hidle k (Nat.le_refl _) hi
    | busy op pc =>
      obtain ⟨j, hj, -, -, h⟩ := call_ends hF op pc k hi
      exact hidle (j + 1) (by omega) h
  have hK : Keeps run m t := ⟨hact, hrun⟩
  obtain ⟨pc, h1, h2⟩ := hact m (Nat.le_refl _)
  obtain ⟨h3, h4⟩ := hnodrop m (Nat.le_refl _) pc h1
  have hne := (areach_fed (hF.reach m)).ne t pc h1 h2 h3 h4
  obtain ⟨k, hk⟩ : ∃ k, k ∈ Dict.keys (run m).commands := by
    cases hc : (run m).commands with
    | nil => exact absurd hc hne
    | cons e l => exact ⟨e.1, by simp [Dict.keys]⟩
  obtain ⟨m2, hm2, new1, l1, c1, r1, s1, -⟩ := keeps_again hF hK hk
  obtain ⟨d, rfl⟩ := Nat.exists_eq_add_of_le (Nat.le_of_lt hm2)
  obtain ⟨m3, hm3, new2, l2, c2, r2, s2, -⟩ := keeps_again hF (hK.from (show m ≤ m + d by omega)) (by rw [(keeps_tables hF hK d).2]; exact hk)
  obtain ⟨d2, rfl⟩ := Nat.exists_eq_add_of_le (Nat.le_of_lt hm3)
  obtain ⟨as, hrun2⟩ := fair_arun hF m (d + d2)
  obtain ⟨-, new, l3, -, l4, -⟩ := lost_run (hF.reach m) (hg m (Nat.le_refl _)) hrun2
  have hnew : new = new1 ++ new2 := by
    rw [← Nat.add_assoc, l2, l1, List.append_assoc] at l3
    exact (List.append_cancel_left l3).symm
  rw [hnew, List.countP_append] at l4
  have p1 : 0 < new1.countP isStored := List.countP_pos_iff.mpr ⟨_, s1, rfl⟩
  have p2 : 0 < new2.countP isStored := List.countP_pos_iff.mpr ⟨_, s2, rfl⟩
  omega

end fair

/-! ## who leaves `running` set -/

theorem lastEnd_snoc (l : List Ev) (e : Ev) : lastEnd (l ++ [e]) = lastEndNext (lastEnd l) e := by
  simp [lastEnd]

theorem lastEnd_same {es : List Ev} (h : ∀ e ∈ es, e ≠ .started ∧ ∀ x, e ≠ .ended x) : ∀ l, lastEnd (l ++ es) = lastEnd l := by
  induction es with
  | nil => intro l; simp
  | cons e es ih =>
    intro l
    rw [show l ++ e :: es = l ++ [e] ++ es by simp, ih (fun x hx => h x (List.mem_cons_of_mem _ hx)), lastEnd_snoc]
    have := h e (by simp)
    cases e <;> first | rfl | exact absurd rfl this.1 | exact absurd rfl (this.2 _)

/-- If `running` is set, the loop is at work, or about to be, or it ended with an exception. -/
def Runs (s : AW) : Prop := s.running = true →
  (∃ t, Active s t) ∨ (∃ op, s.caller = .busy op .startNew ∨ s.caller = .busy op .startGo) ∨ ∃ e, e ≠ .returned ∧ lastEnd s.log = some e

theorem runs_daemon {dev : Device} {fl : ElmM.FloatFn} {t : Nat} {pc : Pc} {s s' : AW} (h : s.daemonStep dev fl t pc = some s') (hr : s'.running = true)
    (hd : pc ≠ .drop2) : ∃ pc', s'.threads = s.threads.set t pc' ∧ (Pc.active pc' = true ∨ ∃ e, e ≠ .returned ∧ lastEnd s'.log = some e) := by
  cases pc <;> simp only [daemonStep] at h
  case drop2 => exact absurd rfl hd
  case drop1 => cases h; cases hr
  case test =>
    split at h
    · cases h; exact ⟨_, rfl, Or.inl rfl⟩
    · next hn => cases h; exact absurd hr hn
  case query it c =>
    cases hq : ObdM.query dev fl c true s.obd with
    | mk x o =>
      rw [hq] at h
      cases x with
      | error x =>
        cases h
        refine ⟨_, rfl, Or.inr ⟨.query x, by simp, ?_⟩⟩
        exact lastEnd_snoc (s.log ++ [.queried c]) (.ended (.query x))
      | ok r => cases h; exact ⟨_, rfl, Or.inl rfl⟩
  case next it =>
    split at h
    · cases h; exact ⟨_, rfl, Or.inr ⟨.listChanged, by simp, lastEnd_snoc s.log (.ended .listChanged)⟩⟩
    · split at h <;> cases h <;> exact ⟨_, rfl, Or.inl rfl⟩
  case subs it c r =>
    split at h
    · cases h; exact ⟨_, rfl, Or.inr ⟨.missing, by simp, lastEnd_snoc s.log (.ended .missing)⟩⟩
    · cases h; exact ⟨_, rfl, Or.inl rfl⟩
  all_goals repeat' split at h
  all_goals first
    | (cases h; done)
    | (cases h; exact ⟨_, rfl, Or.inl rfl⟩)

theorem runs_step {dev : Device} {fl : ElmM.FloatFn} {s s' : AW} {a : Action} (hI : Inv s) (hR : Runs s) (h : s.step dev fl a = some s') : Runs s' := by
  intro hr
  have hh := h
  unfold step at h
  cases a with
  | call op =>
    simp only at h
    cases hc : s.caller with
    | busy o p => rw [hc] at h; cases h
    | idle =>
      rw [hc] at h; cases h
      rcases hR hr with h1 | ⟨o, h1⟩ | ⟨e, h1, h2⟩
      · exact Or.inl h1
      · rw [hc] at h1; rcases h1 with h1 | h1 <;> cases h1
      · refine Or.inr (Or.inr ⟨e, h1, ?_⟩)
        rw [← h2]; exact lastEnd_same (es := [.call op]) (by simp) s.log
  | caller =>
    simp only at h
    cases hc : s.caller with
    | idle => rw [hc] at h; cases h
    | busy o p =>
      rw [hc] at h
      have hCI := hI.caller
      unfold CallerInv at hCI
      rw [hc] at hCI
      by_cases hgo : p = .startGo
      · subst hgo
        obtain ⟨t, e1, e2⟩ := hCI
        left
        simp only [callerStep, e1, Option.some.injEq] at h
        rw [← h]
        refine ⟨t, .test, ?_, rfl⟩
        show (s.threads.set t .test)[t]? = _
        rw [List.getElem?_set, if_pos rfl, if_pos (List.getElem?_eq_some_iff.mp e2).1]
      rcases callerStep_running h with ⟨h1, h2, -⟩ | ⟨-, -, h1, -⟩ | ⟨-, h1, -⟩
      · rw [h1] at hr
        rcases hR hr with ⟨t, x, h3, h4⟩ | ⟨o', h3⟩ | ⟨e, h3, h4⟩
        · left
          refine ⟨t, x, ?_, h4⟩
          rcases callerStep_threads h with ⟨h5, -⟩ | ⟨-, h5, -⟩ | ⟨h5, -⟩
          · rw [h5]; exact h3
          · rw [h5, List.getElem?_append_left (List.getElem?_eq_some_iff.mp h3).1]; exact h3
          · exact absurd h5 hgo
        · rw [hc] at h3
          rcases h3 with h3 | h3 <;> cases h3
          · right; left
            simp only [callerStep, Option.some.injEq] at h
            rw [← h]; exact ⟨_, Or.inr rfl⟩
          · exact absurd rfl hgo
        · right; right
          refine ⟨e, h3, ?_⟩
          obtain ⟨pre, fin, e1, e2, e3⟩ := callerStep_log h
          rw [← h4, e1]
          refine lastEnd_same ?_ _
          intro y hy
          constructor
          · rintro rfl
            by_cases hm : p = .modify
            · subst hm
              have h5 : s'.log = s.log ++ (pre ++ fin) := e1
              simp only [callerStep] at h
              have hml := doModify_log o s
              cases hd : s.doModify o with
              | mk r s1 =>
                rw [hd] at h hml
                simp only at hml
                have : ∃ w, w ≠ .started ∧ s'.log = s1.log ++ [w] := by
                  cases r <;> cases h
                  · exact ⟨_, by simp, rfl⟩
                  · exact ⟨_, by simp, rfl⟩
                obtain ⟨w, hw, h6⟩ := this
                rcases hml with h7 | h7 <;> rw [h6, h7] at h5
                · have := List.append_cancel_left h5
                  rw [← this] at hy; simp at hy; exact hw hy.symm
                · rw [List.append_assoc] at h5
                  have := List.append_cancel_left h5
                  rw [← this] at hy; simp at hy; exact hw hy.symm
            · exact callerStep_started hm hgo h e1 hy
          · rintro x rfl
            rcases List.mem_append.mp hy with hy | hy
            · exact e2 _ hy
            · rcases e3 with ⟨e3, -⟩ | ⟨-, e3 | ⟨z, e3, -⟩⟩ <;> rw [e3] at hy <;> simp at hy
      · exact Or.inr (Or.inl ⟨o, Or.inl h1⟩)
      · rw [h1] at hr; cases hr
  | daemon t =>
    simp only at h
    cases hp : s.threads[t]? with
    | none => rw [hp] at h; cases h
    | some pc =>
      rw [hp] at h
      have hd : pc ≠ .drop2 := by
        rintro rfl
        have := hI.drop t hp
        simp only [daemonStep, Option.some.injEq] at h
        rw [← h] at hr
        have hr : s.running = true := hr
        rw [this] at hr; cases hr
      obtain ⟨pc', h1, h2⟩ := runs_daemon h hr hd
      rcases h2 with h2 | h2
      · left
        refine ⟨t, pc', ?_, h2⟩
        rw [h1, List.getElem?_set, if_pos rfl, if_pos (List.getElem?_eq_some_iff.mp hp).1]
      · exact Or.inr (Or.inr h2)
  | cb t op =>
    simp only at h
    split at h
    · next it r l i hp =>
      obtain ⟨h1, h2, -, -⟩ := cbCall_ctl (hI.act t _ hp rfl) h
      left; exact ⟨t, _, by rw [h2]; exact hp, rfl⟩
    · cases h
  | cbEnd t ok =>
    simp only at h
    split at h
    · next it r l i hp =>
      have hlt := (List.getElem?_eq_some_iff.mp hp).1
      split at h <;> cases h
      · left
        refine ⟨t, .fire it r l i, ?_, rfl⟩
        show (s.threads.set t _)[t]? = _
        rw [List.getElem?_set, if_pos rfl, if_pos hlt]
      · exact Or.inr (Or.inr ⟨.callback, by simp, lastEnd_snoc s.log (.ended .callback)⟩)
    · cases h
  | reorder t rest =>
    obtain ⟨it, it', h1, -, -, rfl, -⟩ := reorder_eq hh
    left
    refine ⟨t, .next it', ?_, rfl⟩
    show (s.threads.set t _)[t]? = _
    rw [List.getElem?_set, if_pos rfl, if_pos (List.getElem?_eq_some_iff.mp h1).1]

theorem areach_runs {dev : Device} {fl : Str → Option PyFloat} {ok : AW → Action → Prop} {s : AW} (h : AReach dev fl ok s) : Runs s := by
  induction h with
  | init a o h => intro hr; cases hr
  | step s a s' h _ hs ih => exact runs_step (areach_inv h) ih hs

theorem lastEnd_mem {l : List Ev} {e : End} (h : lastEnd l = some e) : .ended e ∈ l := by
  suffices hs : ∀ (l : List Ev) (x : Option End), l.foldl lastEndNext x = some e → x = some e ∨ .ended e ∈ l by
    rcases hs l none h with h | h
    · cases h
    · exact h
  intro l
  induction l with
  | nil => intro x h; exact Or.inl h
  | cons y l ih =>
    intro x h
    rcases ih _ h with h1 | h1
    · cases y <;> simp only [lastEndNext] at h1
      case started => cases h1
      case ended z => cases h1; right; simp
      all_goals exact Or.inl h1
    · exact Or.inr (List.mem_cons_of_mem _ h1)

end AW
end Model
