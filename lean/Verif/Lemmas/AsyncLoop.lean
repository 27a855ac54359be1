import Verif.Lemmas.AsyncData
/-!
# The loop and the tables it runs over
-/
namespace Model
open Py Spec
namespace AW
open ObdM

/-! ## who changes the tables -/

theorem afterStop_data (op : AOp) (s : AW) : (s.afterStop op).commands = s.commands ∧ (s.afterStop op).cbl = s.cbl ∧
    (s.afterStop op).dictId = s.dictId := by
  unfold afterStop
  split <;> exact ⟨rfl, rfl, rfl⟩

theorem callerStep_data {dev : Device} {op : AOp} {pc : CPc} {s s' : AW} (h : s.callerStep dev op pc = some s') :
    (s'.commands = s.commands ∧ s'.cbl = s.cbl ∧ s'.dictId = s.dictId) ∨
    (pc = .modify ∧ s'.commands = (s.doModify op).2.commands ∧ s'.cbl = (s.doModify op).2.cbl ∧ s'.dictId = (s.doModify op).2.dictId) := by
  have hafter := fun x : AW => afterStop_data op x
  cases pc <;> simp only [callerStep] at h
  case modify =>
    right
    cases hd : s.doModify op with
    | mk x s1 => rw [hd] at h; cases x <;> cases h <;> exact ⟨rfl, rfl, rfl, rfl⟩
  case stopEnd => cases h; left; exact hafter { s with thread := none }
  case stopNone =>
    cases h; left; split
    · exact hafter s
    · exact ⟨rfl, rfl, rfl⟩
  case ask => left; cases op <;> simp only [Option.some.injEq] at h <;> subst h <;> exact ⟨rfl, rfl, rfl⟩
  all_goals left
  all_goals repeat' split at h
  all_goals first | (cases h; done) | (cases h; exact ⟨rfl, rfl, rfl⟩) | (cases h; split <;> exact ⟨rfl, rfl, rfl⟩)

theorem callerStep_running {dev : Device} {op : AOp} {pc : CPc} {s s' : AW} (h : s.callerStep dev op pc = some s') :
    (s'.running = s.running ∧ pc ≠ .startRun ∧ pc ≠ .stopRun) ∨
    (pc = .startRun ∧ s'.running = true ∧ s'.caller = .busy op .startNew ∧ s'.thread = s.thread) ∨
    (pc = .stopRun ∧ s'.running = false ∧ s'.caller = .busy op .stopRead ∧ s'.thread = s.thread) := by
  have hafter : ∀ x : AW, (x.afterStop op).running = x.running := fun x => (afterStop_caller op x).2.2.2.1
  have hm := (doModify_ctl op s).2.2.1
  cases pc <;> simp only [callerStep] at h
  case startRun => right; left; cases h; exact ⟨rfl, rfl, rfl, rfl⟩
  case stopRun => right; right; cases h; exact ⟨rfl, rfl, rfl, rfl⟩
  all_goals left; refine ⟨?_, by simp, by simp⟩
  case modify =>
    cases hd : s.doModify op with
    | mk x s1 => rw [hd] at h hm; cases x <;> cases h <;> exact hm
  case stopEnd => cases h; rw [hafter]
  case stopNone =>
    cases h; split
    · rw [hafter]
    · rfl
  case ask => cases op <;> simp only [Option.some.injEq] at h <;> subst h <;> rfl
  all_goals repeat' split at h
  all_goals first | (cases h; done) | (cases h; rfl) | (cases h; split <;> rfl)

theorem callerStep_threads {dev : Device} {op : AOp} {pc : CPc} {s s' : AW} (h : s.callerStep dev op pc = some s') :
    (s'.threads = s.threads ∧ pc ≠ .startNew) ∨ (pc = .startNew ∧ s'.threads = s.threads ++ [Pc.notStarted] ∧ s'.thread = some s.threads.length) ∨
    (pc = .startGo ∧ ∃ t : Nat, s.thread = some t ∧ s'.threads = s.threads.set t .test ∧ s'.thread = s.thread) := by
  have hafter : ∀ x : AW, (x.afterStop op).threads = x.threads := fun x => (afterStop_caller op x).2.2.1
  have hm := (doModify_ctl op s).2.1
  cases pc <;> simp only [callerStep] at h
  case startNew => right; left; cases h; exact ⟨rfl, rfl, rfl⟩
  case startGo =>
    cases ht : s.thread with
    | none => rw [ht] at h; cases h; left; exact ⟨rfl, by simp⟩
    | some t => rw [ht] at h; cases h; right; right; exact ⟨rfl, t, rfl, rfl, ht⟩
  all_goals left; refine ⟨?_, by simp⟩
  case modify =>
    cases hd : s.doModify op with
    | mk x s1 => rw [hd] at h hm; cases x <;> cases h <;> exact hm
  case stopEnd => cases h; rw [hafter]
  case stopNone =>
    cases h; split
    · rw [hafter]
    · rfl
  case ask => cases op <;> simp only [Option.some.injEq] at h <;> subst h <;> rfl
  all_goals repeat' split at h
  all_goals first | (cases h; done) | (cases h; rfl) | (cases h; split <;> rfl)

/-- Where the user's thread goes. -/
theorem callerStep_next {dev : Device} {op : AOp} {pc : CPc} {s s' : AW} (h : s.callerStep dev op pc = some s') :
    (∀ o, s'.caller = .busy o .modify → pc = .gate ∧ s.running = false) ∧
    (∀ o, s'.caller = .busy o .startNew → pc = .startRun) ∧
    (∀ o, s'.caller = .busy o .startGo → pc = .startNew) ∧
    (pc = .stopRead → (∃ t, s.thread = some t ∧ s'.caller = .busy op (.join t)) ∨ s.thread = none) ∧
    (∀ t, pc = .join t → s.over t = true) := by
  have hafter : ∀ (x : AW) (o : AOp) (p : CPc), (x.afterStop op).caller = .busy o p → p = .closeObd := by
    intro x o p hx
    rcases (afterStop_caller op x).1 with h1 | h1 <;> rw [h1] at hx <;> cases hx
    rfl
  cases pc <;> simp only [callerStep] at h
  case stopEnd =>
    cases h
    refine ⟨?_, ?_, ?_, by simp, by simp⟩
    all_goals intro o ho; have := hafter _ _ _ ho; cases this
  case stopNone =>
    cases h
    refine ⟨?_, ?_, ?_, by simp, by simp⟩
    all_goals
      intro o ho
      split at ho
      · have := hafter _ _ _ ho; cases this
      · cases ho
  case stopRead =>
    cases ht : s.thread with
    | none => rw [ht] at h; cases h; refine ⟨?_, ?_, ?_, fun _ => Or.inr rfl, by simp⟩ <;> (intro o ho; cases ho)
    | some t => rw [ht] at h; cases h; refine ⟨?_, ?_, ?_, fun _ => Or.inl ⟨t, rfl, rfl⟩, by simp⟩ <;> (intro o ho; cases ho)
  case join t =>
    split at h <;> cases h
    next hov =>
    refine ⟨?_, ?_, ?_, by simp, ?_⟩
    · intro o ho; cases ho
    · intro o ho; cases ho
    · intro o ho; cases ho
    · intro t' e; cases e; exact hov
  case gate =>
    cases h
    refine ⟨?_, ?_, ?_, by simp, by simp⟩
    · intro o ho
      split at ho
      · cases ho
      · next hr => exact ⟨rfl, by simpa using hr⟩
    all_goals intro o ho; split at ho <;> cases ho
  case startRun => cases h; refine ⟨?_, fun _ _ => rfl, ?_, by simp, by simp⟩ <;> (intro o ho; cases ho)
  case startNew => cases h; refine ⟨?_, ?_, fun _ _ => rfl, by simp, by simp⟩ <;> (intro o ho; cases ho)
  case ask => cases op <;> simp only [Option.some.injEq] at h <;> subst h <;> (refine ⟨?_, ?_, ?_, by simp, by simp⟩ <;> (intro o ho; cases ho))
  all_goals repeat' split at h
  all_goals first
    | (cases h; done)
    | (cases h; refine ⟨?_, ?_, ?_, by simp, by simp⟩ <;> (intro o ho; cases ho; done))
    | (cases h; refine ⟨?_, ?_, ?_, by simp, by simp⟩ <;> (intro o ho; split at ho <;> cases ho; done))

theorem cbCall_data {dev : Device} {t : Nat} {op : AOp} {s s' : AW} (h : s.cbCall dev t op = some s') :
    (s'.commands = s.commands ∧ s'.cbl = s.cbl ∧ s'.dictId = s.dictId ∧ (∀ e ∈ s'.log, e ∈ s.log ∨ e = .started)) ∨
    (s.running = false ∧ s' = (s.doModify op).2 ∧ ((∃ c cb f, op = .watch c cb f) ∨ (∃ c cb, op = .unwatch c cb) ∨ op = .unwatchAll)) := by
  have hstart : ∀ x : AW, x.cbStart.commands = x.commands ∧ x.cbStart.cbl = x.cbl ∧ x.cbStart.dictId = x.dictId ∧
      (∀ e ∈ x.cbStart.log, e ∈ x.log ∨ e = .started) := by
    intro x; unfold cbStart; split
    · exact ⟨rfl, rfl, rfl, by intro e he; simpa [emit] using he⟩
    · exact ⟨rfl, rfl, rfl, fun e he => Or.inl he⟩
  have hstop : ∀ x y : AW, x.cbStop t = some y → y.commands = x.commands ∧ y.cbl = x.cbl ∧ y.dictId = x.dictId ∧
      (∀ e ∈ y.log, e ∈ x.log ∨ e = .started) := by
    intro x y hx; unfold cbStop at hx
    repeat' split at hx
    all_goals first | (cases hx; done) | (cases hx; exact ⟨rfl, rfl, rfl, fun e he => Or.inl he⟩)
  unfold cbCall at h
  cases op <;> simp only at h
  case start => cases h; left; exact hstart s
  case stop => left; exact hstop _ _ h
  case enter => left; exact hstop { s with wasRunning := s.running } _ h
  case exit => cases h; left; split; exacts [hstart s, ⟨rfl, rfl, rfl, fun e he => Or.inl he⟩]
  case close =>
    left
    split at h
    · cases h; exact ⟨rfl, rfl, rfl, fun e he => Or.inl he⟩
    · exact hstop _ _ h
  case query => cases h; left; exact ⟨rfl, rfl, rfl, fun e he => Or.inl he⟩
  case lowPower => cases h; left; exact ⟨rfl, rfl, rfl, fun e he => Or.inl he⟩
  case normalPower => cases h; left; exact ⟨rfl, rfl, rfl, fun e he => Or.inl he⟩
  case watch c cb f =>
    cases h
    split
    · left; exact ⟨rfl, rfl, rfl, fun e he => Or.inl he⟩
    · next hr => right; exact ⟨by simpa using hr, rfl, Or.inl ⟨c, cb, f, rfl⟩⟩
  case unwatch c cb =>
    cases h
    split
    · left; exact ⟨rfl, rfl, rfl, fun e he => Or.inl he⟩
    · next hr => right; exact ⟨by simpa using hr, rfl, Or.inr (Or.inl ⟨c, cb, rfl⟩)⟩
  case unwatchAll =>
    cases h
    split
    · left; exact ⟨rfl, rfl, rfl, fun e he => Or.inl he⟩
    · next hr => right; exact ⟨by simpa using hr, rfl, Or.inr (Or.inr rfl)⟩

/-! ## consistent iterators -/

/-- The iterator runs over the present dictionary. -/
structure ItOk (s : AW) (it : Iter) : Prop where
  dict : it.dict = s.dictId
  keys : it.keys = Dict.keys s.commands
  rest : ∀ c ∈ it.rest, c.key ∈ Dict.keys s.commands

def PcOk (s : AW) : Pc → Prop
  | .next it => ItOk s it
  | .conn it c => ItOk s it ∧ c.key ∈ Dict.keys s.commands
  | .query it c => ItOk s it ∧ c.key ∈ Dict.keys s.commands
  | .store it c _ => ItOk s it ∧ c.key ∈ Dict.keys s.commands
  | .subs it c _ => ItOk s it ∧ c.key ∈ Dict.keys s.commands
  | .fire it _ _ _ => ItOk s it
  | .inside it _ _ _ => ItOk s it
  | _ => True

theorem itOk_of {s s' : AW} {it : Iter} (h : ItOk s it) (h1 : s'.dictId = s.dictId) (h2 : Dict.keys s'.commands = Dict.keys s.commands) : ItOk s' it :=
  ⟨by rw [h1]; exact h.1, by rw [h2]; exact h.2, by rw [h2]; exact h.3⟩

theorem pcOk_of {s s' : AW} {pc : Pc} (h : PcOk s pc) (h1 : s'.dictId = s.dictId) (h2 : Dict.keys s'.commands = Dict.keys s.commands) : PcOk s' pc := by
  cases pc <;> simp only [PcOk] at h ⊢ <;> first
    | exact itOk_of h h1 h2
    | (rw [h2]; exact ⟨itOk_of h.1 h1 h2, h.2⟩)

theorem pcOk_inactive {s : AW} {pc : Pc} (h : Pc.active pc = false) : PcOk s pc := by
  cases pc <;> first | trivial | (cases h; done)

theorem daemonStep_ok {dev : Device} {fl : ElmM.FloatFn} {t : Nat} {pc : Pc} {s s' : AW} (hT : Tables s) (hok : PcOk s pc)
    (h : s.daemonStep dev fl t pc = some s') :
    ∃ pc', s'.threads = s.threads.set t pc' ∧ PcOk s' pc' ∧ s'.dictId = s.dictId ∧ Dict.keys s'.commands = Dict.keys s.commands ∧
      s'.cbl = s.cbl ∧ pc' ≠ .finished .listChanged ∧ (Complete s → pc' ≠ .finished .missing) ∧
      (∀ e, .ended e ∈ s'.log → .ended e ∈ s.log ∨ pc' = .finished e) ∧ (∀ e, pc' = .finished e → .ended e ∈ s'.log) := by
  cases pc <;> simp only [daemonStep] at h
  case notStarted => cases h
  case finished => cases h
  case inside => cases h
  case test =>
    split at h <;> cases h
    · exact ⟨_, rfl, trivial, rfl, rfl, rfl, by simp, by simp, fun e he => Or.inl he, by simp⟩
    · refine ⟨_, rfl, trivial, rfl, rfl, rfl, by simp, by simp, ?_, ?_⟩
      · intro e he; simp [emit, setPc] at he; rcases he with he | he
        · exact Or.inl he
        · subst he; exact Or.inr rfl
      · intro e he; cases he; simp [emit]
  case size =>
    split at h <;> cases h
    · exact ⟨_, rfl, trivial, rfl, rfl, rfl, by simp, by simp, fun e he => Or.inl he, by simp⟩
    · refine ⟨_, rfl, trivial, rfl, rfl, rfl, by simp, by simp, ?_, by simp⟩
      intro e he; simp [emit, setPc] at he; exact Or.inl he
  case iter =>
    cases h
    refine ⟨_, rfl, ⟨rfl, rfl, ?_⟩, rfl, rfl, rfl, by simp, by simp, fun e he => Or.inl he, by simp⟩
    intro c hc
    simp only [List.mem_map] at hc
    obtain ⟨e, he, rfl⟩ := hc
    rw [hT.keyed e he]
    exact List.mem_map.mpr ⟨e, he, rfl⟩
  case next it =>
    rw [if_neg (by intro h2; exact h2.2 hok.keys)] at h
    cases hr : it.rest with
    | nil =>
      rw [hr] at h; cases h
      refine ⟨_, rfl, trivial, rfl, rfl, rfl, by simp, by simp, ?_, by simp⟩
      intro e he; simp [emit, setPc] at he; exact Or.inl he
    | cons c rest =>
      rw [hr] at h; cases h
      refine ⟨_, rfl, ⟨⟨hok.dict, hok.keys, ?_⟩, ?_⟩, rfl, rfl, rfl, by simp, by simp, fun e he => Or.inl he, by simp⟩
      · intro c' hc'; exact hok.rest c' (by rw [hr]; exact List.mem_cons_of_mem _ hc')
      · exact hok.rest c (by rw [hr]; simp)
  case conn it c =>
    split at h <;> cases h
    · exact ⟨_, rfl, pcOk_of hok rfl rfl, rfl, rfl, rfl, by simp, by simp, fun e he => Or.inl he, by simp⟩
    · exact ⟨_, rfl, trivial, rfl, rfl, rfl, by simp, by simp, fun e he => Or.inl he, by simp⟩
  case drop1 =>
    cases h
    exact ⟨_, rfl, trivial, rfl, rfl, rfl, by simp, by simp, fun e he => Or.inl he, by simp⟩
  case drop2 =>
    cases h
    refine ⟨_, rfl, trivial, rfl, rfl, rfl, by simp, by simp, ?_, ?_⟩
    · intro e he; simp [emit, setPc] at he; rcases he with he | he
      · exact Or.inl he
      · subst he; exact Or.inr rfl
    · intro e he; cases he; simp [emit]
  case query it c =>
    cases hq : ObdM.query dev fl c true s.obd with
    | mk x o =>
      rw [hq] at h
      cases x with
      | error x =>
        cases h
        refine ⟨_, rfl, trivial, rfl, rfl, rfl, by simp, by simp, ?_, ?_⟩
        · intro e he; simp [emit, setPc] at he; rcases he with he | he
          · exact Or.inl he
          · subst he; exact Or.inr rfl
        · intro e he; cases he; simp [emit]
      | ok r =>
        cases h
        refine ⟨_, rfl, pcOk_of (pc := .store it c r) hok rfl rfl, rfl, rfl, rfl, by simp, by simp, ?_, by simp⟩
        intro e he; simp [emit, setPc] at he; exact Or.inl he
  case store it c r =>
    cases h
    have hk := setResponse_keys r hok.2
    refine ⟨_, rfl, ?_, rfl, hk, rfl, by simp, by simp, ?_, by simp⟩
    · exact pcOk_of (pc := .subs it c r) hok rfl hk
    · intro e he; simp [emit, setPc] at he; exact Or.inl he
  case subs it c r =>
    have hcg := callbacks_get s c.key
    cases hi : s.cbs.get? c.key with
    | none =>
      have hg : s.callbacks.get? c.key = none := by rw [hcg, hi]; rfl
      rw [hi] at h; cases h
      refine ⟨_, rfl, trivial, rfl, rfl, rfl, by simp, ?_, ?_, ?_⟩
      · intro hC; exact absurd (hC _ hok.2) ((Dict.get?_eq_none_iff _ _).mp hg)
      · intro e he; simp [emit, setPc] at he; rcases he with he | he
        · exact Or.inl he
        · subst he; exact Or.inr rfl
      · intro e he; cases he; simp [emit]
    | some l =>
      rw [hi] at h; cases h
      exact ⟨_, rfl, pcOk_of (pc := .fire it r l 0) hok.1 rfl rfl, rfl, rfl, rfl, by simp, by simp, fun e he => Or.inl he, by simp⟩
  case fire it r l i =>
    cases hx : (s.list l)[i]? with
    | none => rw [hx] at h; cases h; exact ⟨_, rfl, pcOk_of (pc := .next it) hok rfl rfl, rfl, rfl, rfl, by simp, by simp, fun e he => Or.inl he, by simp⟩
    | some k =>
      rw [hx] at h
      cases h
      refine ⟨_, rfl, pcOk_of (pc := .inside it r l (i + 1)) hok rfl rfl, rfl, rfl, rfl, by simp, by simp, ?_, by simp⟩
      intro e he; simp [emit, setPc] at he; exact Or.inl he
  case sleep =>
    cases h
    exact ⟨_, rfl, trivial, rfl, rfl, rfl, by simp, by simp, fun e he => Or.inl he, by simp⟩

/-- Whatever an update thread does, it only changes the tables by storing a response. -/
theorem daemonStep_data {dev : Device} {fl : ElmM.FloatFn} {t : Nat} {pc : Pc} {s s' : AW} (h : s.daemonStep dev fl t pc = some s') :
    s'.cbl = s.cbl ∧ s'.dictId = s.dictId ∧ ((s'.commands = s.commands ∧ (∀ c r, .stored c r ∈ s'.log → .stored c r ∈ s.log)) ∨
      ∃ it c r, pc = .store it c r ∧ s'.commands = setResponse s.commands c r ∧ s'.log = s.log ++ [.stored c r] ∧ s'.threads = s.threads.set t (.subs it c r)) := by
  cases pc <;> simp only [daemonStep] at h
  case store it c r => cases h; exact ⟨rfl, rfl, Or.inr ⟨it, c, r, rfl, rfl, rfl, rfl⟩⟩
  case query it c =>
    split at h <;> cases h <;> exact ⟨rfl, rfl, Or.inl ⟨rfl, by intro c' r' h; simpa [emit, setPc] using h⟩⟩
  all_goals repeat' split at h
  all_goals first
    | (cases h; done)
    | (cases h; exact ⟨rfl, rfl, Or.inl ⟨rfl, fun _ _ h => h⟩⟩)
    | (cases h; exact ⟨rfl, rfl, Or.inl ⟨rfl, by intro c' r' h; simpa [emit, setPc] using h⟩⟩)

/-! ## invariants with arbitrary callbacks -/

structure AnyInv (s : AW) : Prop where
  tables : Tables s
  modify : ∀ op, s.caller = .busy op .modify → s.running = false
  frozen : s.running = true → ∀ (t : Nat) (pc : Pc), s.threads[t]? = some pc → PcOk s pc

theorem append_get {l : List Pc} {x : Pc} {t : Nat} {pc : Pc} (h : (l ++ [x])[t]? = some pc) : l[t]? = some pc ∨ (t = l.length ∧ pc = x) := by
  rw [List.getElem?_append] at h
  split at h
  · exact Or.inl h
  · right
    have : t - l.length < 1 := by
      by_contra h3
      rw [List.getElem?_eq_none (by simp; omega)] at h; cases h
    have e : t - l.length = 0 := by omega
    rw [e] at h; simp at h
    exact ⟨by omega, h.symm⟩

theorem tables_modify {s : AW} (hT : Tables s) (op : AOp) : Tables (s.doModify op).2 := by
  rcases doModify_changed hT op with h | h | h
  · exact h.tables
  · exact h.1
  · rw [h]; exact hT

theorem reorder_ok {s : AW} {t : Nat} {it : Iter} (hT : Tables s) (h2 : it.dict = s.dictId) (h3 : it.keys = Dict.keys s.commands)
    (h4 : ∀ c ∈ it.rest, ∃ e ∈ s.commands, e.2.1 = c) : PcOk (s.setPc t (.next it)) (.next it) := by
  refine ⟨h2, h3, ?_⟩
  intro c hc
  obtain ⟨e, he, rfl⟩ := h4 c hc
  rw [hT.keyed e he]
  exact List.mem_map.mpr ⟨e, he, rfl⟩

theorem any_step {dev : Device} {fl : ElmM.FloatFn} {s s' : AW} {a : Action} (hI : Inv s) (hA : AnyInv s) (h : s.step dev fl a = some s') : AnyInv s' := by
  have hh := h
  unfold step at h
  cases a with
  | call op =>
    simp only at h
    cases hc : s.caller with
    | busy o p => rw [hc] at h; cases h
    | idle =>
      rw [hc] at h; cases h
      refine ⟨tables_of hA.tables rfl rfl, ?_, ?_⟩
      · intro o ho; exfalso; cases op <;> cases ho
      · intro hr t pc ht; exact pcOk_of (hA.frozen hr t pc ht) rfl rfl
  | caller =>
    simp only at h
    cases hc : s.caller with
    | idle => rw [hc] at h; cases h
    | busy o p =>
      rw [hc] at h
      have hdata := callerStep_data h
      have hrun := callerStep_running h
      have hth := callerStep_threads h
      refine ⟨?_, ?_, ?_⟩
      · rcases hdata with ⟨h1, h2, -⟩ | ⟨-, h1, h2, -⟩
        · exact tables_of hA.tables h1 h2
        · exact tables_of (tables_modify hA.tables o) h1 h2
      · intro o' ho
        obtain ⟨rfl, hr⟩ := (callerStep_next h).1 o' ho
        rcases hrun with ⟨h1, -⟩ | ⟨h1, -⟩ | ⟨h1, -⟩
        · rw [h1]; exact hr
        · cases h1
        · cases h1
      · intro hr t pc ht
        rcases hrun with ⟨h1, -⟩ | ⟨hp, h1, -, -⟩ | ⟨-, h1, -⟩
        · rw [h1] at hr
          have hnm : p ≠ .modify := by
            intro e; subst e; rw [hA.modify o hc] at hr; cases hr
          rcases hdata with ⟨d1, d2, d3⟩ | ⟨d, -⟩
          · have hk : ∀ x, PcOk s x → PcOk s' x := fun x hx => pcOk_of hx d3 (by rw [d1])
            rcases hth with ⟨e1, -⟩ | ⟨-, e1, -⟩ | ⟨-, t1, -, e1, -⟩
            · rw [e1] at ht; exact hk _ (hA.frozen hr t pc ht)
            · rw [e1] at ht
              rcases append_get ht with ht | ⟨-, rfl⟩
              · exact hk _ (hA.frozen hr t pc ht)
              · trivial
            · rw [e1] at ht
              rcases set_get ht with ⟨-, rfl⟩ | ⟨-, ht⟩
              · trivial
              · exact hk _ (hA.frozen hr t pc ht)
          · exact absurd d hnm
        · have hCI := hI.caller
          unfold CallerInv at hCI
          rw [hc, hp] at hCI
          rcases hth with ⟨e1, -⟩ | ⟨e, -⟩ | ⟨e, -⟩
          · rw [e1] at ht; exact pcOk_inactive (noactive hI hCI t pc ht)
          · rw [hp] at e; cases e
          · rw [hp] at e; cases e
        · rw [h1] at hr; cases hr
  | daemon t =>
    simp only at h
    cases hp : s.threads[t]? with
    | none => rw [hp] at h; cases h
    | some pc =>
      rw [hp] at h
      obtain ⟨hc, -, -, pc2, -, -, h6⟩ := daemonStep_ctl h
      have hrf : s'.running = true → s.running = true := by
        intro hr
        rcases h6 with h6 | h6 | h6
        · rw [← h6.2.1]; exact hr
        · rw [h6.2.1] at hr; cases hr
        · rw [← h6.2.1]; exact hr
      obtain ⟨d1, d2, d3⟩ := daemonStep_data h
      refine ⟨?_, ?_, ?_⟩
      · rcases d3 with ⟨d3, -⟩ | ⟨it, c, r, -, d3, -⟩
        · exact tables_of hA.tables d3 d1
        · exact setResponse_tables hA.tables c r s' d3 d1
      · intro o ho
        rw [hc] at ho
        have := hA.modify o ho
        cases hr : s'.running with
        | false => rfl
        | true => rw [hrf hr] at this; cases this
      · intro hr t' x hx
        have hf := hA.frozen (hrf hr)
        obtain ⟨pc', e1, e2, e3, e4, -⟩ := daemonStep_ok hA.tables (hf t pc hp) h
        rw [e1] at hx
        rcases set_get hx with ⟨-, rfl⟩ | ⟨-, hx⟩
        · exact e2
        · exact pcOk_of (hf t' x hx) e3 e4
  | cb t op =>
    simp only at h
    split at h
    · next it r rest hp =>
      obtain ⟨h1, h2, h3, h4⟩ := cbCall_ctl (hI.act t _ hp rfl) h
      have hrf : s'.running = true → s.running = true := by
        intro hr; rcases h4 with h4 | h4
        · rw [← h4]; exact hr
        · rw [h4] at hr; cases hr
      have hmod : ∀ o, s'.caller = .busy o .modify → s'.running = false := by
        intro o ho; rw [h1] at ho
        have := hA.modify o ho
        cases hr : s'.running with
        | false => rfl
        | true => rw [hrf hr] at this; cases this
      rcases cbCall_data h with ⟨d1, d2, d3, -⟩ | ⟨hr0, rfl, -⟩
      · refine ⟨tables_of hA.tables d1 d2, hmod, ?_⟩
        intro hr t' x hx
        rw [h2] at hx
        exact pcOk_of (hA.frozen (hrf hr) t' x hx) d3 (by rw [d1])
      · refine ⟨tables_modify hA.tables op, hmod, ?_⟩
        intro hr
        rw [hrf hr] at hr0; cases hr0
    · cases h
  | cbEnd t ok =>
    simp only at h
    split at h
    · next it r rest hp =>
      split at h <;> cases h
      all_goals
        refine ⟨tables_of hA.tables rfl rfl, hA.modify, ?_⟩
        intro hr t' x hx
        have hf := hA.frozen hr
        rcases set_get hx with ⟨-, rfl⟩ | ⟨-, hx⟩
        · first
          | trivial
          | exact itOk_of (hf t _ hp) rfl rfl
        · exact pcOk_of (hf t' x hx) rfl rfl
    · cases h
  | reorder t rest =>
    obtain ⟨it, it', h1, -, -, rfl, h2, h3, h4⟩ := reorder_eq hh
    refine ⟨tables_of hA.tables rfl rfl, hA.modify, ?_⟩
    intro hr t' x hx
    have hf := hA.frozen hr
    rcases set_get hx with ⟨-, rfl⟩ | ⟨-, hx⟩
    · exact reorder_ok hA.tables h2 h3 h4
    · exact pcOk_of (hf t' x hx) rfl rfl

theorem areach_any {dev : Device} {fl : Str → Option PyFloat} {ok : AW → Action → Prop} {s : AW} (h : AReach dev fl ok s) : AnyInv s := by
  induction h with
  | init a o h => exact ⟨⟨by simp [Dict.keys], by simp [Dict.keys, callbacks], by simp, by simp [callbacks], ⟨by simp [Dict.keys], by simp, by simp⟩⟩, by simp, by simp⟩
  | step s a s' h _ hs ih => exact any_step (areach_inv h) ih hs

/-! ## invariants with polite callbacks -/

structure PoliteInv (s : AW) : Prop where
  run : ∀ (t : Nat) (pc : Pc), s.threads[t]? = some pc → Pc.active pc = true → pc ≠ .drop1 → pc ≠ .drop2 →
    s.running = true ∨ ∃ op, s.caller = .busy op .stopRead ∨ ∃ t, s.caller = .busy op (.join t)
  start : ∀ op, s.caller = .busy op .startNew ∨ s.caller = .busy op .startGo → s.running = true
  ok : ∀ (t : Nat) (pc : Pc), s.threads[t]? = some pc → PcOk s pc
  complete : Complete s
  fine : .ended .listChanged ∉ s.log ∧ .ended .missing ∉ s.log

/-- Polite calls of callbacks leave the tables and `running` alone. -/
theorem cbCall_polite {dev : Device} {t : Nat} {op : AOp} {s s' : AW} (ht : s.thread = some t) (hp : politeCallback s (.cb t op))
    (h : s.cbCall dev t op = some s') :
    s'.commands = s.commands ∧ s'.cbl = s.cbl ∧ s'.dictId = s.dictId ∧ s'.running = s.running ∧ s'.log = s.log ∧ s'.wasRunning = s.wasRunning := by
  have hss : s.cbStart = s := by
    unfold cbStart; split
    · next h => rw [ht] at h; cases h.2.2
    · rfl
  unfold cbCall at h
  cases op <;> simp only [hss] at h <;> simp only [politeCallback] at hp
  case start => cases h; simp
  case query => cases h; simp
  case lowPower => cases h; exact ⟨rfl, rfl, rfl, rfl, rfl, rfl⟩
  case normalPower => cases h; exact ⟨rfl, rfl, rfl, rfl, rfl, rfl⟩
  all_goals rw [if_pos hp] at h; cases h; simp

theorem polite_step {dev : Device} {fl : ElmM.FloatFn} {s s' : AW} {a : Action} (hI : Inv s) (hA : AnyInv s) (hB : PoliteInv s)
    (hpol : politeCallback s a) (h : s.step dev fl a = some s') : PoliteInv s' := by
  have hA' := any_step hI hA h
  obtain ⟨es, he, hk⟩ := step_log h
  have hh := h
  unfold step at h
  cases a with
  | call op =>
    simp only at h
    cases hc : s.caller with
    | busy o p => rw [hc] at h; cases h
    | idle =>
      rw [hc] at h; cases h
      refine ⟨?_, ?_, ?_, complete_of hB.complete rfl rfl, ?_⟩
      · intro t pc h1 h2 h3 h4
        rcases hB.run t pc h1 h2 h3 h4 with h5 | ⟨o, h5 | ⟨t1, h5⟩⟩
        · exact Or.inl h5
        · rw [hc] at h5; cases h5
        · rw [hc] at h5; cases h5
      · intro o ho; exfalso; cases op <;> rcases ho with ho | ho <;> cases ho
      · intro t pc ht; exact pcOk_of (hB.ok t pc ht) rfl rfl
      · have := hB.fine; simpa [emit, goto] using this
  | caller =>
    simp only at h
    cases hc : s.caller with
    | idle => rw [hc] at h; cases h
    | busy o p =>
      rw [hc] at h
      have hdata := callerStep_data h
      have hrun := callerStep_running h
      have hth := callerStep_threads h
      have hnext := callerStep_next h
      have hCI := hI.caller
      unfold CallerInv at hCI
      rw [hc] at hCI
      have hes : ∀ e, .ended e ∉ es := by
        intro e hm
        rcases hk with ⟨o', h0, -⟩ | ⟨-, o', pc, pre, fin, -, -, h1, h2, h3⟩ | h1
        · cases h0
        · rw [h1] at hm
          rcases List.mem_append.mp hm with hm | hm
          · exact absurd (h2 _ hm) (by simp [Mid])
          · rcases h3 with ⟨rfl, -⟩ | ⟨-, rfl | ⟨y, rfl, -⟩⟩ <;> simp at hm
        · -- the user's thread records nothing else
          obtain ⟨pre, fin, h2, h3, h4⟩ := callerStep_log h
          rw [he] at h2
          have h2 := List.append_cancel_left h2
          rw [h2] at hm
          rcases List.mem_append.mp hm with hm | hm
          · exact absurd (h3 _ hm) (by simp [Mid])
          · rcases h4 with ⟨rfl, -⟩ | ⟨-, rfl | ⟨y, rfl, -⟩⟩ <;> simp at hm
      -- no active thread outside the drop positions while the tables are changed
      have hmod : p = .modify → ∀ (t : Nat) (pc : Pc), s.threads[t]? = some pc → Pc.active pc = true → pc = .drop1 ∨ pc = .drop2 := by
        intro e t pc h1 h2
        subst e
        by_contra h3
        have h3 : pc ≠ .drop1 ∧ pc ≠ .drop2 := by simpa using h3
        rcases hB.run t pc h1 h2 h3.1 h3.2 with h4 | ⟨o', h4 | ⟨t1, h4⟩⟩
        · rw [hA.modify o hc] at h4; cases h4
        · rw [hc] at h4; cases h4
        · rw [hc] at h4; cases h4
      have hpcs : ∀ (t : Nat) (pc : Pc), s.threads[t]? = some pc → PcOk s' pc := by
        intro t pc ht
        rcases hdata with ⟨d1, d2, d3⟩ | ⟨d, -⟩
        · exact pcOk_of (hB.ok t pc ht) d3 (by rw [d1])
        · cases ha : Pc.active pc with
          | false => exact pcOk_inactive ha
          | true => rcases hmod d t pc ht ha with rfl | rfl <;> trivial
      refine ⟨?_, ?_, ?_, ?_, ?_⟩
      · intro t pc h1 h2 h3 h4
        -- either the thread was there before, or it is just starting
        have hold : s.threads[t]? = some pc ∨ p = .startGo := by
          rcases hth with ⟨e1, -⟩ | ⟨-, e1, -⟩ | ⟨e, -⟩
          · left; rw [← e1]; exact h1
          · rw [e1] at h1
            rcases append_get h1 with h1 | ⟨-, rfl⟩
            · exact Or.inl h1
            · cases h2
          · exact Or.inr e
        rcases hold with hold | hgo
        · have hact := hI.act t pc hold h2
          rcases hrun with ⟨r1, -⟩ | ⟨-, r1, -⟩ | ⟨-, r1, r2, -⟩
          · rcases hB.run t pc hold h2 h3 h4 with h5 | ⟨o', h5 | ⟨t1, h5⟩⟩
            · left; rw [r1]; exact h5
            · rw [hc] at h5; cases h5
              rcases hnext.2.2.2.1 rfl with ⟨t1, -, h6⟩ | h6
              · right; exact ⟨o, Or.inr ⟨t1, h6⟩⟩
              · rw [hact] at h6; cases h6
            · rw [hc] at h5; cases h5
              exfalso
              have hov := hnext.2.2.2.2 t1 rfl
              have : t1 = t := by
                rcases hCI.2.1 with h6 | h6
                · rw [hact] at h6; cases h6; rfl
                · rw [hact] at h6; cases h6
              subst this
              unfold over at hov
              rw [hold] at hov
              cases pc <;> first | (cases hov; done) | (cases h2; done)
          · exact Or.inl r1
          · exact Or.inr ⟨o, Or.inl r2⟩
        · left
          rcases hrun with ⟨r1, -⟩ | ⟨r0, -⟩ | ⟨r0, -⟩
          · rw [r1]; exact hB.start o (Or.inr (by rw [hc, hgo]))
          · rw [hgo] at r0; cases r0
          · rw [hgo] at r0; cases r0
      · intro o' ho
        rcases ho with ho | ho
        · have hp := hnext.2.1 o' ho
          rcases hrun with ⟨-, r0, -⟩ | ⟨-, r1, -⟩ | ⟨r0, -⟩
          · exact absurd hp r0
          · exact r1
          · rw [hp] at r0; cases r0
        · have hp := hnext.2.2.1 o' ho
          rcases hrun with ⟨r1, -⟩ | ⟨r0, -⟩ | ⟨r0, -⟩
          · rw [r1]; exact hB.start o (Or.inl (by rw [hc, hp]))
          · rw [hp] at r0; cases r0
          · rw [hp] at r0; cases r0
      · intro t pc ht
        rcases hth with ⟨e1, -⟩ | ⟨-, e1, -⟩ | ⟨-, t1, -, e1, -⟩
        · rw [e1] at ht; exact hpcs t pc ht
        · rw [e1] at ht
          rcases append_get ht with ht | ⟨-, rfl⟩
          · exact hpcs t pc ht
          · trivial
        · rw [e1] at ht
          rcases set_get ht with ⟨-, rfl⟩ | ⟨-, ht⟩
          · trivial
          · exact hpcs t pc ht
      · rcases hdata with ⟨d1, d2, -⟩ | ⟨-, d1, d2, -⟩
        · exact complete_of hB.complete d1 d2
        · refine complete_of (s := (s.doModify o).2) ?_ d1 d2
          rcases doModify_changed hA.tables o with h1 | h1 | h1
          · exact h1.complete hB.complete
          · exact absurd hB.complete h1.2.1
          · rw [h1]; exact hB.complete
      · rw [he]
        constructor <;> intro hm <;> rcases List.mem_append.mp hm with hm | hm
        · exact hB.fine.1 hm
        · exact hes _ hm
        · exact hB.fine.2 hm
        · exact hes _ hm
  | daemon t =>
    simp only at h
    cases hp : s.threads[t]? with
    | none => rw [hp] at h; cases h
    | some pc =>
      rw [hp] at h
      obtain ⟨hc, -, hact, pc2, g1, -, h6⟩ := daemonStep_ctl h
      obtain ⟨pc', e1, e2, e3, e4, e5, e6, e7, e8, -⟩ := daemonStep_ok hA.tables (hB.ok t pc hp) h
      have hlt : t < s.threads.length := (List.getElem?_eq_some_iff.mp hp).1
      have hpc2 : pc2 = pc' := by
        have := congrArg (fun l => l[t]?) (g1.symm.trans e1)
        simpa [List.getElem?_set, hlt] using this
      subst hpc2
      refine ⟨?_, ?_, ?_, ?_, ?_⟩
      · intro t' x h1 h2 h3 h4
        rw [e1] at h1
        have hst := hI.act t pc hp hact
        rcases set_get h1 with ⟨-, rfl⟩ | ⟨hne, h1⟩
        · rcases h6 with ⟨-, r1, n1, -⟩ | ⟨-, -, -, h6⟩ | ⟨-, -, -, h6⟩
          · rw [r1, hc]
            by_cases hd : pc = .drop1
            · exfalso
              subst hd
              simp only [daemonStep] at h
              cases h
              have := congrArg (fun l => l[t]?) e1
              simp [setPc, List.getElem?_set, hlt] at this
              exact h4 this.symm
            · exact hB.run t pc hp hact hd n1
          · exact absurd h6 h4
          · rw [h6] at h2; cases h2
        · have := hI.act t' x h1 h2
          rw [hst] at this; cases this; exact absurd rfl hne
      · intro o ho
        exfalso
        rw [hc] at ho
        have hst := hI.act t pc hp hact
        have hCI := hI.caller
        unfold CallerInv at hCI
        rcases ho with ho | ho <;> rw [ho] at hCI
        · simp only at hCI; rw [hst] at hCI; cases hCI
        · obtain ⟨t1, h1, h2⟩ := hCI
          rw [hst] at h1; cases h1
          rw [hp] at h2; cases h2; cases hact
      · intro t' x hx
        rw [e1] at hx
        rcases set_get hx with ⟨-, rfl⟩ | ⟨-, hx⟩
        · exact e2
        · exact pcOk_of (hB.ok t' x hx) e3 e4
      · intro k hk'; rw [e4] at hk'; rw [callbacks_cbl e5]; exact hB.complete k hk'
      · constructor <;> intro hm
        · rcases e8 _ hm with hm | hm
          · exact hB.fine.1 hm
          · exact e6 hm
        · rcases e8 _ hm with hm | hm
          · exact hB.fine.2 hm
          · exact e7 hB.complete hm
  | cb t op =>
    simp only at h
    split at h
    · next it r rest hp =>
      have hst := hI.act t _ hp rfl
      obtain ⟨h1, h2, h3, -⟩ := cbCall_ctl hst h
      obtain ⟨d1, d2, d3, d4, d5, -⟩ := cbCall_polite hst hpol h
      refine ⟨?_, ?_, ?_, complete_of hB.complete d1 d2, ?_⟩
      · intro t' pc; rw [h2, d4, h1]; exact hB.run t' pc
      · intro o; rw [h1, d4]; exact hB.start o
      · intro t' x hx; rw [h2] at hx; exact pcOk_of (hB.ok t' x hx) d3 (by rw [d1])
      · rw [d5]; exact hB.fine
    · cases h
  | cbEnd t ok =>
    simp only at h
    split at h
    · next it r rest hp =>
      have hst := hI.act t _ hp rfl
      split at h <;> cases h
      · refine ⟨?_, hB.start, ?_, complete_of hB.complete rfl rfl, hB.fine⟩
        · intro t' x h1 h2 h3 h4
          rcases set_get h1 with ⟨-, rfl⟩ | ⟨-, h1⟩
          · exact hB.run t _ hp rfl (by simp) (by simp)
          · exact hB.run t' x h1 h2 h3 h4
        · intro t' x hx
          rcases set_get hx with ⟨-, rfl⟩ | ⟨-, hx⟩
          · exact itOk_of (hB.ok t _ hp) rfl rfl
          · exact pcOk_of (hB.ok t' x hx) rfl rfl
      · refine ⟨?_, hB.start, ?_, complete_of hB.complete rfl rfl, ?_⟩
        · intro t' x h1 h2 h3 h4
          rcases set_get h1 with ⟨-, rfl⟩ | ⟨-, h1⟩
          · cases h2
          · exact hB.run t' x h1 h2 h3 h4
        · intro t' x hx
          rcases set_get hx with ⟨-, rfl⟩ | ⟨-, hx⟩
          · trivial
          · exact pcOk_of (hB.ok t' x hx) rfl rfl
        · have := hB.fine; simpa [emit, setPc] using this
    · cases h
  | reorder t rest =>
    obtain ⟨it, it', h1, -, h2, -⟩ := reorder_eq hh
    exact absurd (hB.ok t _ h1).keys h2

theorem areach_polite {dev : Device} {fl : Str → Option PyFloat} {s : AW} (h : AReach dev fl politeCallback s) : PoliteInv s := by
  induction h with
  | init a o h => exact ⟨by simp, by simp, by simp, by simp [Complete, Dict.keys], by simp⟩
  | step s a s' h hok hs ih => exact polite_step (areach_inv h) (areach_any h) ih hok hs

end AW
end Model
