import Verif.Lemmas.AsyncConn
/-!
# After `stop`, and exceptions of `stop`
-/
namespace Model
open Py Spec
namespace AW
open ObdM

/-- Events of an update thread. -/
def Loop : Ev → Prop
  | .queried _ => True
  | .stored _ _ => True
  | .fired _ _ => True
  | .slept => True
  | .ended _ => True
  | _ => False

theorem daemonStep_log {dev : Device} {fl : ElmM.FloatFn} {t : Nat} {pc : Pc} {s s' : AW} (h : s.daemonStep dev fl t pc = some s') :
    ∃ es, s'.log = s.log ++ es ∧ ∀ e ∈ es, Loop e := by
  cases pc <;> simp only [daemonStep] at h
  case query it c =>
    cases hq : ObdM.query dev fl c true s.obd with
    | mk x o =>
      rw [hq] at h
      cases x <;> simp only [Option.some.injEq] at h <;> subst h
      · exact ⟨[.queried c, .ended _], by simp [emit, setPc]; rfl, by simp [Loop]⟩
      · exact ⟨[.queried c], rfl, by simp [Loop]⟩
  all_goals repeat' split at h
  all_goals first
    | (cases h; done)
    | (cases h; exact ⟨[], (List.append_nil _).symm, by simp⟩)
    | (cases h; exact ⟨[_], rfl, by simp [Loop]⟩)

/-- Events of calls made by callbacks. -/
def FromCb : Ev → Prop
  | .did _ => True
  | .started => True
  | _ => False

theorem cbCall_log {dev : Device} {t : Nat} {op : AOp} {s s' : AW} (h : s.cbCall dev t op = some s') :
    ∃ es, s'.log = s.log ++ es ∧ ∀ e ∈ es, FromCb e := by
  have hstart : ∀ x : AW, ∃ es, x.cbStart.log = x.log ++ es ∧ ∀ e ∈ es, FromCb e := by
    intro x; unfold cbStart; split
    · exact ⟨[.started], rfl, by simp [FromCb]⟩
    · exact ⟨[], by simp, by simp⟩
  have hstop : ∀ x y : AW, x.cbStop t = some y → y.log = x.log := by
    intro x y hx; unfold cbStop at hx
    repeat' split at hx
    all_goals first | (cases hx; done) | (cases hx; rfl)
  have hm := doModify_log op s
  have hnil : ∀ x : AW, x.log = s.log → ∃ es, x.log = s.log ++ es ∧ ∀ e ∈ es, FromCb e :=
    fun x hx => ⟨[], by simp [hx], by simp⟩
  unfold cbCall at h
  cases op <;> simp only at h
  case start => cases h; exact hstart s
  case stop => exact hnil _ (hstop _ _ h)
  case enter => exact hnil _ (hstop { s with wasRunning := s.running } _ h)
  case exit => cases h; split; exacts [hstart s, hnil _ rfl]
  case close =>
    split at h
    · cases h; exact hnil _ rfl
    · exact hnil _ (hstop _ _ h)
  case query => cases h; exact hnil _ rfl
  case lowPower => cases h; exact hnil _ rfl
  case normalPower => cases h; exact hnil _ rfl
  all_goals
    cases h
    split
    · exact hnil _ rfl
    · rcases hm with hm | hm
      · exact hnil _ hm
      · exact ⟨_, hm, by simp [FromCb]⟩

theorem placed_step {dev : Device} {fl : ElmM.FloatFn} {s s' : AW} {a : Action} (hI : Inv s) (hP : Placed s) (h : s.step dev fl a = some s') : Placed s' := by
  have keep : s'.caller = s.caller → Placed s' := by
    intro hc op pc h; rw [hc] at h; exact hP op pc h
  have hh := h
  unfold step at h
  cases a with
  | call op =>
    simp only at h
    cases hc : s.caller with
    | busy o p => rw [hc] at h; cases h
    | idle =>
      rw [hc] at h; cases h
      intro o p h; cases h; cases op <;> rfl
  | caller =>
    simp only at h
    cases hc : s.caller with
    | idle => rw [hc] at h; cases h
    | busy o p => rw [hc] at h; exact placed_caller (hP o p hc) h
  | daemon t =>
    simp only at h
    cases hp : s.threads[t]? with
    | none => rw [hp] at h; cases h
    | some pc => rw [hp] at h; exact keep (daemonStep_ctl h).1
  | cb t op =>
    simp only at h
    split at h
    · next it r rest hp => exact keep (cbCall_ctl (hI.act t _ hp rfl) h).1
    · cases h
  | cbEnd t ok =>
    simp only at h
    split at h
    · split at h <;> cases h <;> exact keep rfl
    · cases h
  | reorder t rest => obtain ⟨_, _, -, -, -, rfl, -⟩ := reorder_eq hh; exact keep rfl

theorem areach_placed {dev : Device} {fl : Str → Option PyFloat} {ok : AW → Action → Prop} {s : AW} (h : AReach dev fl ok s) : Placed s := by
  induction h with
  | init a o h => intro op pc h; cases h
  | step s a s' h _ hs ih => exact placed_step (areach_inv h) ih hs

/-- The loop is stopped and not being started. -/
def Quiet (s : AW) : Prop := s.thread = none ∧ ∀ op pc, s.caller = .busy op pc → op ≠ .start ∧ op ≠ .exit

theorem callerStep_thread {dev : Device} {op : AOp} {pc : CPc} {s s' : AW} (h : s.callerStep dev op pc = some s') :
    s'.thread = s.thread ∨ s'.thread = none ∨ pc = .startNew := by
  have hafter : ∀ x : AW, (x.afterStop op).thread = x.thread := fun x => (afterStop_caller op x).2.1
  have hm := (doModify_ctl op s).1
  cases pc <;> simp only [callerStep] at h
  case startNew => exact Or.inr (Or.inr rfl)
  case stopEnd => cases h; right; left; rw [hafter]
  case stopNone =>
    cases h; left; split
    · rw [hafter]
    · rfl
  case modify =>
    left
    cases hd : s.doModify op with
    | mk x s1 => rw [hd] at h hm; cases x <;> cases h <;> exact hm
  case ask => left; cases op <;> simp only [Option.some.injEq] at h <;> subst h <;> rfl
  all_goals left
  all_goals repeat' split at h
  all_goals first | (cases h; done) | (cases h; rfl) | (cases h; split <;> rfl)

theorem quiet_step {dev : Device} {fl : ElmM.FloatFn} {s s' : AW} {a : Action} (hI : Inv s) (hP : Placed s) (hq : Quiet s)
    (h : s.step dev fl a = some s') :
    ∃ es, s'.log = s.log ++ es ∧ (∀ e ∈ es, Ev.work e = false) ∧ ((∀ e ∈ es, Ev.mayStart e = false) → Quiet s') := by
  have hna := noactive hI hq.1
  have hh := h
  unfold step at h
  cases a with
  | reorder t rest =>
    obtain ⟨_, _, hp, -⟩ := reorder_eq hh
    have := hna t _ hp; cases this
  | call op =>
    simp only at h
    cases hc : s.caller with
    | busy o p => rw [hc] at h; cases h
    | idle =>
      rw [hc] at h; cases h
      refine ⟨[.call op], rfl, by simp [Ev.work], ?_⟩
      intro hm
      have hm := hm _ (List.mem_singleton.mpr rfl)
      refine ⟨hq.1, ?_⟩
      intro o p ho; cases ho
      constructor <;> intro e <;> subst e <;> cases hm
  | caller =>
    simp only at h
    cases hc : s.caller with
    | idle => rw [hc] at h; cases h
    | busy o p =>
      rw [hc] at h
      obtain ⟨pre, fin, h1, h2, h3⟩ := callerStep_log h
      have hno := hq.2 o p hc
      refine ⟨pre ++ fin, h1, ?_, ?_⟩
      · intro e he
        rcases List.mem_append.mp he with he | he
        · have := h2 e he; cases e <;> first | rfl | exact absurd this (by simp [Mid])
        · rcases h3 with ⟨rfl, -⟩ | ⟨-, rfl | ⟨x, rfl, -⟩⟩
          · cases he
          · simp at he; subst he; rfl
          · simp at he; subst he; rfl
      · intro _
        refine ⟨?_, ?_⟩
        · rcases callerStep_thread h with h4 | h4 | h4
          · rw [h4]; exact hq.1
          · exact h4
          · have := hP o p hc
            rw [h4] at this
            cases o <;> first | (cases this; done) | exact absurd rfl hno.1 | exact absurd rfl hno.2
        · intro op' pc' h5
          rcases h3 with ⟨-, -, pc2, h6⟩ | ⟨h6, -⟩
          · rw [h6] at h5; cases h5; exact hno
          · rw [h6] at h5; cases h5
  | daemon t =>
    simp only at h
    cases hp : s.threads[t]? with
    | none => rw [hp] at h; cases h
    | some pc =>
      rw [hp] at h
      have h1 := (daemonStep_ctl h).2.2.1
      rw [hna t pc hp] at h1; cases h1
  | cb t op =>
    simp only at h
    split at h
    · next it r rest hp => have := hna t _ hp; cases this
    · cases h
  | cbEnd t ok =>
    simp only at h
    split at h
    · next it r rest hp => have := hna t _ hp; cases this
    · cases h

/-- The events of any step. -/
theorem step_log {dev : Device} {fl : ElmM.FloatFn} {s s' : AW} {a : Action} (h : s.step dev fl a = some s') :
    ∃ es, s'.log = s.log ++ es ∧
      ((∃ op, a = .call op ∧ es = [.call op]) ∨
       (a = .caller ∧ ∃ op pc pre fin, s.caller = .busy op pc ∧ s.callerStep dev op pc = some s' ∧ es = pre ++ fin ∧ (∀ e ∈ pre, Mid op e) ∧
         ((fin = [] ∧ pre = [] ∧ ∃ pc', s'.caller = .busy op pc') ∨
          (s'.caller = .idle ∧ (fin = [.ret op] ∨ ∃ x, fin = [.raised op x] ∧
            ((pc = .stopRead ∧ s.thread = none) ∨ (pc = .startGo ∧ s.thread = none) ∨ pc = .closeObd ∨ pc = .modify ∨ pc = .power))))) ∨
       (∀ e ∈ es, Loop e ∨ FromCb e)) := by
  have hh := h
  unfold step at h
  cases a with
  | call op =>
    simp only at h
    cases hc : s.caller with
    | busy o p => rw [hc] at h; cases h
    | idle => rw [hc] at h; cases h; exact ⟨[.call op], rfl, Or.inl ⟨op, rfl, rfl⟩⟩
  | caller =>
    simp only at h
    cases hc : s.caller with
    | idle => rw [hc] at h; cases h
    | busy o p =>
      rw [hc] at h
      obtain ⟨pre, fin, h1, h2, h3⟩ := callerStep_log h
      exact ⟨pre ++ fin, h1, Or.inr (Or.inl ⟨rfl, o, p, pre, fin, rfl, h, rfl, h2, h3⟩)⟩
  | daemon t =>
    simp only at h
    cases hp : s.threads[t]? with
    | none => rw [hp] at h; cases h
    | some pc =>
      rw [hp] at h
      obtain ⟨es, h1, h2⟩ := daemonStep_log h
      exact ⟨es, h1, Or.inr (Or.inr (fun e he => Or.inl (h2 e he)))⟩
  | cb t op =>
    simp only at h
    split at h
    · next it r rest hp =>
      obtain ⟨es, h1, h2⟩ := cbCall_log h
      exact ⟨es, h1, Or.inr (Or.inr (fun e he => Or.inr (h2 e he)))⟩
    · cases h
  | cbEnd t ok =>
    simp only at h
    split at h
    · split at h <;> cases h
      · exact ⟨[], by simp [setPc], Or.inr (Or.inr (by simp))⟩
      · exact ⟨[.ended .callback], rfl, Or.inr (Or.inr (by simp [Loop]))⟩
    · cases h
  | reorder t rest => obtain ⟨_, _, -, -, -, rfl, -⟩ := reorder_eq hh; exact ⟨[], by simp [setPc], Or.inr (Or.inr (by simp))⟩

/-- When `stop()` (or a method containing it) returns, the loop is stopped. -/
theorem ret_quiet {dev : Device} {op : AOp} {pc : CPc} {s s' : AW} (hI : Inv s) (hc : s.caller = .busy op pc) (hb : belongs op pc = true)
    (hop : op = .stop ∨ op = .enter ∨ op = .close)
    (h : s.callerStep dev op pc = some s') (hi : s'.caller = .idle) (hr : s'.log = s.log ++ [.ret op]) : Quiet s' := by
  refine ⟨?_, by intro o p h; rw [hi] at h; cases h⟩
  have hCI := hI.caller
  unfold CallerInv at hCI
  rw [hc] at hCI
  have hafter : ∀ x : AW, (x.afterStop op).thread = x.thread := fun x => (afterStop_caller op x).2.1
  cases pc <;> simp only [callerStep] at h
  case stopNone =>
    cases h; split
    · next hn => rw [hafter]; exact hn
    · next hn => rw [if_neg hn] at hi; cases hi
  case stopEnd => cases h; rw [hafter]
  case closeObd => split at h <;> cases h <;> exact hCI
  case stopRun => cases h; cases hi
  case stopRead =>
    split at h <;> cases h
    · next hn => simp [raise, emit] at hr
    · cases hi
  case join => split at h <;> cases h; cases hi
  case enter => cases h; cases hi
  all_goals rcases hop with rfl | rfl | rfl <;> cases hb

/-- Lists that end alike. -/
theorem append_cons_split {α : Type} {a b l es : List α} {x : α} (h : a ++ x :: b = l ++ es) :
    (∃ b', b = b' ++ es ∧ l = a ++ x :: b') ∨ (∃ a', a = l ++ a' ∧ es = a' ++ x :: b) := by
  rcases List.append_eq_append_iff.mp h with ⟨c, h1, h2⟩ | ⟨c, h1, h2⟩
  · cases c with
    | nil => right; exact ⟨[], by simp at h1; simp [h1], by simpa using h2.symm⟩
    | cons y c => simp at h2; left; exact ⟨c, h2.2, by rw [h1, h2.1]⟩
  · right; exact ⟨c, h1, h2⟩

theorem after_stop {dev : Device} {fl : Str → Option PyFloat} {ok : AW → Action → Prop} {s : AW} (hR : AReach dev fl ok s) :
    ∀ (op : AOp) (a b : List Ev), (op = .stop ∨ op = .enter ∨ op = .close) → s.log = a ++ .ret op :: b → (∀ e ∈ b, Ev.mayStart e = false) →
      (∀ e ∈ b, Ev.work e = false) ∧ Quiet s := by
  induction hR with
  | init x o h => intro op a b _ h; simp at h
  | step s act s' h _ hs ih =>
    intro op a b hop hl hb
    have hI := areach_inv h
    have hP := areach_placed h
    obtain ⟨es, he, hk⟩ := step_log hs
    rw [he] at hl
    rcases append_cons_split hl.symm with ⟨b', rfl, hl'⟩ | ⟨a', rfl, hl'⟩
    · obtain ⟨h1, h2⟩ := ih op a b' hop hl' (fun e he => hb e (List.mem_append_left _ he))
      obtain ⟨es', h3, h4, h5⟩ := quiet_step hI hP h2 hs
      rw [he] at h3
      have h3 := List.append_cancel_left h3
      subst h3
      refine ⟨?_, h5 (fun e he => hb e (List.mem_append_right _ he))⟩
      intro e he
      rcases List.mem_append.mp he with he | he
      · exact h1 e he
      · exact h4 e he
    · rcases hk with ⟨o, -, h1⟩ | ⟨-, o, pc, pre, fin, hc, hcs, h1, h2, h3⟩ | h1
      · rw [h1] at hl'
        cases a' with
        | nil => simp at hl'
        | cons y a' => simp at hl'
      · have hfin : ∀ e ∈ fin, e = .ret o ∨ ∃ x, e = .raised o x := by
          intro e he
          rcases h3 with ⟨rfl, -⟩ | ⟨-, rfl | ⟨x, rfl, -⟩⟩
          · cases he
          · left; simpa using he
          · right; exact ⟨x, by simpa using he⟩
        rw [h1] at hl'
        rcases append_cons_split hl'.symm with ⟨b', h4, h5⟩ | ⟨a2, h4, h5⟩
        · have := h2 (.ret op) (by rw [h5]; simp)
          exact absurd this (by simp [Mid])
        · rcases h3 with ⟨rfl, -⟩ | ⟨hi, rfl | ⟨x, rfl, -⟩⟩
          · simp at h5
          · cases a2 with
            | nil =>
              simp at h5
              obtain ⟨h6, h7⟩ := h5
              subst h7
              subst h6
              refine ⟨by simp, ?_⟩
              -- nothing else was recorded
              have hpre : pre = [] := by
                rcases hop with rfl | rfl | rfl
                all_goals
                  have hbl := hP _ pc hc
                  cases pc <;> first | (cases hbl; done) | skip
                all_goals
                  cases pre with
                  | nil => rfl
                  | cons y pre =>
                    exfalso
                    have hl2 := congrArg List.length (show s'.log = s.log ++ (y :: pre ++ [_]) by rw [he, h1])
                    have hne : s'.log.length ≤ s.log.length + 1 := by
                      have ha : ∀ x : AW, ∀ o : AOp, (x.afterStop o).log.length ≤ x.log.length + 1 := by
                        intro x o; unfold afterStop; split <;> simp [goto, ret, emit]
                      clear hl2
                      simp only [callerStep] at hcs
                      repeat' split at hcs
                      all_goals first
                        | (cases hcs; done)
                        | (cases hcs; simp [goto, ret, emit, raise]; done)
                        | (cases hcs; exact ha _ _)
                        | (cases hcs; split <;> first | exact ha _ _ | (simp [goto, ret, emit]; done))
                    simp at hl2
                    omega
              subst hpre
              exact ret_quiet hI hc (hP _ pc hc) hop hcs hi (by rw [he, h1]; rfl)
            | cons y a2 => simp at h5
          · cases a2 with
            | nil => simp at h5
            | cons y a2 => simp at h5
      · have := h1 (.ret op) (by rw [hl']; simp)
        exact absurd this (by simp [Loop, FromCb])

/-! ## exceptions -/

structure GoneInv (s : AW) : Prop where
  drop : ∀ t : Nat, s.threads[t]? = some Pc.drop1 ∨ s.threads[t]? = some Pc.drop2 → Gone s.obd
  call : ∀ op pc, s.caller = .busy op pc → pc = .stopRun ∨ pc = .stopRead → s.thread = none → Gone s.obd
  log : ∀ op x, Ev.raised op x ∈ s.log → op = .stop ∨ op = .enter → Gone s.obd
  start : ∀ op x, Ev.raised op x ∈ s.log → op ≠ .start ∧ op ≠ .exit

theorem daemonStep_drop {dev : Device} {fl : ElmM.FloatFn} {t : Nat} {pc : Pc} {s s' : AW} (h : s.daemonStep dev fl t pc = some s') :
    ∃ pc', s'.threads = s.threads.set t pc' ∧ (pc' = .drop1 → Gone s.obd) ∧ (pc' = .drop2 → pc = .drop1) := by
  cases pc <;> simp only [daemonStep] at h
  case conn it c =>
    split at h <;> cases h
    · exact ⟨_, rfl, by simp, by simp⟩
    · next hn => exact ⟨_, rfl, by intro _; simpa [Gone] using hn, by simp⟩
  case drop1 => cases h; exact ⟨_, rfl, by simp, by simp⟩
  all_goals repeat' split at h
  all_goals first | (cases h; done) | (cases h; exact ⟨_, rfl, by simp, by simp⟩)

theorem gone_inv_step {dev : Device} {fl : ElmM.FloatFn} {s s' : AW} {a : Action} (hI : Inv s) (hP : Placed s) (hG : GoneInv s)
    (h : s.step dev fl a = some s') : GoneInv s' := by
  have hkeep := gone_step h
  have hstep := h
  obtain ⟨es, he, hk⟩ := step_log h
  -- exceptions recorded by this step
  have hev : ∀ op x, Ev.raised op x ∈ es → ∃ pc, s.caller = .busy op pc ∧
      ((pc = .stopRead ∧ s.thread = none) ∨ (pc = .startGo ∧ s.thread = none) ∨ pc = .closeObd ∨ pc = .modify ∨ pc = .power) := by
    intro op x hm
    rcases hk with ⟨o, -, h1⟩ | ⟨-, o, pc, pre, fin, hc, -, h1, h2, h3⟩ | h1
    · rw [h1] at hm; simp at hm
    · rw [h1] at hm
      rcases List.mem_append.mp hm with hm | hm
      · exact absurd (h2 _ hm) (by simp [Mid])
      · rcases h3 with ⟨rfl, -⟩ | ⟨-, rfl | ⟨y, rfl, h4⟩⟩
        · cases hm
        · simp at hm
        · simp at hm; obtain ⟨rfl, rfl⟩ := hm; exact ⟨pc, hc, h4⟩
    · exact absurd (h1 _ hm) (by simp [Loop, FromCb])
  have hlog : ∀ op x, Ev.raised op x ∈ s'.log → op = .stop ∨ op = .enter → Gone s'.obd := by
    intro op x hm hop
    rw [he] at hm
    rcases List.mem_append.mp hm with hm | hm
    · exact hkeep (hG.log op x hm hop)
    · obtain ⟨pc, hc, h1⟩ := hev op x hm
      have hb := hP op pc hc
      rcases h1 with ⟨h1, h2⟩ | ⟨h1, -⟩ | h1 | h1 | h1
      · exact hkeep (hG.call op pc hc (Or.inr h1) h2)
      all_goals subst h1; rcases hop with rfl | rfl <;> cases hb
  have hstart : ∀ op x, Ev.raised op x ∈ s'.log → op ≠ .start ∧ op ≠ .exit := by
    intro op x hm
    rw [he] at hm
    rcases List.mem_append.mp hm with hm | hm
    · exact hG.start op x hm
    · obtain ⟨pc, hc, h1⟩ := hev op x hm
      have hb := hP op pc hc
      rcases h1 with ⟨h1, -⟩ | ⟨h1, h2⟩ | h1 | h1 | h1
      · subst h1; constructor <;> rintro rfl <;> cases hb
      · have := hI.caller
        unfold CallerInv at this
        rw [hc, h1] at this
        obtain ⟨t, h3, -⟩ := this
        rw [h2] at h3; cases h3
      all_goals subst h1; constructor <;> rintro rfl <;> cases hb
  clear hk hev
  have hh := h
  unfold step at h
  cases a with
  | call op =>
    simp only at h
    cases hc : s.caller with
    | busy o p => rw [hc] at h; cases h
    | idle =>
      rw [hc] at h; cases h
      refine ⟨hG.drop, ?_, hlog, hstart⟩
      intro o p ho hp; cases ho; cases op <;> simp [entry] at hp
  | caller =>
    simp only at h
    cases hc : s.caller with
    | idle => rw [hc] at h; cases h
    | busy o p =>
      rw [hc] at h
      refine ⟨?_, ?_, hlog, hstart⟩
      · intro t ht
        have hth : s'.threads[t]? = some Pc.drop1 ∨ s'.threads[t]? = some Pc.drop2 → s.threads[t]? = some Pc.drop1 ∨ s.threads[t]? = some Pc.drop2 := by
          have hafter : ∀ x : AW, (x.afterStop o).threads = x.threads := fun x => (afterStop_caller o x).2.2.1
          have hm := (doModify_ctl o s).2.1
          have hset : ∀ t1 (x : AW), x.threads = s.threads.set t1 .test → x.threads[t]? = some Pc.drop1 ∨ x.threads[t]? = some Pc.drop2 →
              s.threads[t]? = some Pc.drop1 ∨ s.threads[t]? = some Pc.drop2 := by
            intro t1 x hx h1
            rw [hx] at h1
            rcases h1 with h1 | h1 <;> rcases set_get h1 with ⟨-, h2⟩ | ⟨-, h2⟩
            · cases h2
            · exact Or.inl h2
            · cases h2
            · exact Or.inr h2
          cases p <;> simp only [callerStep] at h
          case startNew =>
            cases h
            intro h1
            by_cases hlt : t < s.threads.length
            · simpa [goto, List.getElem?_append, hlt] using h1
            · by_cases heq : t = s.threads.length
              · subst heq; simp [goto] at h1
              · have : (s.threads ++ [Pc.notStarted])[t]? = none := List.getElem?_eq_none (by simp; omega)
                simp only [goto, this] at h1
                rcases h1 with h1 | h1 <;> cases h1
          case startGo =>
            split at h <;> cases h
            · exact id
            · exact hset _ _ rfl
          case stopEnd => cases h; rw [hafter]; exact id
          case stopNone => cases h; split; · rw [hafter]; exact id
                           · exact id
          case modify =>
            cases hd : s.doModify o with
            | mk x s1 => rw [hd] at h hm; cases x <;> cases h <;> (show s1.threads[t]? = _ ∨ s1.threads[t]? = _ → _; rw [hm]; exact id)
          case ask => cases o <;> simp only [Option.some.injEq] at h <;> subst h <;> exact id
          all_goals repeat' split at h
          all_goals first | (cases h; done) | (cases h; exact id) | (cases h; split <;> exact id)
        exact hkeep (hG.drop t (hth ht))
      · intro o' p' ho hp hn
        cases p <;> simp only [callerStep] at h
        case stopNone =>
          cases h
          split at hn
          · next ht =>
            exfalso
            rw [if_pos ht] at ho
            rcases (afterStop_caller o s).1 with h1 | h1 <;> rw [h1] at ho <;> cases ho
            rcases hp with hp | hp <;> cases hp
          · next ht => exact absurd hn ht
        case stopRun =>
          cases h
          exact hG.call o .stopRun hc (Or.inl rfl) hn
        case stopEnd =>
          exfalso
          cases h
          rcases (afterStop_caller o { s with thread := none }).1 with h1 | h1 <;> rw [h1] at ho <;> cases ho
          rcases hp with hp | hp <;> cases hp
        all_goals exfalso
        case ask => cases o <;> simp only [Option.some.injEq] at h <;> subst h <;> cases ho
        all_goals repeat' split at h
        all_goals first
          | (cases h; done)
          | (cases h; cases ho; done)
          | (cases h; cases ho; rcases hp with hp | hp <;> cases hp; done)
          | (cases h; split at ho <;> first | (cases ho; done) | (cases ho; rcases hp with hp | hp <;> cases hp))
  | daemon t =>
    simp only at h
    cases hp : s.threads[t]? with
    | none => rw [hp] at h; cases h
    | some pc =>
      rw [hp] at h
      obtain ⟨pc', h1, h2, h3⟩ := daemonStep_drop h
      obtain ⟨hc, -, -, pc2, -, -, h6⟩ := daemonStep_ctl h
      refine ⟨?_, ?_, hlog, hstart⟩
      · intro t' ht'
        rw [h1] at ht'
        apply hkeep
        rcases ht' with ht' | ht' <;> rcases set_get ht' with ⟨rfl, h4⟩ | ⟨-, h4⟩
        · exact h2 h4.symm
        · exact hG.drop t' (Or.inl h4)
        · exact hG.drop t' (Or.inl (by rw [hp, h3 h4.symm]))
        · exact hG.drop t' (Or.inr h4)
      · intro o p ho hpp hn
        rw [hc] at ho
        apply hkeep
        rcases h6 with h6 | h6 | h6
        · rw [h6.1] at hn; exact hG.call o p ho hpp hn
        · rw [h6.1] at hn; exact hG.call o p ho hpp hn
        · exact hG.drop t (Or.inr (by rw [hp, h6.2.2.1]))
  | cb t op =>
    simp only at h
    split at h
    · next it r rest hp =>
      obtain ⟨h1, h2, h3, -⟩ := cbCall_ctl (hI.act t _ hp rfl) h
      refine ⟨?_, ?_, hlog, hstart⟩
      · intro t' ht'; rw [h2] at ht'; exact hkeep (hG.drop t' ht')
      · intro o p ho hpp hn
        rw [h1] at ho; rw [h3] at hn
        exact hkeep (hG.call o p ho hpp hn)
    · cases h
  | cbEnd t ok =>
    simp only at h
    split at h
    · next it r rest hp =>
      split at h <;> cases h
      all_goals
        refine ⟨?_, hG.call, hlog, hstart⟩
        intro t' ht'
        rcases ht' with ht' | ht' <;> rcases set_get ht' with ⟨-, h4⟩ | ⟨-, h4⟩
        · cases h4
        · exact hG.drop t' (Or.inl h4)
        · cases h4
        · exact hG.drop t' (Or.inr h4)
    · cases h
  | reorder t rest =>
    obtain ⟨it, it', h1, -, -, rfl, -⟩ := reorder_eq hh
    refine ⟨?_, hG.call, hlog, hstart⟩
    intro t' ht'
    rcases ht' with ht' | ht' <;> rcases set_get ht' with ⟨-, h4⟩ | ⟨-, h4⟩
    · cases h4
    · exact hG.drop t' (Or.inl h4)
    · cases h4
    · exact hG.drop t' (Or.inr h4)

theorem areach_gone {dev : Device} {fl : Str → Option PyFloat} {ok : AW → Action → Prop} {s : AW} (h : AReach dev fl ok s) : GoneInv s := by
  induction h with
  | init a o h => exact ⟨by simp, by simp, by simp, by simp⟩
  | step s a s' h _ hs ih => exact gone_inv_step (areach_inv h) (areach_placed h) ih hs

end AW
end Model
