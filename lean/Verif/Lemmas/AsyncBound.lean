import Verif.Lemmas.AsyncOne
/-!
# One call, also `close()` and also when the connection is lost meanwhile: bounds
-/
namespace Model
open Py Spec
namespace AW

theorem some?_keys {s s' : AW} (h : Dict.keys s'.commands = Dict.keys s.commands) : s'.some? = s.some? := by
  have hl : s'.commands.length = s.commands.length := by
    have := congrArg List.length h
    simpa [Dict.keys] using this
  unfold some?
  rw [decide_eq_decide, not_iff_not, ← List.length_eq_zero_iff, ← List.length_eq_zero_iff, hl]

/-- Steps of update threads and polite callbacks, on any connection. -/
theorem thread_any {dev : Device} {fl : ElmM.FloatFn} {s s' : AW} {a : Action} (hI : Inv s) (hA : AnyInv s) (hB : PoliteInv s)
    (hp : politeCallback s a) (ha : a ≠ .caller) (hn : ∀ op, a ≠ .call op) (h : s.step dev fl a = some s') :
    s'.caller = s.caller ∧ s'.wasRunning = s.wasRunning ∧ (s'.running = true → s.running = true) ∧ s'.some? = s.some? := by
  have hh := h
  unfold step at h
  cases a with
  | call o => exact absurd rfl (hn o)
  | caller => exact absurd rfl ha
  | daemon t =>
    simp only at h
    cases hq : s.threads[t]? with
    | none => rw [hq] at h; cases h
    | some pc =>
      rw [hq] at h
      obtain ⟨h1, h2, h3, pc', -, -, h6⟩ := daemonStep_ctl h
      refine ⟨h1, h2, ?_, some?_keys (by obtain ⟨_, _, _, _, hk, _⟩ := daemonStep_ok hA.tables (hB.ok t pc hq) h; exact hk)⟩
      rcases h6 with h6 | h6 | h6
      · rw [h6.2.1]; exact id
      · rw [h6.2.1]; intro e; cases e
      · rw [h6.2.1]; exact id
  | cb t o =>
    simp only at h
    split at h
    · next it r rest hq =>
      have hst := hI.act t _ hq rfl
      obtain ⟨h1, -, h3, -⟩ := cbCall_ctl hst h
      obtain ⟨h2, -, -, h4, -, h5⟩ := cbCall_polite hst hp h
      exact ⟨h1, h5, by rw [h4]; exact id, some?_keys (by rw [h2])⟩
    · cases h
  | cbEnd t ok =>
    simp only at h
    split at h
    · split at h <;> cases h
      · exact ⟨rfl, rfl, id, rfl⟩
      · exact ⟨rfl, rfl, id, rfl⟩
    · cases h
  | reorder t rest =>
    obtain ⟨it, it', h1, -, h2, -⟩ := reorder_eq hh
    exact absurd (hB.ok t _ h1).keys h2

/-- Positions inside a call; `x` says how things were when it began, `b` whether something was watched. -/
def WithinB (x : Bool × Bool) (b : Bool) (op : AOp) (pc : CPc) (s : AW) : Prop :=
  match op with
  | .start => (s.wasRunning = true → x.2 = true) ∧ (s.running = true → (x.1 || b) = true) ∧ (pc = .startConn ∨ pc = .startLen → s.some? = b) ∧
      (pc = .startNone ∨ pc = .startRun ∨ pc = .startNew ∨ pc = .startGo → b = true)
  | .stop => (s.wasRunning = true → x.2 = true) ∧ (pc = .stopRead ∨ (∃ t, pc = .join t) ∨ pc = .stopEnd → s.running = false)
  | .close => (s.wasRunning = true → x.2 = true) ∧ (pc = .stopRead ∨ (∃ t, pc = .join t) ∨ pc = .stopEnd ∨ pc = .closeObd → s.running = false)
  | .enter => (pc = .enter → s.running = true → x.1 = true) ∧ (pc ≠ .enter → s.wasRunning = true → x.1 = true) ∧
      (pc = .stopRead ∨ (∃ t, pc = .join t) ∨ pc = .stopEnd → s.running = false)
  | .exit => (s.wasRunning = true → x.2 = true) ∧ (s.running = true → (x.1 || (x.2 && b)) = true) ∧
      (pc = .exit ∨ pc = .startConn ∨ pc = .startLen → s.some? = b) ∧ (pc ≠ .exit → x.2 = true) ∧
      (pc = .startNone ∨ pc = .startRun ∨ pc = .startNew ∨ pc = .startGo → b = true)
  | _ => (s.running = true → x.1 = true) ∧ (s.wasRunning = true → x.2 = true)

/-- Bounds. -/
def Below (x : Bool × Bool) (s : AW) : Prop := (s.running = true → x.1 = true) ∧ (s.wasRunning = true → x.2 = true)

/-- After a call. -/
def DoneB (x : Bool × Bool) (b : Bool) (op : AOp) (s : AW) : Prop :=
  (s.caller = .idle ∧ Below (switchedBy b x op) s) ∨ ∃ pc, s.caller = .busy op pc ∧ WithinB x b op pc s

theorem bound_caller {dev : Device} {x : Bool × Bool} {b : Bool} {op : AOp} {pc : CPc} {s s' : AW} (hI : Inv s)
    (hb : belongs op pc = true) (hc : s.caller = .busy op pc)
    (h : s.callerStep dev op pc = some s') (hM : WithinB x b op pc s) : DoneB x b op s' := by
  have hstill : s.thread = none → pc ≠ .startNew → s.running = false := by
    intro ht hp
    cases hr : s.running with
    | false => rfl
    | true =>
      rcases hI.run hr with h5 | ⟨o, h5⟩
      · exact absurd ht h5
      · rw [hc] at h5; cases h5; exact absurd rfl hp
  have hsome : s.commands.length ≠ 0 → s.some? = true := by
    intro h; exact decide_eq_true (fun e => h (by rw [e]; rfl))
  have hm := doModify_ctl op s
  have hf : ∀ {p : Prop}, s.running = false → s.running = true → p := by
    intro p h1 h2; rw [h1] at h2; cases h2
  cases op with
  | start =>
    obtain ⟨hw, h1, h2, h3⟩ := hM
    have hdone : ∀ s1 : AW, s1.caller = .idle → s1.running = s.running → s1.wasRunning = s.wasRunning → DoneB x b .start s1 :=
      fun s1 e1 e2 e3 => Or.inl ⟨e1, fun hr => h1 (e2 ▸ hr), fun hr => hw (e3 ▸ hr)⟩
    cases pc <;> first | (cases hb; done) | skip
    all_goals simp only [callerStep] at h
    · split at h <;> cases h
      · exact Or.inr ⟨_, rfl, hw, h1, fun _ => h2 (by simp), by simp⟩
      · exact hdone _ rfl rfl rfl
    · split at h <;> cases h
      · exact hdone _ rfl rfl rfl
      · next e => exact Or.inr ⟨_, rfl, hw, h1, by simp, fun _ => by rw [← h2 (by simp)]; exact hsome e⟩
    · split at h <;> cases h
      · exact Or.inr ⟨_, rfl, hw, h1, by simp, fun _ => h3 (by simp)⟩
      · exact hdone _ rfl rfl rfl
    · cases h; exact Or.inr ⟨_, rfl, hw, fun _ => by rw [h3 (by simp)]; simp, by simp, fun _ => h3 (by simp)⟩
    · cases h; exact Or.inr ⟨_, rfl, hw, h1, by simp, fun _ => h3 (by simp)⟩
    · split at h <;> cases h <;> exact hdone _ rfl rfl rfl
  | exit =>
    obtain ⟨hw, h1, h2, h3, h4⟩ := hM
    have hdone : ∀ s1 : AW, s1.caller = .idle → s1.running = s.running → s1.wasRunning = s.wasRunning → DoneB x b .exit s1 :=
      fun s1 e1 e2 e3 => Or.inl ⟨e1, fun hr => h1 (e2 ▸ hr), fun hr => hw (e3 ▸ hr)⟩
    cases pc <;> first | (cases hb; done) | skip
    all_goals simp only [callerStep] at h
    case exit =>
      split at h <;> cases h
      · next e =>
        have hx : x.2 = true := hw (by simpa using (Bool.and_eq_true_iff.1 e).2)
        exact Or.inr ⟨_, rfl, hw, h1, fun _ => h2 (by simp), fun _ => hx, by simp⟩
      · exact hdone _ rfl rfl rfl
    · split at h <;> cases h
      · exact Or.inr ⟨_, rfl, hw, h1, fun _ => h2 (by simp), fun _ => h3 (by simp), by simp⟩
      · exact hdone _ rfl rfl rfl
    · split at h <;> cases h
      · exact hdone _ rfl rfl rfl
      · next e => exact Or.inr ⟨_, rfl, hw, h1, by simp, fun _ => h3 (by simp), fun _ => by rw [← h2 (by simp)]; exact hsome e⟩
    · split at h <;> cases h
      · exact Or.inr ⟨_, rfl, hw, h1, by simp, fun _ => h3 (by simp), fun _ => h4 (by simp)⟩
      · exact hdone _ rfl rfl rfl
    · cases h; exact Or.inr ⟨_, rfl, hw, fun _ => by rw [h4 (by simp), h3 (by simp)]; simp, by simp, fun _ => h3 (by simp), fun _ => h4 (by simp)⟩
    · cases h; exact Or.inr ⟨_, rfl, hw, h1, by simp, fun _ => h3 (by simp), fun _ => h4 (by simp)⟩
    · split at h <;> cases h <;> exact hdone _ rfl rfl rfl
  | stop =>
    obtain ⟨hw, h1⟩ := hM
    cases pc <;> first | (cases hb; done) | skip
    all_goals simp only [callerStep] at h
    · split at h <;> cases h
      · next e => exact Or.inl ⟨rfl, fun hr => hf (hstill e (by simp)) hr, hw⟩
      · exact Or.inr ⟨_, rfl, hw, by simp⟩
    · cases h; exact Or.inr ⟨_, rfl, hw, fun _ => rfl⟩
    · split at h <;> cases h
      · exact Or.inl ⟨rfl, fun hr => hf (h1 (by simp)) hr, hw⟩
      · exact Or.inr ⟨_, rfl, hw, fun _ => h1 (by simp)⟩
    · split at h <;> cases h
      exact Or.inr ⟨_, rfl, hw, fun _ => h1 (by simp)⟩
    · cases h; exact Or.inl ⟨rfl, fun hr => hf (h1 (by simp)) hr, hw⟩
  | close =>
    obtain ⟨hw, h1⟩ := hM
    cases pc <;> first | (cases hb; done) | skip
    all_goals simp only [callerStep] at h
    · split at h <;> cases h
      · next e => exact Or.inr ⟨_, rfl, hw, fun _ => hstill e (by simp)⟩
      · exact Or.inr ⟨_, rfl, hw, by simp⟩
    · cases h; exact Or.inr ⟨_, rfl, hw, fun _ => rfl⟩
    · split at h <;> cases h
      · exact Or.inl ⟨rfl, fun hr => hf (h1 (by simp)) hr, hw⟩
      · exact Or.inr ⟨_, rfl, hw, fun _ => h1 (by simp)⟩
    · split at h <;> cases h
      exact Or.inr ⟨_, rfl, hw, fun _ => h1 (by simp)⟩
    · cases h; exact Or.inr ⟨_, rfl, hw, fun _ => h1 (by simp)⟩
    · split at h <;> (cases h; exact Or.inl ⟨rfl, fun hr => hf (h1 (by simp)) hr, hw⟩)
  | enter =>
    obtain ⟨h1, h2, h3⟩ := hM
    cases pc <;> first | (cases hb; done) | skip
    all_goals simp only [callerStep] at h
    · split at h <;> cases h
      · next e => exact Or.inl ⟨rfl, fun hr => hf (hstill e (by simp)) hr, h2 (by simp)⟩
      · exact Or.inr ⟨_, rfl, by simp, fun _ => h2 (by simp), by simp⟩
    · cases h; exact Or.inr ⟨_, rfl, by simp, fun _ => h2 (by simp), fun _ => rfl⟩
    · split at h <;> cases h
      · exact Or.inl ⟨rfl, fun hr => hf (h3 (by simp)) hr, h2 (by simp)⟩
      · exact Or.inr ⟨_, rfl, by simp, fun _ => h2 (by simp), fun _ => h3 (by simp)⟩
    · split at h <;> cases h
      exact Or.inr ⟨_, rfl, by simp, fun _ => h2 (by simp), fun _ => h3 (by simp)⟩
    · cases h; exact Or.inl ⟨rfl, fun hr => hf (h3 (by simp)) hr, h2 (by simp)⟩
    · cases h; exact Or.inr ⟨_, rfl, by simp, fun _ => h1 rfl, by simp⟩
  | query c =>
    cases pc <;> first | (cases hb; done) | skip
    cases h; exact Or.inl ⟨rfl, hM⟩
  | lowPower =>
    cases pc <;> first | (cases hb; done) | skip
    simp only [callerStep] at h
    split at h <;> (cases h; exact Or.inl ⟨rfl, hM⟩)
  | normalPower =>
    cases pc <;> first | (cases hb; done) | skip
    simp only [callerStep] at h
    split at h <;> (cases h; exact Or.inl ⟨rfl, hM⟩)
  | watch c k f =>
    cases pc <;> first | (cases hb; done) | skip
    all_goals simp only [callerStep] at h
    · split at h <;> cases h
      · exact Or.inl ⟨rfl, hM⟩
      · exact Or.inr ⟨_, rfl, hM⟩
    · cases hd : s.doModify (.watch c k f) with
      | mk e s1 =>
        rw [hd] at hm h
        cases e <;> (cases h; exact Or.inl ⟨rfl, fun hr => hM.1 (hm.2.2.1 ▸ hr), fun hr => hM.2 (hm.2.2.2.2.2 ▸ hr)⟩)
  | unwatch c k =>
    cases pc <;> first | (cases hb; done) | skip
    all_goals simp only [callerStep] at h
    · split at h <;> cases h
      · exact Or.inl ⟨rfl, hM⟩
      · exact Or.inr ⟨_, rfl, hM⟩
    · cases hd : s.doModify (.unwatch c k) with
      | mk e s1 =>
        rw [hd] at hm h
        cases e <;> (cases h; exact Or.inl ⟨rfl, fun hr => hM.1 (hm.2.2.1 ▸ hr), fun hr => hM.2 (hm.2.2.2.2.2 ▸ hr)⟩)
  | unwatchAll =>
    cases pc <;> first | (cases hb; done) | skip
    all_goals simp only [callerStep] at h
    · split at h <;> cases h
      · exact Or.inl ⟨rfl, hM⟩
      · exact Or.inr ⟨_, rfl, hM⟩
    · cases hd : s.doModify .unwatchAll with
      | mk e s1 =>
        rw [hd] at hm h
        cases e <;> (cases h; exact Or.inl ⟨rfl, fun hr => hM.1 (hm.2.2.1 ▸ hr), fun hr => hM.2 (hm.2.2.2.2.2 ▸ hr)⟩)

/-- The steps of the other threads respect the bounds. -/
theorem bound_same {x : Bool × Bool} {b : Bool} {op : AOp} {pc : CPc} {s s' : AW} (h2 : s'.wasRunning = s.wasRunning)
    (h3 : s'.running = true → s.running = true) (h4 : s'.some? = s.some?) (hM : WithinB x b op pc s) : WithinB x b op pc s' := by
  have h3' : s.running = false → s'.running = false := by
    intro hr
    cases hr' : s'.running with
    | false => rfl
    | true => rw [h3 hr'] at hr; cases hr
  cases op
  case start => exact ⟨h2 ▸ hM.1, fun hr => hM.2.1 (h3 hr), h4 ▸ hM.2.2.1, hM.2.2.2⟩
  case exit => exact ⟨h2 ▸ hM.1, fun hr => hM.2.1 (h3 hr), h4 ▸ hM.2.2.1, hM.2.2.2⟩
  case stop => exact ⟨h2 ▸ hM.1, fun hp => h3' (hM.2 hp)⟩
  case close => exact ⟨h2 ▸ hM.1, fun hp => h3' (hM.2 hp)⟩
  case enter => exact ⟨fun hp hr => hM.1 hp (h3 hr), h2 ▸ hM.2.1, fun hp => h3' (hM.2.2 hp)⟩
  all_goals exact ⟨fun hr => hM.1 (h3 hr), h2 ▸ hM.2⟩

theorem bound_run {dev : Device} {fl : Str → Option PyFloat} {s s' : AW} {as : List Action} (h : AReach dev fl politeCallback s)
    (hi : s.caller = .idle) (hr : ARun dev fl politeCallback s as s') (hlen : (userCalls as).length ≤ 1) :
    (userCalls as = [] ∧ s'.caller = .idle ∧ Below (s.running, s.wasRunning) s' ∧ s'.some? = s.some?) ∨
      ∃ op, userCalls as = [op] ∧ DoneB (s.running, s.wasRunning) s.some? op s' := by
  induction hr with
  | nil => exact Or.inl ⟨rfl, hi, ⟨id, id⟩, rfl⟩
  | snoc as s1 a s2 h1 hok hs ih =>
    have hR := arun_reach h h1
    rw [userCalls_append] at hlen ⊢
    rw [List.length_append] at hlen
    have ih := ih (by omega)
    have hstep := hs
    by_cases hcall : ∃ op, a = .call op
    · obtain ⟨op, rfl⟩ := hcall
      rcases ih with ⟨e1, e2, e3, e4⟩ | ⟨o, e1, -⟩
      · unfold step at hs
        simp only [e2, Option.some.injEq] at hs
        subst hs
        refine Or.inr ⟨op, by rw [e1]; rfl, Or.inr ⟨_, rfl, ?_⟩⟩
        cases op
        case start => exact ⟨e3.2, fun hr => by rw [e3.1 hr]; rfl, fun _ => e4, by simp [entry]⟩
        case stop => exact ⟨e3.2, by simp [entry]⟩
        case close => exact ⟨e3.2, by simp [entry]⟩
        case enter => exact ⟨fun _ => e3.1, by simp [entry], by simp [entry]⟩
        case exit => exact ⟨e3.2, fun hr => by rw [e3.1 hr]; rfl, fun _ => e4, by simp [entry], by simp [entry]⟩
        all_goals exact e3
      · rw [e1] at hlen
        simp [userCalls] at hlen
    · have hn : ∀ op, a ≠ .call op := fun op h => hcall ⟨op, h⟩
      have e1 : userCalls [a] = [] := by cases a <;> first | rfl | exact absurd rfl (hn _)
      rw [e1, List.append_nil]
      by_cases ha : a = .caller
      · subst ha
        unfold step at hs
        cases hc : s1.caller with
        | idle => simp only [hc] at hs; cases hs
        | busy op pc =>
          simp only [hc] at hs
          rcases ih with ⟨-, h2, -⟩ | ⟨o, e2, ⟨h2, -⟩ | ⟨p, h2, hM⟩⟩
          · rw [hc] at h2; cases h2
          · rw [hc] at h2; cases h2
          · rw [hc] at h2; cases h2
            exact Or.inr ⟨op, e2, bound_caller (areach_inv hR) (areach_placed hR _ _ hc) hc hs hM⟩
      · obtain ⟨g1, g2, g3, g4⟩ := thread_any (areach_inv hR) (areach_any hR) (areach_polite hR) hok ha hn hstep
        rcases ih with ⟨e2, h2, h3, h4⟩ | ⟨o, e2, ⟨h2, h3⟩ | ⟨p, h2, hM⟩⟩
        · exact Or.inl ⟨e2, by rw [g1]; exact h2, ⟨fun hr => h3.1 (g3 hr), g2 ▸ h3.2⟩, g4.trans h4⟩
        · exact Or.inr ⟨o, e2, Or.inl ⟨by rw [g1]; exact h2, ⟨fun hr => h3.1 (g3 hr), g2 ▸ h3.2⟩⟩⟩
        · exact Or.inr ⟨o, e2, Or.inr ⟨p, by rw [g1]; exact h2, bound_same g2 g3 g4 hM⟩⟩

end AW
end Model
