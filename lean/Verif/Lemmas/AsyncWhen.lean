import Verif.Lemmas.AsyncStop
/-!
# When `stop` raises
-/
namespace Model
open Py Spec
namespace AW
open ObdM

def isCall : Ev → Bool
  | .call _ => true
  | _ => false

/-- The method being executed was called at a point of the log; if it is between its two looks at the thread and the thread is
gone, the thread has ended since. -/
def Since (s : AW) : Prop := ∀ op pc, s.caller = .busy op pc → ∃ before mid, s.log = before ++ .call op :: mid ∧ (∀ e ∈ mid, isCall e = false) ∧
  (pc = .stopRun ∨ pc = .stopRead → s.thread = none → .ended .returned ∈ mid)

theorem daemon_thread {dev : Device} {fl : ElmM.FloatFn} {t : Nat} {pc : Pc} {s s' : AW} (h : s.daemonStep dev fl t pc = some s') :
    s'.thread = s.thread ∨ s'.log = s.log ++ [.ended .returned] := by
  obtain ⟨-, -, -, pc', -, -, h1 | h1 | h1⟩ := daemonStep_ctl h
  · exact Or.inl h1.1
  · exact Or.inl h1.1
  · right
    obtain ⟨-, -, rfl, -⟩ := h1
    simp only [daemonStep, Option.some.injEq] at h
    subst h; rfl

theorem caller_goes {dev : Device} {op : AOp} {pc pc' : CPc} {s s' : AW} (h : s.callerStep dev op pc = some s') (hb : s'.caller = .busy op pc')
    (hp : pc' = .stopRun ∨ pc' = .stopRead) (ht : s'.thread = none) : pc = .stopRun ∧ s.thread = none := by
  cases pc <;> simp only [callerStep] at h
  case stopNone =>
    cases h
    split at hb
    · unfold afterStop at hb; cases op <;> cases hb <;> rcases hp with hp | hp <;> cases hp
    · next hn => rw [if_neg hn] at ht; exact absurd ht hn
  case stopRun => cases h; exact ⟨rfl, ht⟩
  case stopEnd => cases h; unfold afterStop at hb; cases op <;> cases hb <;> rcases hp with hp | hp <;> cases hp
  case ask => cases op <;> simp only [Option.some.injEq] at h <;> subst h <;> cases hb
  all_goals exfalso
  all_goals repeat' split at h
  all_goals first
    | (cases h; done)
    | (cases h; cases hb; done)
    | (cases h; cases hb; rcases hp with hp | hp <;> cases hp; done)
    | (cases h; split at hb <;> cases hb <;> rcases hp with hp | hp <;> cases hp)

theorem since_step {dev : Device} {fl : ElmM.FloatFn} {s s' : AW} {a : Action} (hI : Inv s) (hS : Since s) (h : s.step dev fl a = some s') : Since s' := by
  have grow : ∀ es, s'.log = s.log ++ es → (∀ e ∈ es, isCall e = false) → s'.caller = s.caller →
      (s'.thread = none → s.thread = none ∨ .ended .returned ∈ es) → Since s' := by
    intro es hl hn hc ht op pc ho
    rw [hc] at ho
    obtain ⟨before, mid, h1, h2, h3⟩ := hS op pc ho
    refine ⟨before, mid ++ es, by rw [hl, h1]; simp, ?_, ?_⟩
    · intro e he
      rcases List.mem_append.mp he with he | he
      · exact h2 e he
      · exact hn e he
    · intro hp hnone
      rcases ht hnone with h4 | h4
      · exact List.mem_append_left _ (h3 hp h4)
      · exact List.mem_append_right _ h4
  have hh := h
  unfold step at h
  cases a with
  | call op =>
    simp only at h
    cases hc : s.caller with
    | busy o p => rw [hc] at h; cases h
    | idle =>
      rw [hc] at h; cases h
      intro o p ho
      cases ho
      refine ⟨s.log, [], rfl, by simp, ?_⟩
      intro hp; cases op <;> rcases hp with hp | hp <;> cases hp
  | caller =>
    simp only at h
    cases hc : s.caller with
    | idle => rw [hc] at h; cases h
    | busy o p =>
      rw [hc] at h
      obtain ⟨pre, fin, h1, h2, h3⟩ := callerStep_log h
      intro o' p' ho
      rcases h3 with ⟨rfl, rfl, pc', h4⟩ | ⟨h4, -⟩
      · rw [h4] at ho; cases ho
        obtain ⟨before, mid, g1, g2, g3⟩ := hS o p hc
        refine ⟨before, mid, by rw [h1, g1]; simp, g2, ?_⟩
        intro hp ht
        obtain ⟨e1, e2⟩ := caller_goes h h4 hp ht
        exact g3 (Or.inl e1) e2
      · rw [h4] at ho; cases ho
  | daemon t =>
    simp only at h
    cases hp : s.threads[t]? with
    | none => rw [hp] at h; cases h
    | some pc =>
      rw [hp] at h
      obtain ⟨es, h1, h2⟩ := daemonStep_log h
      refine grow es h1 (fun e he => ?_) (daemonStep_ctl h).1 ?_
      · have := h2 e he; cases e <;> first | rfl | exact this.elim
      · intro ht
        rcases daemon_thread h with h3 | h3
        · left; rw [← h3]; exact ht
        · right; rw [h1] at h3; rw [List.append_cancel_left h3]; simp
  | cb t op =>
    simp only at h
    split at h
    · next it r l i hp =>
      obtain ⟨es, h1, h2⟩ := cbCall_log h
      obtain ⟨c1, -, c3, -⟩ := cbCall_ctl (hI.act t _ hp rfl) h
      refine grow es h1 (fun e he => ?_) c1 (fun ht => Or.inl (by rw [← c3]; exact ht))
      have := h2 e he; cases e <;> first | rfl | exact this.elim
    · cases h
  | cbEnd t ok =>
    simp only at h
    split at h
    · split at h <;> cases h
      · exact grow [] (by simp [setPc]) (by simp) rfl (fun ht => Or.inl ht)
      · exact grow [.ended .callback] rfl (by simp [isCall]) rfl (fun ht => Or.inl ht)
    · cases h
  | reorder t rest =>
    obtain ⟨_, _, -, -, -, rfl, -⟩ := reorder_eq hh
    exact grow [] (by simp [setPc]) (by simp) rfl (fun ht => Or.inl ht)

theorem areach_since {dev : Device} {fl : Str → Option PyFloat} {ok : AW → Action → Prop} {s : AW} (h : AReach dev fl ok s) : Since s := by
  induction h with
  | init a o h => intro op pc h; cases h
  | step s a s' h _ hs ih => exact since_step (areach_inv h) ih hs

theorem raises_when {dev : Device} {fl : Str → Option PyFloat} {ok : AW → Action → Prop} {s : AW} (hR : AReach dev fl ok s) :
    ∀ (op : AOp) (x : Exc) (pre post : List Ev), (op = .stop ∨ op = .enter) → s.log = pre ++ .raised op x :: post →
      x = .attributeError ∧ ∃ before mid, pre = before ++ .call op :: mid ∧ (∀ e ∈ mid, isCall e = false) ∧ .ended .returned ∈ mid := by
  induction hR with
  | init a o h => intro op x pre post _ h; simp at h
  | step s act s' h _ hs ih =>
    intro op x pre post hop hl
    obtain ⟨es, he, hk⟩ := step_log hs
    rw [he] at hl
    rcases append_cons_split hl.symm with ⟨b', -, hl'⟩ | ⟨a', rfl, hl'⟩
    · exact ih op x pre b' hop hl'
    · rcases hk with ⟨o, -, h1⟩ | ⟨-, o, pc, p1, fin, hc, hcs, h1, h2, h3⟩ | h1
      · rw [h1] at hl'
        cases a' <;> simp at hl'
      · rw [h1] at hl'
        rcases append_cons_split hl'.symm with ⟨b', h4, h5⟩ | ⟨a2, h4, h5⟩
        · have := h2 (.raised op x) (by rw [h5]; simp)
          exact this.elim
        · rcases h3 with ⟨rfl, -⟩ | ⟨hi, rfl | ⟨y, rfl, hpc⟩⟩
          · simp at h5
          · cases a2 <;> simp at h5
          · cases a2 with
            | cons z a2 => simp at h5
            | nil =>
              simp only [List.nil_append, List.cons.injEq, Ev.raised.injEq] at h5
              obtain ⟨⟨rfl, rfl⟩, -⟩ := h5
              have hb := areach_placed h o pc hc
              have hsr : pc = .stopRead ∧ s.thread = none := by
                rcases hpc with hpc | ⟨rfl, -⟩ | rfl | rfl | rfl
                · exact hpc
                all_goals (rcases hop with rfl | rfl <;> cases hb)
              obtain ⟨rfl, ht⟩ := hsr
              simp only [callerStep, ht, Option.some.injEq] at hcs
              subst hcs
              simp only [raise, emit] at he
              have hes := List.append_cancel_left he
              rw [h1] at hes
              have hp1 : p1 = [] := by
                cases p1 with
                | nil => rfl
                | cons z p1 => simp at hes
              subst hp1
              simp only [List.nil_append, List.cons.injEq, Ev.raised.injEq, and_true, true_and] at hes
              obtain ⟨before, mid, g1, g2, g3⟩ := areach_since h o .stopRead hc
              refine ⟨hes.symm, before, mid, ?_, g2, g3 (Or.inr rfl) ht⟩
              rw [h4, g1]; simp
      · have : Ev.raised op x ∈ es := by rw [hl']; simp
        rcases h1 _ this with h2 | h2 <;> exact h2.elim

end AW
end Model
