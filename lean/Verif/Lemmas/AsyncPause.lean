import Verif.Lemmas.AsyncJoin
/-!
# One block of `paused()`
-/
namespace Model
open Py Spec
namespace AW

/-- Steps of update threads and callbacks on a live connection, with polite callbacks. -/
theorem thread_step {dev : Device} {fl : ElmM.FloatFn} {s s' : AW} {a : Action} (hI : Inv s) (hA : AnyInv s) (hB : PoliteInv s) (hG : GoneInv s)
    (hp : politeCallback s a) (hg : ¬ ObdM.Gone s.obd) (ha : a ≠ .caller) (hn : ∀ op, a ≠ .call op) (h : s.step dev fl a = some s') :
    s'.caller = s.caller ∧ s'.wasRunning = s.wasRunning ∧ s'.running = s.running ∧ s'.thread = s.thread ∧ s.thread ≠ none := by
  have hh := h
  unfold step at h
  cases a with
  | call o => exact absurd rfl (hn o)
  | caller => exact absurd rfl ha
  | daemon t =>
    simp only at h
    cases hq : s.threads[t]? with
    | none => rw [hq] at h; cases h
    | some pc =>
      rw [hq] at h
      obtain ⟨h1, h2, h3, pc', -, -, h6⟩ := daemonStep_ctl h
      have hst := hI.act t pc hq h3
      rcases h6 with h6 | h6 | h6
      · exact ⟨h1, h2, h6.2.1, h6.1, by rw [hst]; simp⟩
      · exact absurd (hG.drop t (Or.inl (by rw [hq, h6.2.2.1]))) hg
      · exact absurd (hG.drop t (Or.inr (by rw [hq, h6.2.2.1]))) hg
  | cb t o =>
    simp only at h
    split at h
    · next it r rest hq =>
      have hst := hI.act t _ hq rfl
      obtain ⟨h1, -, h3, -⟩ := cbCall_ctl hst h
      obtain ⟨-, -, -, h4, -, h5⟩ := cbCall_polite hst hp h
      exact ⟨h1, h5, h4, h3, by rw [hst]; simp⟩
    · cases h
  | cbEnd t ok =>
    simp only at h
    split at h
    · next it r rest hq =>
      have hst := hI.act t _ hq rfl
      split at h <;> cases h
      · exact ⟨rfl, rfl, rfl, rfl, by rw [hst]; simp⟩
      · exact ⟨rfl, rfl, rfl, rfl, by rw [hst]; simp⟩
    · cases h
  | reorder t rest =>
    obtain ⟨it, it', h1, -, h2, -⟩ := reorder_eq hh
    exact absurd (hB.ok t _ h1).keys h2

/-- Positions in a block of `paused()`; `cs` are the calls made so far. -/
def Ph (w : Bool) (cs : List AOp) (s : AW) : Prop :=
  (cs = [] ∧ s.caller = .idle ∧ s.running = w) ∨
  (cs = [.enter] ∧ ∃ pc, s.caller = .busy .enter pc ∧ (pc = .enter → s.running = w) ∧ (pc = .stopNone → s.running = w) ∧ (pc ≠ .enter → s.wasRunning = w)) ∨
  ((∃ b, cs = .enter :: b ∧ ∀ o ∈ b, AOp.plain o = true) ∧ s.wasRunning = w ∧ s.thread = none ∧ s.running = false ∧
    (s.caller = .idle ∨ ∃ op pc, s.caller = .busy op pc ∧ AOp.plain op = true)) ∨
  ((∃ b, cs = .enter :: (b ++ [.exit]) ∧ ∀ o ∈ b, AOp.plain o = true) ∧
    ((s.caller = .busy .exit .exit ∧ s.wasRunning = w ∧ s.thread = none ∧ s.running = false) ∨
     (∃ pc, s.caller = .busy .exit pc ∧ (pc = .startConn ∨ pc = .startLen ∨ pc = .startNone ∨ pc = .startRun) ∧ w = true ∧ s.thread = none ∧ s.running = false) ∨
     (∃ pc, s.caller = .busy .exit pc ∧ (pc = .startNew ∨ pc = .startGo) ∧ w = true ∧ s.running = true) ∨
     (s.caller = .idle ∧ (s.running = w ∨ (s.commands = [] ∧ s.thread = none)))))

/-- Plain methods leave the loop alone. -/
theorem plain_step {dev : Device} {op : AOp} {pc : CPc} {s s' : AW} (hp : AOp.plain op = true) (hb : belongs op pc = true)
    (h : s.callerStep dev op pc = some s') :
    s'.wasRunning = s.wasRunning ∧ s'.thread = s.thread ∧ s'.running = s.running ∧ (s'.caller = .idle ∨ ∃ pc, s'.caller = .busy op pc) := by
  have hc := callerStep_rank h
  have hc : s'.caller = .idle ∨ ∃ pc, s'.caller = .busy op pc := by
    rcases hc with hc | ⟨p, hc, -⟩
    · exact Or.inl hc
    · exact Or.inr ⟨p, hc⟩
  have hpc : pc = .gate ∨ pc = .modify ∨ pc = .ask := by
    cases op <;> simp only [AOp.plain] at hp <;> first | (cases hp; done) | skip
    all_goals cases pc <;> first | (cases hb; done) | simp
  suffices hs : s'.wasRunning = s.wasRunning ∧ s'.thread = s.thread ∧ s'.running = s.running from ⟨hs.1, hs.2.1, hs.2.2, hc⟩
  have hm := doModify_ctl op s
  rcases hpc with rfl | rfl | rfl <;> simp only [callerStep] at h
  · split at h <;> cases h <;> exact ⟨rfl, rfl, rfl⟩
  · cases hd : s.doModify op with
    | mk x s1 =>
      rw [hd] at hm h
      cases x <;> (cases h; exact ⟨hm.2.2.2.2.2, hm.1, hm.2.2.1⟩)
  · split at h <;> cases h <;> exact ⟨rfl, rfl, rfl⟩

/-- One step in a block. -/
theorem ph_step {dev : Device} {fl : ElmM.FloatFn} {s s' : AW} {a : Action} {w : Bool} {cs rest body : List AOp} (hI : Inv s) (hA : AnyInv s) (hB : PoliteInv s)
    (hG : GoneInv s) (hP : Placed s) (hp : politeCallback s a) (hg : ¬ ObdM.Gone s.obd) (h : s.step dev fl a = some s')
    (hbody : ∀ o ∈ body, AOp.plain o = true) (hcs : cs ++ userCalls [a] ++ rest = .enter :: (body ++ [.exit])) (hPh : Ph w cs s) :
    Ph w (cs ++ userCalls [a]) s' := by
  have hstep := h
  by_cases hcall : ∃ op, a = .call op
  · obtain ⟨op, rfl⟩ := hcall
    have e1 : userCalls [Action.call op] = [op] := rfl
    rw [e1] at hcs ⊢
    have hh := h
    unfold step at h
    cases hc : s.caller with
    | busy o p => simp only [hc] at h; cases h
    | idle =>
      simp only [hc, Option.some.injEq] at h
      subst h
      rcases hPh with ⟨rfl, -, hr⟩ | ⟨-, pc, h1, -⟩ | ⟨⟨b, rfl, hb⟩, hw, ht, hr, -⟩ | ⟨⟨b, rfl, hb⟩, -⟩
      · simp only [List.nil_append, List.singleton_append, List.cons.injEq] at hcs
        obtain ⟨rfl, -⟩ := hcs
        exact Or.inr (Or.inl ⟨rfl, .enter, rfl, fun _ => hr, by simp, by simp⟩)
      · rw [hc] at h1; cases h1
      · -- the next call of the body, or the end of the block
        simp only [List.cons_append, List.append_assoc, List.singleton_append, List.cons.injEq, true_and] at hcs
        cases rest with
        | nil =>
          have := List.append_inj' hcs rfl
          obtain ⟨rfl, h2⟩ := this
          cases h2
          refine Or.inr (Or.inr (Or.inr ⟨⟨b, by simp, hb⟩, Or.inl ⟨rfl, hw, ht, hr⟩⟩))
        | cons x rest =>
          have hmem : op ∈ body := by
            rcases List.append_eq_append_iff.mp hcs with ⟨c, h1, h2⟩ | ⟨c, h1, h2⟩
            · cases c with
              | nil => simp at h2
              | cons y c =>
                simp only [List.cons_append, List.cons.injEq] at h2
                rw [h1, ← h2.1]; simp
            · cases c with
              | nil => simp at h2
              | cons y c => simp at h2
          refine Or.inr (Or.inr (Or.inl ⟨⟨b ++ [op], by simp, ?_⟩, hw, ht, hr, Or.inr ⟨op, _, rfl, hbody op hmem⟩⟩))
          intro o ho
          rcases List.mem_append.mp ho with ho | ho
          · exact hb o ho
          · rw [List.mem_singleton.mp ho]; exact hbody op hmem
      · -- nothing is called after the block
        exfalso
        simp only [List.cons_append, List.append_assoc, List.singleton_append, List.cons.injEq, true_and] at hcs
        have hmem : AOp.exit ∈ body := by
          rcases List.append_eq_append_iff.mp hcs with ⟨c, h1, h2⟩ | ⟨c, h1, h2⟩
          · cases c with
            | nil => simp at h2
            | cons y c =>
              simp only [List.cons_append, List.cons.injEq] at h2
              rw [h1, ← h2.1]; simp
          · cases c with
            | nil => simp at h2
            | cons y c => simp at h2
        have := hbody _ hmem
        cases this
  · have hn : ∀ op, a ≠ .call op := fun op h => hcall ⟨op, h⟩
    have e1 : userCalls [a] = [] := by cases a <;> first | rfl | exact absurd rfl (hn _)
    rw [e1, List.append_nil]
    by_cases ha : a = .caller
    · subst ha
      have hh := h
      unfold step at h
      cases hc : s.caller with
      | idle => simp only [hc] at h; cases h
      | busy op pc =>
        simp only [hc] at h
        have hCI := hI.caller
        unfold CallerInv at hCI
        rw [hc] at hCI
        rcases hPh with ⟨-, h1, -⟩ | ⟨rfl, pc', h1, h2, h3, h4⟩ | ⟨hcs', hw, ht, hr, h1⟩ | ⟨hcs', hx⟩
        · rw [hc] at h1; cases h1
        · rw [hc] at h1; cases h1
          have hb := hP _ _ hc
          cases pc <;> first | (cases hb; done) | skip
          · -- stopNone
            cases h
            split
            · next htn =>
              refine Or.inr (Or.inr (Or.inl ⟨⟨[], rfl, by simp⟩, h4 (by simp), htn, ?_, Or.inl rfl⟩))
              show s.running = false
              cases hr : s.running with
              | false => rfl
              | true =>
                rcases hI.run hr with h5 | ⟨o, h5⟩
                · exact absurd htn h5
                · rw [hc] at h5; cases h5
            · exact Or.inr (Or.inl ⟨rfl, .stopRun, rfl, by simp, by simp, fun _ => h4 (by simp)⟩)
          · -- stopRun
            cases h
            exact Or.inr (Or.inl ⟨rfl, .stopRead, rfl, by simp, by simp, fun _ => h4 (by simp)⟩)
          · -- stopRead
            simp only [callerStep] at h
            cases ht : s.thread with
            | none => exact absurd (hG.call _ _ hc (Or.inr rfl) ht) hg
            | some t =>
              rw [ht] at h; cases h
              exact Or.inr (Or.inl ⟨rfl, .join t, rfl, by simp, by simp, fun _ => h4 (by simp)⟩)
          · -- join
            simp only [callerStep] at h
            split at h <;> cases h
            exact Or.inr (Or.inl ⟨rfl, .stopEnd, rfl, by simp, by simp, fun _ => h4 (by simp)⟩)
          · -- stopEnd
            cases h
            exact Or.inr (Or.inr (Or.inl ⟨⟨[], rfl, by simp⟩, h4 (by simp), rfl, hCI.1, Or.inl rfl⟩))
          · -- enter
            cases h
            exact Or.inr (Or.inl ⟨rfl, .stopNone, rfl, by simp, fun _ => h2 rfl, fun _ => h2 rfl⟩)
        · rcases h1 with h1 | ⟨o, p, h1, h2⟩
          · rw [hc] at h1; cases h1
          · rw [hc] at h1; cases h1
            obtain ⟨h3, h4, h5, h6⟩ := plain_step h2 (hP _ _ hc) h
            refine Or.inr (Or.inr (Or.inl ⟨hcs', by rw [h3]; exact hw, by rw [h4]; exact ht, by rw [h5]; exact hr, ?_⟩))
            rcases h6 with h6 | ⟨p', h6⟩
            · exact Or.inl h6
            · exact Or.inr ⟨_, p', h6, h2⟩
        · refine Or.inr (Or.inr (Or.inr ⟨hcs', ?_⟩))
          rcases hx with ⟨h1, hw, ht, hr⟩ | ⟨p, h1, h2, hw, ht, hr⟩ | ⟨p, h1, h2, hw, hr⟩ | ⟨h1, -⟩
          · rw [hc] at h1; cases h1
            simp only [callerStep, hr, hw, Bool.not_false, Bool.true_and] at h
            cases w with
            | true => cases h; exact Or.inr (Or.inl ⟨.startConn, rfl, Or.inl rfl, rfl, ht, hr⟩)
            | false => cases h; exact Or.inr (Or.inr (Or.inr ⟨rfl, Or.inl hr⟩))
          · rw [hc] at h1; cases h1
            rcases h2 with rfl | rfl | rfl | rfl <;> simp only [callerStep] at h
            · have hconn : ObdM.isConnected s.obd = true := by
                cases hx : ObdM.isConnected s.obd with
                | true => rfl
                | false => exact absurd hx hg
              rw [if_pos hconn] at h; cases h
              exact Or.inr (Or.inl ⟨.startLen, rfl, by simp, hw, ht, hr⟩)
            · split at h <;> cases h
              · next hl => exact Or.inr (Or.inr (Or.inr ⟨rfl, Or.inr ⟨List.length_eq_zero_iff.mp hl, ht⟩⟩))
              · exact Or.inr (Or.inl ⟨.startNone, rfl, by simp, hw, ht, hr⟩)
            · rw [if_pos ht] at h; cases h
              exact Or.inr (Or.inl ⟨.startRun, rfl, by simp, hw, ht, hr⟩)
            · cases h; exact Or.inr (Or.inr (Or.inl ⟨.startNew, rfl, by simp, hw, rfl⟩))
          · rw [hc] at h1; cases h1
            rcases h2 with rfl | rfl <;> simp only [callerStep] at h
            · cases h; exact Or.inr (Or.inr (Or.inl ⟨.startGo, rfl, by simp, hw, hr⟩))
            · obtain ⟨t, h3, -⟩ := hCI
              rw [h3] at h; cases h
              exact Or.inr (Or.inr (Or.inr ⟨rfl, Or.inl (by rw [hw]; exact hr)⟩))
          · rw [hc] at h1; cases h1
    · -- other threads
      obtain ⟨h1, h2, h3, h4, h5⟩ := thread_step hI hA hB hG hp hg ha hn hstep
      rcases hPh with ⟨hcs', h6, hr⟩ | ⟨hcs', pc, h6, h7, h8, h9⟩ | ⟨-, -, ht, -⟩ | ⟨hcs', hx⟩
      · exact Or.inl ⟨hcs', by rw [h1]; exact h6, by rw [h3]; exact hr⟩
      · exact Or.inr (Or.inl ⟨hcs', pc, by rw [h1]; exact h6, fun e => by rw [h3]; exact h7 e, fun e => by rw [h3]; exact h8 e, fun e => by rw [h2]; exact h9 e⟩)
      · exact absurd ht h5
      · refine Or.inr (Or.inr (Or.inr ⟨hcs', ?_⟩))
        rcases hx with ⟨-, -, ht, -⟩ | ⟨p, -, -, -, ht, -⟩ | ⟨p, h6, h7, hw, hr⟩ | ⟨h6, h7⟩
        · exact absurd ht h5
        · exact absurd ht h5
        · exact Or.inr (Or.inr (Or.inl ⟨p, by rw [h1]; exact h6, h7, hw, by rw [h3]; exact hr⟩))
        · refine Or.inr (Or.inr (Or.inr ⟨by rw [h1]; exact h6, ?_⟩))
          rcases h7 with h7 | ⟨-, h7⟩
          · exact Or.inl (by rw [h3]; exact h7)
          · exact absurd h7 h5

theorem arun_reach {dev : Device} {fl : Str → Option PyFloat} {ok : AW → Action → Prop} {s s' : AW} {as : List Action} (h : AReach dev fl ok s)
    (hr : ARun dev fl ok s as s') : AReach dev fl ok s' := by
  induction hr with
  | nil => exact h
  | snoc as s1 a s2 _ hok hs ih => exact .step _ _ _ ih hok hs

theorem userCalls_append (a b : List Action) : userCalls (a ++ b) = userCalls a ++ userCalls b := by
  simp [userCalls, List.filterMap_append]

theorem ph_run {dev : Device} {fl : Str → Option PyFloat} {s s' : AW} {as : List Action} {rest body : List AOp} (h : AReach dev fl politeCallback s)
    (hi : s.caller = .idle) (hr : ARun dev fl politeCallback s as s') (hbody : ∀ o ∈ body, AOp.plain o = true)
    (hcs : userCalls as ++ rest = .enter :: (body ++ [.exit])) (hg : ¬ ObdM.Gone s'.obd) : Ph s.running (userCalls as) s' := by
  induction hr generalizing rest with
  | nil => exact Or.inl ⟨rfl, hi, rfl⟩
  | snoc as s1 a s2 h1 hok hs ih =>
    have hR := arun_reach h h1
    have hg1 : ¬ ObdM.Gone s1.obd := fun hx => hg (gone_step hs hx)
    rw [userCalls_append] at hcs ⊢
    exact ph_step (areach_inv hR) (areach_any hR) (areach_polite hR) (areach_gone hR) (areach_placed hR) hok hg1 hs hbody hcs
      (ih (rest := userCalls [a] ++ rest) (by rw [← List.append_assoc]; exact hcs) hg1)

theorem paused_restores {dev : Device} {fl : Str → Option PyFloat} {s s' : AW} {as : List Action} {body : List AOp} (h : AReach dev fl politeCallback s)
    (hi : s.caller = .idle) (hr : ARun dev fl politeCallback s as s') (hbody : ∀ o ∈ body, AOp.plain o = true)
    (hcs : userCalls as = .enter :: (body ++ [.exit])) (hi' : s'.caller = .idle) (hg : ObdM.isConnected s'.obd = true) (hcmd : s'.commands ≠ []) :
    s'.running = s.running := by
  have hP := ph_run (rest := []) h hi hr hbody (by rw [List.append_nil]; exact hcs) (by simp [ObdM.Gone, hg])
  rw [hcs] at hP
  rcases hP with ⟨h1, -⟩ | ⟨h1, -⟩ | ⟨⟨b, h1, h2⟩, -⟩ | ⟨-, hx⟩
  · cases h1
  · simp at h1
  · simp only [List.cons.injEq, true_and] at h1
    have := h2 .exit (by rw [← h1]; simp)
    cases this
  · rcases hx with ⟨h1, -⟩ | ⟨p, h1, -⟩ | ⟨p, h1, -⟩ | ⟨-, h1 | ⟨h1, -⟩⟩
    · rw [hi'] at h1; cases h1
    · rw [hi'] at h1; cases h1
    · rw [hi'] at h1; cases h1
    · exact h1
    · exact absurd h1 hcmd

end AW
end Model
