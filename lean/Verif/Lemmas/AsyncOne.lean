import Verif.Lemmas.AsyncControl
/-!
# One call that starts or stops the loop, whatever is watched
-/
namespace Model
open Py Spec
namespace AW

/-- Something is watched. -/
def some? (s : AW) : Bool := decide (s.commands ≠ [])

/-- Positions inside a call; `x` says how things were when it began, `b` whether something was watched. -/
def Within1 (x : Bool × Bool) (b : Bool) (op : AOp) (pc : CPc) (s : AW) : Prop :=
  match op with
  | .start => s.wasRunning = x.2 ∧ (pc = .startConn ∨ pc = .startLen ∨ pc = .startNone ∨ pc = .startRun → s.running = x.1) ∧
      (pc = .startConn ∨ pc = .startLen → x.1 = false → s.some? = b) ∧
      (pc = .startNone ∨ pc = .startRun ∨ pc = .startNew ∨ pc = .startGo → (x.1 || b) = true) ∧
      (pc = .startNew ∨ pc = .startGo → s.running = true)
  | .stop => s.wasRunning = x.2
  | .enter => (pc = .enter → s.running = x.1 ∧ s.wasRunning = x.2) ∧ (pc ≠ .enter → s.wasRunning = x.1)
  | .exit => s.wasRunning = x.2 ∧ (pc = .exit → s.running = x.1) ∧ (pc ≠ .exit → x.1 = false ∧ x.2 = true) ∧
      (pc = .exit ∨ pc = .startConn ∨ pc = .startLen → x.1 = false → s.some? = b) ∧
      (pc = .startNone ∨ pc = .startRun ∨ pc = .startNew ∨ pc = .startGo → b = true) ∧
      (pc = .startConn ∨ pc = .startLen ∨ pc = .startNone ∨ pc = .startRun → s.running = false) ∧
      (pc = .startNew ∨ pc = .startGo → s.running = true)
  | _ => s.running = x.1 ∧ s.wasRunning = x.2

/-- After a call. -/
def Done1 (x : Bool × Bool) (b : Bool) (op : AOp) (s : AW) : Prop :=
  (s.caller = .idle ∧ (s.running, s.wasRunning) = switchedBy b x op) ∨ ∃ pc, s.caller = .busy op pc ∧ Within1 x b op pc s

theorem one_caller {dev : Device} {x : Bool × Bool} {b : Bool} {op : AOp} {pc : CPc} {s s' : AW} (hI : Inv s) (hG : GoneInv s) (hN : Named s)
    (hb : belongs op pc = true) (hk : op ≠ .close) (hg : ¬ ObdM.Gone s.obd) (hc : s.caller = .busy op pc)
    (h : s.callerStep dev op pc = some s') (hM : Within1 x b op pc s) : Done1 x b op s' := by
  have hCI := hI.caller
  unfold CallerInv at hCI
  rw [hc] at hCI
  have hconn : ObdM.isConnected s.obd = true := by
    cases hx : ObdM.isConnected s.obd with
    | true => rfl
    | false => exact absurd hx hg
  have hrun' : pc ≠ .stopRead → (∀ t, pc ≠ .join t) → pc ≠ .stopEnd → s.thread ≠ none → s.running = true := by
    intro h1 h2 h3 ht
    rcases hN.thread ht with h | ⟨o, p, h, h4⟩
    · exact h
    · rw [hc] at h; cases h
      rcases h4 with h | ⟨t, h⟩ | h
      exacts [absurd h h1, absurd h (h2 t), absurd h h3]
  have hstill : s.thread = none → pc ≠ .startNew → s.running = false := by
    intro ht hp
    cases hr : s.running with
    | false => rfl
    | true =>
      rcases hI.run hr with h5 | ⟨o, h5⟩
      · exact absurd ht h5
      · rw [hc] at h5; cases h5; exact absurd rfl hp
  have hsome : (s.commands.length = 0 → s.some? = false) ∧ (s.commands.length ≠ 0 → s.some? = true) := by
    unfold some?
    constructor
    · intro h; rw [List.length_eq_zero_iff.1 h]; rfl
    · intro h; exact decide_eq_true (fun e => h (by rw [e]; rfl))
  have hm := doModify_ctl op s
  cases op with
  | close => exact absurd rfl hk
  | start =>
    obtain ⟨hw, h1, h0, h3, h2⟩ := hM
    cases pc <;> first | (cases hb; done) | skip
    all_goals simp only [callerStep, hconn, if_true] at h
    · cases h; exact Or.inr ⟨_, rfl, hw, fun _ => h1 (by simp), fun _ => h0 (by simp), by simp, by simp⟩
    · split at h <;> cases h
      · next e =>
        refine Or.inl ⟨rfl, ?_⟩
        show (s.running, s.wasRunning) = (x.1 || b, x.2)
        rw [hw, h1 (by simp)]
        cases hx : x.1 with
        | true => rfl
        | false => rw [← h0 (by simp) hx, hsome.1 e]; rfl
      · next e =>
        refine Or.inr ⟨_, rfl, hw, fun _ => h1 (by simp), by simp, fun _ => ?_, by simp⟩
        cases hx : x.1 with
        | true => rfl
        | false => rw [← h0 (by simp) hx, hsome.2 e]; rfl
    · split at h <;> cases h
      · exact Or.inr ⟨_, rfl, hw, fun _ => h1 (by simp), by simp, fun _ => h3 (by simp), by simp⟩
      · next e =>
        refine Or.inl ⟨rfl, ?_⟩
        show (s.running, s.wasRunning) = (x.1 || b, x.2)
        rw [hw, hrun' (by simp) (by simp) (by simp) e, h3 (by simp)]
    · cases h; exact Or.inr ⟨_, rfl, hw, by simp, by simp, fun _ => h3 (by simp), fun _ => rfl⟩
    · cases h; exact Or.inr ⟨_, rfl, hw, by simp, by simp, fun _ => h3 (by simp), fun _ => h2 (by simp)⟩
    · obtain ⟨t, ht, -⟩ := hCI
      rw [ht] at h; cases h
      refine Or.inl ⟨rfl, ?_⟩
      show (s.running, s.wasRunning) = (x.1 || b, x.2)
      rw [hw, h2 (by simp), h3 (by simp)]
  | exit =>
    obtain ⟨hw, h0, h1, h4, h5, h2, h3⟩ := hM
    cases pc <;> first | (cases hb; done) | skip
    all_goals simp only [callerStep, hconn, if_true] at h
    case exit =>
      cases hr : s.running <;> cases hw' : s.wasRunning <;> simp [hr, hw'] at h <;> cases h
      · refine Or.inl ⟨rfl, ?_⟩
        show (s.running, s.wasRunning) = (x.1 || (x.2 && b), x.2)
        rw [← h0 rfl, ← hw, hr, hw']; rfl
      · exact Or.inr ⟨_, rfl, hw, by simp, fun _ => ⟨by rw [← h0 rfl, hr], by rw [← hw, hw']⟩, fun _ => h4 (by simp), by simp, fun _ => hr, by simp⟩
      · refine Or.inl ⟨rfl, ?_⟩
        show (s.running, s.wasRunning) = (x.1 || (x.2 && b), x.2)
        rw [← h0 rfl, ← hw, hr, hw']; rfl
      · refine Or.inl ⟨rfl, ?_⟩
        show (s.running, s.wasRunning) = (x.1 || (x.2 && b), x.2)
        rw [← h0 rfl, ← hw, hr, hw']; rfl
    · cases h; exact Or.inr ⟨_, rfl, hw, by simp, fun _ => h1 (by simp), fun _ => h4 (by simp), by simp, fun _ => h2 (by simp), by simp⟩
    · obtain ⟨hx1, hx2⟩ := h1 (by simp)
      split at h <;> cases h
      · next e =>
        refine Or.inl ⟨rfl, ?_⟩
        show (s.running, s.wasRunning) = (x.1 || (x.2 && b), x.2)
        rw [hw, h2 (by simp), hx1, hx2, ← h4 (by simp) hx1, hsome.1 e]; rfl
      · next e =>
        exact Or.inr ⟨_, rfl, hw, by simp, fun _ => ⟨hx1, hx2⟩, by simp, fun _ => by rw [← h4 (by simp) hx1, hsome.2 e], fun _ => h2 (by simp),
          by simp⟩
    · split at h <;> cases h
      · exact Or.inr ⟨_, rfl, hw, by simp, fun _ => h1 (by simp), by simp, fun _ => h5 (by simp), fun _ => h2 (by simp), by simp⟩
      · next e =>
        have := hrun' (by simp) (by simp) (by simp) e
        rw [h2 (by simp)] at this; cases this
    · cases h; exact Or.inr ⟨_, rfl, hw, by simp, fun _ => h1 (by simp), by simp, fun _ => h5 (by simp), by simp, fun _ => rfl⟩
    · cases h; exact Or.inr ⟨_, rfl, hw, by simp, fun _ => h1 (by simp), by simp, fun _ => h5 (by simp), by simp, fun _ => h3 (by simp)⟩
    · obtain ⟨t, ht, -⟩ := hCI
      rw [ht] at h; cases h
      refine Or.inl ⟨rfl, ?_⟩
      show (s.running, s.wasRunning) = (x.1 || (x.2 && b), x.2)
      rw [hw, h3 (by simp), (h1 (by simp)).2, h5 (by simp)]; simp
  | stop =>
    cases pc <;> first | (cases hb; done) | skip
    all_goals simp only [callerStep] at h
    · split at h <;> cases h
      · next e =>
        refine Or.inl ⟨rfl, ?_⟩
        show (s.running, s.wasRunning) = (false, x.2)
        rw [hstill e (by simp), show s.wasRunning = x.2 from hM]
      · exact Or.inr ⟨_, rfl, hM⟩
    · cases h; exact Or.inr ⟨_, rfl, hM⟩
    · cases ht : s.thread with
      | none => exact absurd (hG.call _ _ hc (Or.inr rfl) ht) hg
      | some t => rw [ht] at h; cases h; exact Or.inr ⟨_, rfl, hM⟩
    · split at h <;> cases h
      exact Or.inr ⟨_, rfl, hM⟩
    · cases h
      refine Or.inl ⟨rfl, ?_⟩
      show (s.running, s.wasRunning) = (false, x.2)
      rw [hCI.1, show s.wasRunning = x.2 from hM]
  | enter =>
    obtain ⟨h1, h2⟩ := hM
    cases pc <;> first | (cases hb; done) | skip
    all_goals simp only [callerStep] at h
    · split at h <;> cases h
      · next e =>
        refine Or.inl ⟨rfl, ?_⟩
        show (s.running, s.wasRunning) = (false, x.1)
        rw [hstill e (by simp), h2 (by simp)]
      · exact Or.inr ⟨_, rfl, by simp, fun _ => h2 (by simp)⟩
    · cases h; exact Or.inr ⟨_, rfl, by simp, fun _ => h2 (by simp)⟩
    · cases ht : s.thread with
      | none => exact absurd (hG.call _ _ hc (Or.inr rfl) ht) hg
      | some t => rw [ht] at h; cases h; exact Or.inr ⟨_, rfl, by simp, fun _ => h2 (by simp)⟩
    · split at h <;> cases h
      exact Or.inr ⟨_, rfl, by simp, fun _ => h2 (by simp)⟩
    · cases h
      refine Or.inl ⟨rfl, ?_⟩
      show (s.running, s.wasRunning) = (false, x.1)
      rw [hCI.1, h2 (by simp)]
    · cases h; exact Or.inr ⟨_, rfl, by simp, fun _ => (h1 rfl).1⟩
  | query c =>
    obtain ⟨h1, h2⟩ := hM
    cases pc <;> first | (cases hb; done) | skip
    cases h; exact Or.inl ⟨rfl, Prod.ext h1 h2⟩
  | lowPower =>
    obtain ⟨h1, h2⟩ := hM
    cases pc <;> first | (cases hb; done) | skip
    simp only [callerStep] at h
    split at h <;> (cases h; exact Or.inl ⟨rfl, Prod.ext h1 h2⟩)
  | normalPower =>
    obtain ⟨h1, h2⟩ := hM
    cases pc <;> first | (cases hb; done) | skip
    simp only [callerStep] at h
    split at h <;> (cases h; exact Or.inl ⟨rfl, Prod.ext h1 h2⟩)
  | watch c k f =>
    obtain ⟨h1, h2⟩ := hM
    cases pc <;> first | (cases hb; done) | skip
    all_goals simp only [callerStep] at h
    · split at h <;> cases h
      · exact Or.inl ⟨rfl, Prod.ext h1 h2⟩
      · exact Or.inr ⟨_, rfl, h1, h2⟩
    · cases hd : s.doModify (.watch c k f) with
      | mk e s1 =>
        rw [hd] at hm h
        cases e <;> (cases h; exact Or.inl ⟨rfl, Prod.ext (hm.2.2.1.trans h1) (hm.2.2.2.2.2.trans h2)⟩)
  | unwatch c k =>
    obtain ⟨h1, h2⟩ := hM
    cases pc <;> first | (cases hb; done) | skip
    all_goals simp only [callerStep] at h
    · split at h <;> cases h
      · exact Or.inl ⟨rfl, Prod.ext h1 h2⟩
      · exact Or.inr ⟨_, rfl, h1, h2⟩
    · cases hd : s.doModify (.unwatch c k) with
      | mk e s1 =>
        rw [hd] at hm h
        cases e <;> (cases h; exact Or.inl ⟨rfl, Prod.ext (hm.2.2.1.trans h1) (hm.2.2.2.2.2.trans h2)⟩)
  | unwatchAll =>
    obtain ⟨h1, h2⟩ := hM
    cases pc <;> first | (cases hb; done) | skip
    all_goals simp only [callerStep] at h
    · split at h <;> cases h
      · exact Or.inl ⟨rfl, Prod.ext h1 h2⟩
      · exact Or.inr ⟨_, rfl, h1, h2⟩
    · cases hd : s.doModify .unwatchAll with
      | mk e s1 =>
        rw [hd] at hm h
        cases e <;> (cases h; exact Or.inl ⟨rfl, Prod.ext (hm.2.2.1.trans h1) (hm.2.2.2.2.2.trans h2)⟩)

/-- The steps of the other threads do not matter: while they can move, the loop counts as running or is being stopped. -/
theorem one_same {dev : Device} {fl : ElmM.FloatFn} {x : Bool × Bool} {b : Bool} {op : AOp} {pc : CPc} {s s' : AW} {a : Action} (hI : Inv s) (hA : AnyInv s)
    (hB : PoliteInv s) (hG : GoneInv s) (hN : Named s) (hpl : belongs op pc = true) (hp : politeCallback s a) (hg : ¬ ObdM.Gone s.obd)
    (ha : a ≠ .caller) (hn : ∀ op, a ≠ .call op) (h : s.step dev fl a = some s') (hc : s.caller = .busy op pc)
    (hM : Within1 x b op pc s) : Within1 x b op pc s' := by
  obtain ⟨h1, h2, h3, h4, h5⟩ := thread_step hI hA hB hG hp hg ha hn h
  have hrun : s.running = true ∨ (pc = .stopRead ∨ (∃ t, pc = .join t) ∨ pc = .stopEnd) := by
    rcases hN.thread h5 with h | ⟨o, p, h, h4⟩
    · exact Or.inl h
    · rw [hc] at h; cases h; exact Or.inr h4
  cases op
  case start =>
    obtain ⟨hw, g1, g2, g3, g4⟩ := hM
    refine ⟨h2.trans hw, fun hx => h3.trans (g1 hx), fun hx hy => ?_, g3, fun hx => h3.trans (g4 hx)⟩
    rcases hrun with hr | hr
    · rw [g1 (hx.elim Or.inl (fun h => Or.inr (Or.inl h))), hy] at hr; cases hr
    · rcases hx with rfl | rfl <;> rcases hr with h | ⟨t, h⟩ | h <;> cases h
  case exit =>
    obtain ⟨hw, g1, g2, g3, g4, g5, g6⟩ := hM
    refine ⟨h2.trans hw, fun hx => h3.trans (g1 hx), g2, fun hx hy => ?_, g4, fun hx => h3.trans (g5 hx), fun hx => h3.trans (g6 hx)⟩
    rcases hrun with hr | hr
    · rcases hx with rfl | hx
      · rw [g1 rfl, hy] at hr; cases hr
      · rw [g5 (hx.elim Or.inl (fun h => Or.inr (Or.inl h)))] at hr; cases hr
    · rcases hx with rfl | rfl | rfl <;> rcases hr with h | ⟨t, h⟩ | h <;> cases h
  all_goals (simp only [Within1, h2, h3] at hM ⊢; exact hM)

/-- How things are before, in and after one call. -/
def One (x : Bool × Bool) (b : Bool) (cs : List AOp) (s : AW) : Prop :=
  (cs = [] ∧ s.caller = .idle ∧ (s.running, s.wasRunning) = x ∧ (x.1 = false → s.some? = b)) ∨ ∃ op, cs = [op] ∧ Done1 x b op s

theorem one_run {dev : Device} {fl : Str → Option PyFloat} {s s' : AW} {as : List Action} (h : AReach dev fl politeCallback s)
    (hi : s.caller = .idle) (hr : ARun dev fl politeCallback s as s') (hlen : (userCalls as).length ≤ 1) (hk : AOp.close ∉ userCalls as)
    (hg : ¬ ObdM.Gone s'.obd) : One (s.running, s.wasRunning) s.some? (userCalls as) s' := by
  induction hr with
  | nil => exact Or.inl ⟨rfl, hi, rfl, fun _ => rfl⟩
  | snoc as s1 a s2 h1 hok hs ih =>
    have hR := arun_reach h h1
    have hg1 : ¬ ObdM.Gone s1.obd := fun hx => hg (gone_step hs hx)
    rw [userCalls_append] at hk hlen ⊢
    rw [List.length_append] at hlen
    have ih := ih (by omega) (fun hx => hk (List.mem_append.2 (Or.inl hx))) hg1
    have hstep := hs
    by_cases hcall : ∃ op, a = .call op
    · obtain ⟨op, rfl⟩ := hcall
      rcases ih with ⟨e1, e2, e3, e4⟩ | ⟨o, e1, -⟩
      · unfold step at hs
        simp only [e2, Option.some.injEq] at hs
        subst hs
        refine Or.inr ⟨op, by rw [e1]; rfl, Or.inr ⟨_, rfl, ?_⟩⟩
        have f1 : s1.running = s.running := congrArg Prod.fst e3
        have f2 : s1.wasRunning = s.wasRunning := congrArg Prod.snd e3
        cases op
        case start => exact ⟨f2, fun _ => f1, fun _ => e4, by simp [entry], by simp [entry]⟩
        case stop => exact f2
        case enter => exact ⟨fun _ => ⟨f1, f2⟩, by simp [entry]⟩
        case exit => exact ⟨f2, fun _ => f1, by simp [entry], fun _ => e4, by simp [entry], by simp [entry], by simp [entry]⟩
        all_goals exact ⟨f1, f2⟩
      · rw [e1] at hlen
        simp [userCalls] at hlen
    · have hn : ∀ op, a ≠ .call op := fun op h => hcall ⟨op, h⟩
      have e1 : userCalls [a] = [] := by cases a <;> first | rfl | exact absurd rfl (hn _)
      rw [e1, List.append_nil] at hk ⊢
      by_cases ha : a = .caller
      · subst ha
        unfold step at hs
        cases hc : s1.caller with
        | idle => simp only [hc] at hs; cases hs
        | busy op pc =>
          simp only [hc] at hs
          rcases ih with ⟨-, h2, -⟩ | ⟨o, e2, ⟨h2, -⟩ | ⟨p, h2, hM⟩⟩
          · rw [hc] at h2; cases h2
          · rw [hc] at h2; cases h2
          · rw [hc] at h2; cases h2
            refine Or.inr ⟨op, e2, one_caller (areach_inv hR) (areach_gone hR) (areach_named hR hg1) (areach_placed hR _ _ hc) ?_ hg1 hc hs hM⟩
            rintro rfl
            exact hk (by rw [e2]; simp)
      · obtain ⟨g1, g2, g3, g4, g5⟩ := thread_step (areach_inv hR) (areach_any hR) (areach_polite hR) (areach_gone hR) hok hg1 ha hn hstep
        rcases ih with ⟨e2, h2, h3, h4⟩ | ⟨o, e2, ⟨h2, h3⟩ | ⟨p, h2, hM⟩⟩
        · refine Or.inl ⟨e2, by rw [g1]; exact h2, by rw [g3, g2]; exact h3, fun hx => ?_⟩
          rcases (areach_named hR hg1).thread g5 with hr | ⟨o, p, hq, -⟩
          · rw [show s1.running = s.running from congrArg Prod.fst h3, show s.running = false from hx] at hr; cases hr
          · rw [h2] at hq; cases hq
        · exact Or.inr ⟨o, e2, Or.inl ⟨by rw [g1]; exact h2, by rw [g3, g2]; exact h3⟩⟩
        · exact Or.inr ⟨o, e2, Or.inr ⟨p, by rw [g1]; exact h2, one_same (areach_inv hR) (areach_any hR) (areach_polite hR) (areach_gone hR)
            (areach_named hR hg1) (areach_placed hR _ _ h2) hok hg1 ha hn hstep h2 hM⟩⟩

end AW
end Model
