import Verif.Spec.Refine
import Verif.Props.Async
/-!
# Lemmas: an asynchronous connection is a synchronous one
-/
namespace Model
open Py Spec
namespace AW

def inStore : Pc → Option (OBDCommand × Response)
  | .store _ c r => some (c, r)
  | _ => none

def unsaved (s : AW) : List (OBDCommand × Response) := s.threads.filterMap inStore

theorem inStore_active {pc : Pc} (h : Pc.active pc = false) : inStore pc = none := by
  cases pc <;> first | rfl | cases h

theorem filterMap_set_same {α β : Type} {f : α → Option β} : ∀ {l : List α} {t : Nat} {x y : α}, l[t]? = some x → f x = f y → (l.set t y).filterMap f = l.filterMap f
  | [], _, _, _, h, _ => by cases h
  | a :: l, 0, x, y, h, e => by
    simp at h; subst h
    simp [List.filterMap_cons, e]
  | a :: l, t + 1, x, y, h, e => by
    simp at h
    simp [List.filterMap_cons, filterMap_set_same h e]

theorem filterMap_only {α β : Type} {f : α → Option β} : ∀ {l : List α} {t : Nat} {x : α}, l[t]? = some x → (∀ (t' : Nat) y, t' ≠ t → l[t']? = some y → f y = none) →
    l.filterMap f = (f x).toList
  | [], _, _, h, _ => by cases h
  | a :: l, 0, x, h, e => by
    simp at h; subst h
    have : l.filterMap f = [] := by
      rw [List.filterMap_eq_nil_iff]
      intro y hy
      obtain ⟨i, hi⟩ := List.getElem?_of_mem hy
      exact e (i + 1) y (by simp) (by simpa using hi)
    simp only [List.filterMap_cons, this]
    cases f a <;> rfl
  | a :: l, t + 1, x, h, e => by
    simp at h
    have h0 := e 0 a (by simp) (by simp)
    simp only [List.filterMap_cons, h0]
    exact filterMap_only h (fun t' y hne hy => e (t' + 1) y (by omega) (by simpa using hy))

theorem set_only {s : AW} (hI : Inv s) {t : Nat} {pc pc' : Pc} (h : s.threads[t]? = some pc) (ha : Pc.active pc = true) :
    s.threads.filterMap inStore = (inStore pc).toList ∧ (s.threads.set t pc').filterMap inStore = (inStore pc').toList := by
  have hlt : t < s.threads.length := by
    rcases Nat.lt_or_ge t s.threads.length with h1 | h1
    · exact h1
    · rw [List.getElem?_eq_none h1] at h; cases h
  have hother : ∀ (t' : Nat) y, t' ≠ t → s.threads[t']? = some y → inStore y = none := by
    intro t' y hne hy
    refine inStore_active ?_
    by_contra hact
    have e1 := hI.act t' y hy (by simpa using hact)
    have e2 := hI.act t pc h ha
    rw [e1] at e2; cases e2; exact hne rfl
  refine ⟨filterMap_only h hother, filterMap_only (t := t) (by simp [hlt]) ?_⟩
  intro t' y hne hy
  rw [List.getElem?_set_ne (Ne.symm hne)] at hy
  exact hother t' y hne hy

/-- What the user's thread is doing, and which calls the schedule has made. -/
structure RunInv (as : List Action) (s : AW) : Prop where
  called : ∀ op pc, s.caller = .busy op pc → .call op ∈ as ∧ (pc = .closeObd → op = .close) ∧ (pc = .power → op = .lowPower ∨ op = .normalPower)

/-- The connection has been driven by `calls` alone. -/
structure Driven (dev : Device) (fl : Str → Option PyFloat) (o : OW) (as : List Action) (s : AW) (calls : List Call) : Prop where
  obd : s.obd = session dev fl calls o
  asked : asked calls = loopAsked s.log
  answers : answers dev fl calls o = loopStored s.log ++ s.unsaved
  cause : ∀ k ∈ calls, Causes as k

theorem causes_mono {as bs : List Action} {k : Call} (h : Causes as k) : Causes (as ++ bs) k := by
  cases k with
  | query c f => exact h
  | lowPower => rcases h with h | ⟨t, h⟩; exacts [Or.inl (by simp [h]), Or.inr ⟨t, by simp [h]⟩]
  | normalPower => rcases h with h | ⟨t, h⟩; exacts [Or.inl (by simp [h]), Or.inr ⟨t, by simp [h]⟩]
  | close => exact List.mem_append_left _ h

theorem answers_append (dev : Device) (fl : Str → Option PyFloat) (l l' : List Call) (s : OW) :
    Spec.answers dev fl (l ++ l') s = Spec.answers dev fl l s ++ Spec.answers dev fl l' (session dev fl l s) := by
  induction l generalizing s with
  | nil => rfl
  | cons k l ih =>
    cases k with
    | query c force =>
      cases hq : ObdM.query dev fl c force s with
      | mk x s1 =>
        have hs : session dev fl (.query c force :: l) s = session dev fl l s1 := by simp [session, Call.after, hq]
        cases x with
        | error e => simp only [List.cons_append, Spec.answers, hq, ih, hs]
        | ok r => simp only [List.cons_append, Spec.answers, hq, ih, hs]
    | lowPower => exact ih _
    | normalPower => exact ih _
    | close => exact ih _

/-- A step that leaves the connection alone. -/
theorem driven_same {dev : Device} {fl : Str → Option PyFloat} {o : OW} {as : List Action} {s s' : AW} {calls : List Call} {es : List Ev} (a : Action)
    (h : Driven dev fl o as s calls) (ho : s'.obd = s.obd) (hl : s'.log = s.log ++ es) (h1 : loopAsked es = []) (h2 : loopStored es ++ s'.unsaved = s.unsaved) :
    ∃ calls', Driven dev fl o (as ++ [a]) s' calls' := by
  refine ⟨calls, ho.trans h.obd, ?_, ?_, fun k hk => causes_mono (h.cause k hk)⟩
  · rw [hl, h.asked]; unfold loopAsked at h1 ⊢; rw [List.filterMap_append, h1, List.append_nil]
  · rw [hl, h.answers, ← h2]; unfold loopStored; rw [List.filterMap_append, List.append_assoc]

/-- A step with a call other than a query. -/
theorem driven_call {dev : Device} {fl : Str → Option PyFloat} {o : OW} {as : List Action} {s s' : AW} {calls : List Call} {es : List Ev} {a : Action} (k : Call)
    (hk : ∀ c f, k ≠ .query c f) (hc : Causes (as ++ [a]) k)
    (h : Driven dev fl o as s calls) (ho : s'.obd = k.after dev fl s.obd) (hl : s'.log = s.log ++ es) (h1 : loopAsked es = []) (h2 : loopStored es ++ s'.unsaved = s.unsaved) :
    ∃ calls', Driven dev fl o (as ++ [a]) s' calls' := by
  refine ⟨calls ++ [k], ?_, ?_, ?_, ?_⟩
  · rw [ho, h.obd]; simp [session]
  · rw [hl]; unfold loopAsked at h1 ⊢; rw [List.filterMap_append, h1, List.append_nil]
    have := h.asked
    unfold Spec.asked at this ⊢
    rw [List.filterMap_append, this]
    cases k <;> first | exact absurd rfl (hk _ _) | simp [loopAsked]
  · rw [answers_append, h.answers, ← h2, hl]
    have : Spec.answers dev fl [k] (session dev fl calls o) = [] := by
      cases k <;> first | exact absurd rfl (hk _ _) | rfl
    rw [this]; unfold loopStored; simp only [List.filterMap_append, List.append_assoc, List.append_nil]
  · intro k' hk'
    rcases List.mem_append.1 hk' with h3 | h3
    · exact causes_mono (h.cause k' h3)
    · simp at h3; subst h3; exact hc

theorem driven_daemon {dev : Device} {fl : Str → Option PyFloat} {o : OW} {as : List Action} {s s' : AW} {calls : List Call} {t : Nat} {pc : Pc}
    (hI : Inv s) (h : Driven dev fl o as s calls) (hq : s.threads[t]? = some pc) (hs : s.daemonStep dev fl t pc = some s') :
    ∃ calls', Driven dev fl o (as ++ [.daemon t]) s' calls' := by
  have hact := (daemonStep_ctl hs).2.2.1
  have hset := fun pc' => set_only (pc' := pc') hI hq hact
  have same : ∀ {pc' : Pc} {es : List Ev} {s' : AW}, s'.obd = s.obd → s'.threads = s.threads.set t pc' → s'.log = s.log ++ es → inStore pc = none → inStore pc' = none →
      loopAsked es = [] → loopStored es = [] → ∃ calls', Driven dev fl o (as ++ [.daemon t]) s' calls' := by
    intro pc' es s' h1 h2 h3 h4 h5 h6 h7
    refine driven_same _ h h1 h3 h6 ?_
    rw [h7, List.nil_append]
    unfold unsaved
    rw [h2, (hset pc').2, (hset pc').1, h4, h5]
  cases pc <;> simp only [daemonStep] at hs
  case notStarted => cases hs
  case finished => cases hs
  case inside => cases hs
  case query it c =>
    cases hqr : ObdM.query dev fl c true s.obd with
    | mk x ob =>
      rw [hqr] at hs
      have hobd : ob = session dev fl (calls ++ [.query c true]) o := by
        have : session dev fl (calls ++ [.query c true]) o = (ObdM.query dev fl c true (session dev fl calls o)).2 := by
          unfold session; rw [List.foldl_append]; rfl
        rw [this, ← h.obd, hqr]
      have hcause : ∀ k ∈ calls ++ [Call.query c true], Causes (as ++ [.daemon t]) k := by
        intro k hk
        rcases List.mem_append.1 hk with h3 | h3
        · exact causes_mono (h.cause k h3)
        · simp at h3; subst h3; exact rfl
      have hasked : ∀ es, loopAsked es = [c] → Spec.asked (calls ++ [.query c true]) = loopAsked (s.log ++ es) := by
        intro es he
        have := h.asked
        unfold Spec.asked at this ⊢
        unfold loopAsked at this he ⊢
        rw [List.filterMap_append, List.filterMap_append, he, this]; rfl
      have hempty : s.unsaved = [] := (hset .sleep).1
      cases x with
      | ok r =>
        cases hs
        refine ⟨_, hobd, hasked [.queried c] rfl, ?_, hcause⟩
        have hans : Spec.answers dev fl [.query c true] (session dev fl calls o) = [(c, r)] := by
          simp only [Spec.answers]; rw [← h.obd, hqr]
        have hp : ((({ s with obd := ob } : AW).setPc t (.store it c r)).emit (.queried c)).unsaved = [(c, r)] := (hset (.store it c r)).2
        rw [answers_append, hans, h.answers, hempty, hp]
        simp [emit, setPc, loopStored]
      | error e =>
        cases hs
        refine ⟨_, hobd, (hasked [.queried c, .ended (.query e)] rfl).trans (by simp [emit, setPc]), ?_, hcause⟩
        have hans : Spec.answers dev fl [.query c true] (session dev fl calls o) = [] := by
          simp only [Spec.answers]; rw [← h.obd, hqr]
        have hp : (((({ s with obd := ob } : AW).setPc t (.finished (.query e))).emit (.queried c)).emit (.ended (.query e))).unsaved = [] := (hset (.finished (.query e))).2
        rw [answers_append, hans, h.answers, hempty, hp]
        simp [emit, setPc, loopStored]
  case store it c r =>
    cases hs
    refine driven_same (es := [.stored c r]) _ h rfl rfl rfl ?_
    have h1 : s.unsaved = [(c, r)] := (hset .sleep).1
    have h2 : (({ s with commands := setResponse s.commands c r } : AW).setPc t (.subs it c r)).unsaved = [] := (hset (.subs it c r)).2
    rw [h1]
    show [(c, r)] ++ (({ s with commands := setResponse s.commands c r } : AW).setPc t (.subs it c r)).unsaved = _
    rw [h2]; rfl
  case next it =>
    split at hs
    · cases hs; exact same (es := [.ended .listChanged]) rfl rfl rfl rfl rfl rfl rfl
    · split at hs <;> cases hs
      · exact same (es := [.slept]) rfl rfl rfl rfl rfl rfl rfl
      · exact same (es := []) rfl rfl (by simp [setPc]) rfl rfl rfl rfl
  case test => split at hs <;> cases hs; exacts [same (es := []) rfl rfl (by simp [setPc]) rfl rfl rfl rfl, same (es := [.ended .returned]) rfl rfl rfl rfl rfl rfl rfl]
  case size => split at hs <;> cases hs; exacts [same (es := []) rfl rfl (by simp [setPc]) rfl rfl rfl rfl, same (es := [.slept]) rfl rfl rfl rfl rfl rfl rfl]
  case conn => split at hs <;> cases hs; exacts [same (es := []) rfl rfl (by simp [setPc]) rfl rfl rfl rfl, same (es := []) rfl rfl (by simp [setPc]) rfl rfl rfl rfl]
  case subs => split at hs <;> cases hs; exacts [same (es := [.ended .missing]) rfl rfl rfl rfl rfl rfl rfl, same (es := []) rfl rfl (by simp [setPc]) rfl rfl rfl rfl]
  case fire => split at hs <;> cases hs; exacts [same (es := []) rfl rfl (by simp [setPc]) rfl rfl rfl rfl, same (es := [.fired _ _]) rfl rfl rfl rfl rfl rfl rfl]
  case drop2 => cases hs; exact same (es := [.ended .returned]) rfl rfl rfl rfl rfl rfl rfl
  all_goals cases hs; exact same (es := []) rfl rfl (by simp [setPc]) rfl rfl rfl rfl

/-- What a step of the user's thread does to the connection. -/
theorem callerStep_obd {dev : Device} {op : AOp} {pc : CPc} {s s' : AW} (h : s.callerStep dev op pc = some s') :
    s'.obd = s.obd ∨ (pc = .closeObd ∧ s'.obd = (ObdM.close dev s.obd).2) ∨ (pc = .power ∧ s'.obd = (powerCall dev op s.obd).2) := by
  have hafter : ∀ x : AW, (x.afterStop op).obd = x.obd := fun x => (afterStop_caller op x).2.2.2.2.1
  have hm := (doModify_ctl op s).2.2.2.2.1
  cases pc <;> simp only [callerStep] at h
  case closeObd =>
    refine Or.inr (Or.inl ⟨rfl, ?_⟩)
    split at h
    · next e => cases h; rw [e]; rfl
    · next e => cases h; rw [e]; rfl
  case modify =>
    left
    cases hd : s.doModify op with
    | mk x s1 =>
      rw [hd] at hm h
      cases x <;> simp only [Option.some.injEq] at h <;> subst h
      all_goals (show s1.obd = _; exact hm)
  case power =>
    refine Or.inr (Or.inr ⟨rfl, ?_⟩)
    split at h
    · next e => cases h; rw [e]; rfl
    · next e => cases h; rw [e]; rfl
  case stopNone =>
    left
    cases h; split
    · rw [hafter]
    · rfl
  case stopEnd => left; cases h; rw [hafter]
  case ask => left; cases op <;> simp only [Option.some.injEq] at h <;> subst h <;> rfl
  all_goals left
  all_goals repeat' split at h
  all_goals first | (cases h; done) | (cases h; rfl)

/-- Where the user's thread can go. -/
theorem callerStep_pc {dev : Device} {op : AOp} {pc : CPc} {s s' : AW} (h : s.callerStep dev op pc = some s') (op' : AOp) (pc' : CPc)
    (hc : s'.caller = .busy op' pc') : op' = op ∧ (pc' = .closeObd → op = .close) ∧ pc' ≠ .power := by
  have hgo : ∀ (x : AW) (p : CPc), p ≠ .closeObd → p ≠ .power → (x.goto op p).caller = .busy op' pc' → op' = op ∧ (pc' = .closeObd → op = .close) ∧ pc' ≠ .power := by
    intro x p h1 h2 h3
    cases h3
    exact ⟨rfl, fun h => absurd h h1, h2⟩
  have hret : ∀ (x : AW), (x.ret op).caller = .busy op' pc' → False := by intro x h; cases h
  have hraise : ∀ (x : AW) (y : Exc), (x.raise op y).caller = .busy op' pc' → False := by intro x y h; cases h
  have hafter : ∀ x : AW, (x.afterStop op).caller = .busy op' pc' → op' = op ∧ (pc' = .closeObd → op = .close) ∧ pc' ≠ .power := by
    intro x h
    unfold afterStop at h
    split at h
    · cases h; exact ⟨rfl, fun _ => rfl, by simp⟩
    · exact (hret _ h).elim
  cases pc <;> simp only [callerStep] at h
  case stopNone =>
    cases h; split at hc
    · exact hafter _ hc
    · exact hgo _ _ (by simp) (by simp) hc
  case stopEnd => cases h; exact hafter _ hc
  case ask => cases op <;> simp only [Option.some.injEq] at h <;> subst h <;> exact (hret _ hc).elim
  all_goals repeat' split at h
  all_goals first
    | (cases h; done)
    | (cases h; exact (hret _ hc).elim)
    | (cases h; exact hgo _ _ (by simp) (by simp) hc)

theorem loopAsked_nil {es : List Ev} (h : ∀ c, .queried c ∉ es) : loopAsked es = [] := by
  unfold loopAsked
  rw [List.filterMap_eq_nil_iff]
  intro e he
  cases e <;> first | rfl | exact absurd he (h _)

theorem loopStored_nil {es : List Ev} (h : ∀ c r, .stored c r ∉ es) : loopStored es = [] := by
  unfold loopStored
  rw [List.filterMap_eq_nil_iff]
  intro e he
  cases e <;> first | rfl | exact absurd he (h _ _)

theorem cbCall_obd {dev : Device} {t : Nat} {op : AOp} {s s' : AW} (ht : s.thread = some t) (h : s.cbCall dev t op = some s') :
    s'.obd = s.obd ∨ (op = .lowPower ∧ s'.obd = (ObdM.lowPower dev s.obd).2) ∨ (op = .normalPower ∧ s'.obd = (ObdM.normalPower dev s.obd).2) := by
  have hstart : ∀ x : AW, x.cbStart.obd = x.obd := by
    intro x; unfold cbStart; split <;> rfl
  have hstop : ∀ x y : AW, x.cbStop t = some y → y.obd = x.obd := by
    intro x y hx; unfold cbStop at hx
    repeat' split at hx
    all_goals first | (cases hx; done) | (cases hx; rfl)
  have hm := (doModify_ctl op s).2.2.2.2.1
  unfold cbCall at h
  cases op <;> simp only at h
  case start => cases h; left; rw [hstart]
  case stop => left; rw [hstop _ _ h]
  case enter => left; rw [hstop _ _ h]
  case exit => cases h; left; split
               · rw [hstart]
               · rfl
  case close =>
    left
    rw [if_neg (by simp [ht])] at h
    rw [hstop _ _ h]
  case query => cases h; exact Or.inl rfl
  case lowPower => cases h; exact Or.inr (Or.inl ⟨rfl, rfl⟩)
  case normalPower => cases h; exact Or.inr (Or.inr ⟨rfl, rfl⟩)
  all_goals
    left
    cases h
    split
    · rfl
    · rw [hm]

theorem arun_driven {dev : Device} {fl : Str → Option PyFloat} {ok : AW → Action → Prop} {a : Args} {o : OW} (hc : Constructed dev fl a o) {as : List Action} {s0 s : AW}
    (h : ARun dev fl ok s0 as s) (h0 : s0 = { obd := o }) : RunInv as s ∧ ∃ calls, Driven dev fl o as s calls := by
  induction h with
  | nil =>
    subst h0
    exact ⟨⟨fun op pc h => by cases h⟩, [], rfl, rfl, rfl, by simp⟩
  | snoc as s1 x s2 hrun hok hs ih =>
    subst h0
    obtain ⟨hRI, calls, hD⟩ := ih
    have hI : Inv s1 := areach_inv (arun_reach (.init a o hc) hrun)
    have hh := hs
    unfold step at hs
    cases x with
    | call op =>
      simp only at hs
      cases hcl : s1.caller with
      | busy o p => rw [hcl] at hs; cases hs
      | idle =>
        rw [hcl] at hs; cases hs
        refine ⟨⟨?_⟩, driven_same (es := [.call op]) _ hD rfl rfl rfl rfl⟩
        intro op' pc' h
        cases h
        refine ⟨by simp, ?_, ?_⟩
        · cases op <;> simp [entry]
        · cases op <;> simp [entry]
    | caller =>
      simp only at hs
      cases hcl : s1.caller with
      | idle => rw [hcl] at hs; cases hs
      | busy op pc =>
        rw [hcl] at hs
        obtain ⟨g1, g2, g3⟩ := hRI.called op pc hcl
        obtain ⟨pre, fin, h1, h2, h3⟩ := callerStep_log hs
        have ha : loopAsked (pre ++ fin) = [] := by
          apply loopAsked_nil
          intro c hm
          rcases List.mem_append.mp hm with hm | hm
          · exact absurd (h2 _ hm) (by simp [Mid])
          · rcases h3 with ⟨rfl, -⟩ | ⟨-, rfl | ⟨y, rfl, -⟩⟩ <;> simp at hm
        have hst : loopStored (pre ++ fin) = [] := by
          apply loopStored_nil
          intro c r hm
          rcases List.mem_append.mp hm with hm | hm
          · exact absurd (h2 _ hm) (by simp [Mid])
          · rcases h3 with ⟨rfl, -⟩ | ⟨-, rfl | ⟨y, rfl, -⟩⟩ <;> simp at hm
        have hp : s2.unsaved = s1.unsaved := by
          unfold unsaved
          rcases callerStep_threads hs with ⟨h4, -⟩ | ⟨-, h4, -⟩ | ⟨hpc, t', h5, h4, -⟩
          · rw [h4]
          · rw [h4, List.filterMap_append]; simp [inStore]
          · rw [h4]
            have := hI.caller
            unfold CallerInv at this
            rw [hcl, hpc] at this
            obtain ⟨t, e1, e2⟩ := this
            rw [h5] at e1; cases e1
            exact filterMap_set_same e2 rfl
        refine ⟨⟨?_⟩, ?_⟩
        · intro op' pc' hc'
          obtain ⟨rfl, k2, k3⟩ := callerStep_pc hs op' pc' hc'
          exact ⟨by simp [g1], k2, fun h => absurd h k3⟩
        · rcases callerStep_obd hs with ho | ⟨hpc, ho⟩ | ⟨hpc, ho⟩
          · exact driven_same _ hD ho h1 ha (by rw [hst, hp]; rfl)
          · have := g2 hpc; subst this
            exact driven_call .close (by simp) (by simp [Causes, g1]) hD ho h1 ha (by rw [hst, hp]; rfl)
          · rcases g3 hpc with rfl | rfl
            · exact driven_call .lowPower (by simp) (Or.inl (by simp [g1])) hD ho h1 ha (by rw [hst, hp]; rfl)
            · exact driven_call .normalPower (by simp) (Or.inl (by simp [g1])) hD ho h1 ha (by rw [hst, hp]; rfl)
    | daemon t =>
      simp only at hs
      cases hq : s1.threads[t]? with
      | none => rw [hq] at hs; cases hs
      | some pc =>
        rw [hq] at hs
        refine ⟨⟨?_⟩, driven_daemon hI hD hq hs⟩
        intro op pc' h
        rw [(daemonStep_ctl hs).1] at h
        obtain ⟨g1, g2⟩ := hRI.called op pc' h
        exact ⟨by simp [g1], g2⟩
    | cb t op =>
      simp only at hs
      split at hs
      · next it r rest hq =>
        have ht := hI.act t _ hq rfl
        obtain ⟨es, h1, h2⟩ := cbCall_log hs
        obtain ⟨h4, h3, -, -⟩ := cbCall_ctl ht hs
        have ha : loopAsked es = [] := loopAsked_nil (fun c hm => absurd (h2 _ hm) (by simp [FromCb]))
        have hst : loopStored es = [] := loopStored_nil (fun c r hm => absurd (h2 _ hm) (by simp [FromCb]))
        have hp : s2.unsaved = s1.unsaved := by unfold unsaved; rw [h3]
        refine ⟨⟨?_⟩, ?_⟩
        · intro op' pc' h
          rw [h4] at h
          obtain ⟨g1, g2⟩ := hRI.called op' pc' h
          exact ⟨by simp [g1], g2⟩
        · rcases cbCall_obd ht hs with ho | ⟨rfl, ho⟩ | ⟨rfl, ho⟩
          · exact driven_same _ hD ho h1 ha (by rw [hst, hp]; rfl)
          · exact driven_call .lowPower (by simp) (Or.inr ⟨t, by simp⟩) hD ho h1 ha (by rw [hst, hp]; rfl)
          · exact driven_call .normalPower (by simp) (Or.inr ⟨t, by simp⟩) hD ho h1 ha (by rw [hst, hp]; rfl)
      · cases hs
    | cbEnd t ok =>
      simp only at hs
      split at hs
      · next it r l i hq =>
        have hset := fun pc' => set_only (pc' := pc') hI hq rfl
        split at hs <;> cases hs
        · refine ⟨⟨fun op pc h => ?_⟩, driven_same (es := []) _ hD rfl (by simp [setPc]) rfl ?_⟩
          · obtain ⟨g1, g2⟩ := hRI.called op pc h
            exact ⟨by simp [g1], g2⟩
          · exact ((hset (.fire it r l i)).2.trans (hset (.fire it r l i)).1.symm)
        · refine ⟨⟨fun op pc h => ?_⟩, driven_same (es := [.ended .callback]) _ hD rfl rfl rfl ?_⟩
          · obtain ⟨g1, g2⟩ := hRI.called op pc h
            exact ⟨by simp [g1], g2⟩
          · exact ((hset (.finished .callback)).2.trans (hset (.finished .callback)).1.symm)
      · cases hs
    | reorder t rest =>
      obtain ⟨it, it', hq, -, -, rfl, -⟩ := reorder_eq hh
      have hset := set_only (pc' := .next it') hI hq rfl
      refine ⟨⟨fun op pc h => ?_⟩, driven_same (es := []) _ hD rfl (by simp [setPc]) rfl ?_⟩
      · obtain ⟨g1, g2⟩ := hRI.called op pc h
        exact ⟨by simp [g1], g2⟩
      · exact (hset.2.trans hset.1.symm)

theorem unsaved_one {s : AW} (hI : Inv s) : s.unsaved.length ≤ 1 := by
  by_cases h : ∃ (t : Nat) (pc : Pc), s.threads[t]? = some pc ∧ Pc.active pc = true
  · obtain ⟨t, pc, h1, h2⟩ := h
    show (s.threads.filterMap inStore).length ≤ 1
    rw [(set_only (pc' := pc) hI h1 h2).1]
    cases inStore pc <;> simp
  · have : s.unsaved = [] := by
      unfold unsaved
      rw [List.filterMap_eq_nil_iff]
      intro pc hp
      obtain ⟨i, hi⟩ := List.getElem?_of_mem hp
      refine inStore_active ?_
      by_contra hact
      exact h ⟨i, pc, hi, by simpa using hact⟩
    rw [this]; simp

end AW
end Model
