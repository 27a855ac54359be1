import Verif.Lemmas.AsyncHist
import Verif.Spec.AsyncActual
/-!
# The state and the history, also if `unwatch` is misused
-/
namespace Spec
open Py Model

theorem sub_appendA (k : CmdKey) (a b : List Ev) : subA k (a ++ b) = b.foldl (Sub.nextA k) (subA k a) := by
  unfold subA; rw [List.foldl_append]

theorem dueAux_snocA (e : Ev) (l : List Ev) : ∀ (done : List Ev) (d : List (Nat × Response)),
    dueAuxA done d (l ++ [e]) = nextDueA (done ++ l) (dueAuxA done d l) e := by
  induction l with
  | nil => intro done d; simp [dueAuxA]
  | cons x l ih => intro done d; simp only [List.cons_append, dueAuxA]; rw [ih]; simp

theorem due_snocA (l : List Ev) (e : Ev) : dueA (l ++ [e]) = nextDueA l (dueA l) e := by
  unfold dueA; rw [dueAux_snocA]; simp

theorem inert_subA {k : CmdKey} {es : List Ev} (h : ∀ e ∈ es, Inert e) : ∀ x, es.foldl (Sub.nextA k) x = x := by
  induction es with
  | nil => intro x; rfl
  | cons e es ih =>
    intro x
    have h1 : Sub.nextA k x e = x := by
      have := h e (by simp)
      cases e <;> first | rfl | exact absurd this (by simp [Inert])
    rw [List.foldl_cons, h1]
    exact ih (fun e he => h e (List.mem_cons_of_mem _ he)) x

theorem inert_dueA {es : List Ev} (h : ∀ e ∈ es, Inert e) : ∀ l, dueA (l ++ es) = dueA l := by
  induction es with
  | nil => intro l; simp
  | cons e es ih =>
    intro l
    have h1 : dueA (l ++ [e]) = dueA l := by
      rw [due_snocA]
      have := h e (by simp)
      cases e <;> first | rfl | exact absurd this (by simp [Inert])
    have := ih (fun e he => h e (List.mem_cons_of_mem _ he)) (l ++ [e])
    rw [List.append_assoc] at this
    rw [← h1, ← this]; rfl

end Spec

namespace Model
open Py Spec
namespace AW
open ObdM

/-- `unwatch(c, j)` of a callback that is not subscribed. -/
theorem doUnwatch_other {s : AW} (hT : Tables s) {c : OBDCommand} {j : Nat} {l : List Nat} {r : Response} (hv : s.view c.key = some (l, r)) (hj : j ∉ l) (k : CmdKey) :
    (s.doUnwatch c (some j)).2.view k = if c.key = k then none else s.view k := by
  have hm : s.commands.mem c.key = true ∧ s.callbacks.get? c.key = some l := by
    unfold view at hv
    cases h1 : s.commands.get? c.key with
    | none => rw [h1] at hv; cases hv
    | some x =>
      refine ⟨(Dict.mem_iff _ _).mpr ((Dict.get?_isSome_iff _ _).mp (by rw [h1]; rfl)), ?_⟩
      rw [h1] at hv
      cases h2 : s.callbacks.get? c.key with
      | none => rw [h2] at hv; cases hv
      | some l' => rw [h2] at hv; cases hv; rfl
  have hcg := callbacks_get s c.key
  rw [hm.2] at hcg
  unfold doUnwatch
  rw [if_pos hm.1]
  simp only
  cases hi : s.cbs.get? c.key with
  | none => rw [hi] at hcg; cases hcg
  | some i =>
    rw [hi] at hcg
    have hl : s.list i = l := by simpa using hcg.symm
    simp only
    rw [if_neg (by rw [hl]; exact hj)]
    have h1 := pop_callbacks (s := s) (s' := { s with cbs := s.cbs.pop c.key, commands := s.commands.pop c.key }) c.key rfl rfl
    show ({ s with cbs := s.cbs.pop c.key, commands := s.commands.pop c.key } : AW).view k = _
    unfold view
    rw [h1, Dict.get?_pop _ _ _ hT.1, Dict.get?_pop _ _ _ hT.2]
    by_cases he : c.key = k
    · simp only [if_pos he]
    · simp only [if_neg he]

/-- Every change of the subscriptions is as in `Sub.nextA`. -/
theorem view_actual {s s1 : AW} {o : AOp} (hT : Tables s) (hC : Complete s) (hch : Changed s (s.doModify o).2 o) (h1 : (s.doModify o).2 = s1) (k : CmdKey) :
    List.foldl (Sub.nextA k) (s.view k) [Ev.did o] = s1.view k := by
  subst h1
  show Sub.nextA k (s.view k) (.did o) = _
  cases o with
  | unwatch c cb =>
    cases cb with
    | none => rw [hch.view hC (by intro c j h; cases h) k]; rfl
    | some j =>
      by_cases hj : ∀ l r, s.view c.key = some (l, r) → j ∈ l
      · rw [hch.view hC (by intro c' j' h; cases h; exact hj) k]
        simp only [Sub.nextA, Sub.next]
        by_cases hk : c.key = k
        · rw [if_pos hk, if_pos hk]
          rw [hk] at hj
          cases hv : s.view k with
          | none => rfl
          | some x =>
            obtain ⟨l, r⟩ := x
            have := hj l r hv
            simp only [this, true_and, if_true]
            by_cases he : l.erase j = [] <;> simp [he]
        · rw [if_neg hk, if_neg hk]
      · simp only [not_forall] at hj
        obtain ⟨l, r, hv, hj⟩ := hj
        have : (s.doModify (.unwatch c (some j))).2 = (s.doUnwatch c (some j)).2 := rfl
        rw [this, doUnwatch_other hT hv hj k]
        simp only [Sub.nextA]
        by_cases hk : c.key = k
        · subst hk
          rw [if_pos rfl, if_pos rfl, hv]
          simp [hj]
        · rw [if_neg hk, if_neg hk]
  | _ => rw [hch.view hC (by intro c j h; cases h) k]; rfl

/-- What each recorded event says about the history before it. -/
def GoodA (a : List Ev) : Ev → Prop
  | .fired k r => (dueA a).head? = some (k, r)
  | .queried _ => dueA a = []
  | .stored _ _ => dueA a = []
  | .slept => dueA a = []
  | .answer c r => r = match subA c.key a with
    | some (_, r) => r
    | none => {}
  | _ => True

structure HistInvA (s : AW) : Prop where
  view : ∀ k, subA k s.log = s.view k
  dueA : dueA s.log = s.pending
  good : ∀ a e b, s.log = a ++ e :: b → GoodA a e

theorem good_snocA {l es : List Ev} (h : ∀ a e b, l = a ++ e :: b → GoodA a e) (h2 : ∀ a e b, es = a ++ e :: b → GoodA (l ++ a) e) :
    ∀ a e b, l ++ es = a ++ e :: b → GoodA a e := by
  intro a e b he
  rcases append_cons_split he.symm with ⟨b', -, h3⟩ | ⟨a', rfl, h3⟩
  · exact h a e b' h3
  · exact h2 a' e b h3

theorem good_oneA {l : List Ev} {x : Ev} (h : GoodA l x) : ∀ a e b, [x] = a ++ e :: b → GoodA (l ++ a) e := by
  intro a e b he
  cases a with
  | nil => simp at he; obtain ⟨rfl, -⟩ := he; simpa using h
  | cons y a => simp at he

/-- Extending a history by inert events. -/
theorem hist_inertA {s s' : AW} {es : List Ev} (hH : HistInvA s) (hl : s'.log = s.log ++ es) (hin : ∀ e ∈ es, Inert e)
    (hg : ∀ a e b, es = a ++ e :: b → GoodA (s.log ++ a) e) (hv : ∀ k, s'.view k = s.view k) (hp : s'.pending = s.pending) : HistInvA s' := by
  refine ⟨?_, ?_, ?_⟩
  · intro k
    rw [hl]
    rw [sub_appendA, inert_subA hin, hH.view, hv]
  · rw [hl]
    rw [inert_dueA hin, hH.dueA, hp]
  · rw [hl]; exact good_snocA hH.good hg

theorem hist_stepA {dev : Device} {fl : ElmM.FloatFn} {s s' : AW} {a : Action} (hI : Inv s) (hA : AnyInv s) (hB : PoliteInv s) (hH : HistInvA s)
    (hpol : politeCallback s a) (h : s.step dev fl a = some s') : HistInvA s' := by
  have hstep := h
  have hh := h
  unfold step at h
  cases a with
  | call op =>
    simp only at h
    cases hc : s.caller with
    | busy o p => rw [hc] at h; cases h
    | idle =>
      rw [hc] at h; cases h
      exact hist_inertA hH (es := [.call op]) rfl (by simp [Inert]) (good_oneA trivial) (fun k => rfl) (pending_of rfl rfl rfl)
  | caller =>
    simp only at h
    cases hc : s.caller with
    | idle => rw [hc] at h; cases h
    | busy o p =>
      rw [hc] at h
      by_cases hm : p = .modify
      · subst hm
        have hno : ∀ (t : Nat) (pc : Pc), s.threads[t]? = some pc → Pc.active pc = true → pc = .drop1 ∨ pc = .drop2 := by
          intro t pc h1 h2
          by_contra h3
          have h3 : pc ≠ .drop1 ∧ pc ≠ .drop2 := by simpa using h3
          rcases hB.run t pc h1 h2 h3.1 h3.2 with h4 | ⟨o', h4 | ⟨t1, h4⟩⟩
          · rw [hA.modify o hc] at h4; cases h4
          · rw [hc] at h4; cases h4
          · rw [hc] at h4; cases h4
        have hctl := doModify_ctl o s
        obtain ⟨s1, fin, hd, hs1, hl, hfin, hco, hcb, hthr, hths⟩ : ∃ s1 fin, (s.doModify o).2 = s1 ∧ True ∧ s'.log = s1.log ++ [fin] ∧
            (fin = .ret o ∨ ∃ x, fin = .raised o x) ∧ s'.commands = s1.commands ∧ s'.cbl = s1.cbl ∧ s'.thread = s1.thread ∧ s'.threads = s1.threads := by
          simp only [callerStep] at h
          cases hd : s.doModify o with
          | mk x s1 =>
            rw [hd] at h
            cases x with
            | ok _ => cases h; exact ⟨s1, .ret o, rfl, trivial, rfl, Or.inl rfl, rfl, rfl, rfl, rfl⟩
            | error y => cases h; exact ⟨s1, .raised o y, rfl, trivial, rfl, Or.inr ⟨y, rfl⟩, rfl, rfl, rfl, rfl⟩
        rw [hd] at hctl
        have hinert : Inert fin := by rcases hfin with rfl | ⟨x, rfl⟩ <;> trivial
        have hgood : ∀ l, GoodA l fin := by intro l; rcases hfin with rfl | ⟨x, rfl⟩ <;> trivial
        have hp1 : s.pending = [] := pending_nil hno
        have hp2 : s'.pending = [] := pending_nil (by rw [hths, hctl.2.1]; exact hno)
        rcases doModify_changed hA.tables o with hch | hch | hch
        · rw [hd] at hch
          have hl2 : s'.log = (s.log ++ [.did o]) ++ [fin] := by rw [hl, hch.log]
          refine ⟨?_, ?_, ?_⟩
          · intro k
            rw [hl2]
            rw [sub_appendA, inert_subA (by simpa using hinert), sub_appendA, view_of hco hcb]
            rw [hH.view]
            exact view_actual hA.tables hB.complete (by rw [hd]; exact hch) (by rw [hd]) k
          · rw [hl2]
            rw [inert_dueA (by simpa using hinert), due_snocA, hH.dueA, hp1, hp2]
            rfl
          · rw [hl2]
            exact good_snocA (good_snocA hH.good (good_oneA trivial)) (good_oneA (hgood _))
        · exact absurd hB.complete hch.2.1
        · rw [hd] at hch
          subst hch
          exact hist_inertA hH hl (by simpa using hinert) (good_oneA (hgood _)) (view_of hco hcb) (by rw [hp1, hp2])
      · obtain ⟨es, hl, hin, hans, hq, hsl⟩ := callerStep_inert hm h
        have hdata : s'.commands = s.commands ∧ s'.cbl = s.cbl := by
          rcases callerStep_data h with h1 | h1
          · exact ⟨h1.1, h1.2.1⟩
          · exact absurd h1.1 hm
        refine hist_inertA hH hl hin ?_ (view_of hdata.1 hdata.2) ?_
        · intro a e b he
          have hmem : e ∈ es := by rw [he]; simp
          have := hin e hmem
          cases e <;> first
            | exact absurd hmem (hq _)
            | exact absurd hmem hsl
            | exact False.elim this
            | exact True.intro
            | skip
          rename_i c r
          obtain ⟨h1, ha⟩ := hans a c r b he
          subst ha
          rw [List.append_nil]
          show r = match subA c.key s.log with
            | some (_, r) => r
            | none => {}
          rw [hH.view, h1, lookup_view hB.complete]
          cases s.view c.key <;> rfl
        · -- the callbacks dueA
          have hCI := hI.caller
          unfold CallerInv at hCI
          rw [hc] at hCI
          rcases callerStep_threads h with ⟨e1, hnn⟩ | ⟨hp, e1, e2⟩ | ⟨hp, t, e0, e1, e2⟩
          · rcases callerStep_thread h with e2 | e2 | e2
            · exact pending_of e2 e1 hdata.2
            · rw [pending_none e2]
              by_cases hs : s.thread = none
              · rw [pending_none hs]
              · -- only the end of `stop`
                have hpe : p = .stopEnd := by
                  by_contra hne
                  apply hs
                  rw [← e2]
                  have hafter : ∀ x : AW, (x.afterStop o).thread = x.thread := fun x => (afterStop_caller o x).2.1
                  clear hl hin hans hq hsl hdata e1 hCI
                  cases p <;> simp only [callerStep] at h
                  case modify => exact absurd rfl hm
                  case stopEnd => exact absurd rfl hne
                  case startNew => cases h; cases e2
                  case ask => cases o <;> simp only [Option.some.injEq] at h <;> subst h <;> rfl
                  case stopNone => cases h; split
                                   · rw [hafter]
                                   · rfl
                  all_goals repeat' split at h
                  all_goals first | (cases h; done) | (cases h; rfl) | (cases h; split <;> rfl)
                subst hpe
                obtain ⟨t, ht⟩ := Option.ne_none_iff_exists'.mp hs
                have hov := hCI.2 t ht
                unfold over at hov
                split at hov
                · next e hp => rw [pending_some ht hp]; rfl
                · cases hov
            · exact absurd e2 hnn
          · rw [hp] at hCI
            rw [pending_none hCI, pending_some (pc := .notStarted) e2 (by rw [e1]; simp)]; rfl
          · rw [hp] at hCI
            obtain ⟨t', h1, h2⟩ := hCI
            have hlt : t' < s.threads.length := (List.getElem?_eq_some_iff.mp h2).1
            rw [e0] at h1; cases h1
            rw [pending_some e0 h2, pending_some (pc := .test) (e2.trans e0) (by rw [e1]; simp [hlt])]; rfl
  | daemon t =>
    simp only at h
    cases hp : s.threads[t]? with
    | none => rw [hp] at h; cases h
    | some pc =>
      rw [hp] at h
      obtain ⟨hc, -, hact, pc2, g1, -, h6⟩ := daemonStep_ctl h
      have hlt : t < s.threads.length := (List.getElem?_eq_some_iff.mp hp).1
      have hst := hI.act t pc hp hact
      have hok := hB.ok t pc hp
      have hpend := pending_some hst hp
      have hq1 : ∀ (s2 : AW) (x : Pc) (es : List Ev), s2.log = s.log ++ es → (∀ e ∈ es, Inert e) → (∀ a e b, es = a ++ e :: b → GoodA (s.log ++ a) e) →
          s2.commands = s.commands → s2.cbl = s.cbl → s2.thread = some t → s2.threads = s.threads.set t x → s2.pcDue x = s.pcDue pc →
          HistInvA s2 := by
        intro s2 x es e1 e2 e3 e4 e5 e6 e7 e8
        refine hist_inertA hH e1 e2 e3 (view_of e4 e5) ?_
        rw [hpend, ← e8]
        exact pending_some e6 (by rw [e7]; simp [hlt])
      have hq2 : ∀ (s2 : AW) (es : List Ev) (e : End), s2.log = s.log ++ es ++ [.ended e] → (∀ e ∈ es, Inert e) →
          (∀ a e b, es = a ++ e :: b → GoodA (s.log ++ a) e) → s2.commands = s.commands → s2.cbl = s.cbl →
          (s2.thread = none ∨ s2.threads = s.threads.set t (.finished e)) → HistInvA s2 := by
        intro s2 es e e1 e2 e3 e4 e5 e6
        refine ⟨?_, ?_, ?_⟩
        · intro k
          rw [e1]
          rw [sub_appendA, sub_appendA, inert_subA e2, view_of e4 e5, ← hH.view]
          rfl
        · rw [e1, due_snocA]
          unfold pending
          split
          · rfl
          · next t' ht' =>
            split
            · rfl
            · next pc' hpc' =>
              rcases e6 with e6 | e6
              · rw [e6] at ht'; cases ht'
              · rw [e6] at hpc'
                rcases set_get hpc' with ⟨-, rfl⟩ | ⟨hne, hpc'⟩
                · rfl
                · have hI2 := inv_step hI hstep
                  cases ha : Pc.active pc' with
                  | false => exact (pcDue_inactive (Or.inl ha)).symm
                  | true => have := hI.act t' pc' hpc' ha; rw [hst] at this; cases this; exact absurd rfl hne
        · rw [e1]; exact good_snocA (good_snocA hH.good e3) (good_oneA trivial)
      have hg : s.pcDue pc = [] → Spec.dueA s.log = [] := by
        intro h0; rw [hH.dueA, hpend, h0]
      cases pc <;> simp only [daemonStep] at h
      case notStarted => cases hact
      case finished => cases hact
      case inside => cases h
      case test =>
        split at h <;> cases h
        · exact hq1 _ .size [] (List.append_nil _).symm (by simp) (by simp) rfl rfl hst rfl rfl
        · exact hq2 _ [] .returned (by simp [emit, setPc]) (by simp) (by simp) rfl rfl (Or.inr rfl)
      case size =>
        split at h <;> cases h
        · exact hq1 _ .iter [] (List.append_nil _).symm (by simp) (by simp) rfl rfl hst rfl rfl
        · exact hq1 _ .sleep [.slept] rfl (by simp [Inert]) (good_oneA (hg rfl)) rfl rfl hst rfl rfl
      case iter =>
        cases h
        exact hq1 _ _ [] (List.append_nil _).symm (by simp) (by simp) rfl rfl hst rfl rfl
      case next it =>
        rw [if_neg (by intro h2; exact h2.2 hok.keys)] at h
        cases hr : it.rest with
        | nil =>
          rw [hr] at h; cases h
          exact hq1 _ .sleep [.slept] rfl (by simp [Inert]) (good_oneA (hg rfl)) rfl rfl hst rfl rfl
        | cons c rest =>
          rw [hr] at h; cases h
          exact hq1 _ _ [] (List.append_nil _).symm (by simp) (by simp) rfl rfl hst rfl rfl
      case conn it c =>
        split at h <;> cases h
        · exact hq1 _ (.query it c) [] (List.append_nil _).symm (by simp) (by simp) rfl rfl hst rfl rfl
        · exact hq1 _ .drop1 [] (List.append_nil _).symm (by simp) (by simp) rfl rfl hst rfl rfl
      case drop1 =>
        cases h
        exact hq1 _ .drop2 [] (List.append_nil _).symm (by simp) (by simp) rfl rfl hst rfl rfl
      case drop2 =>
        cases h
        exact hq2 _ [] .returned (by simp [emit, setPc]) (by simp) (by simp) rfl rfl (Or.inl rfl)
      case query it c =>
        cases hq : ObdM.query dev fl c true s.obd with
        | mk x o =>
          rw [hq] at h
          cases x with
          | error x =>
            cases h
            exact hq2 _ [.queried c] (.query x) rfl (by simp [Inert]) (good_oneA (hg rfl)) rfl rfl (Or.inr rfl)
          | ok r =>
            cases h
            exact hq1 _ (.store it c r) [.queried c] rfl (by simp [Inert]) (good_oneA (hg rfl)) rfl rfl hst rfl rfl
      case store it c r =>
        injection h with h
        have e1 : s'.log = s.log ++ [.stored c r] := by rw [← h]; rfl
        have e2 : s'.commands = setResponse s.commands c r := by rw [← h]; rfl
        have e3 : s'.cbl = s.cbl := by rw [← h]; rfl
        have e4 : s'.threads = s.threads.set t (.subs it c r) := by rw [← h]; rfl
        have e5 : s'.thread = some t := by rw [← h]; exact hst
        obtain ⟨_, r0, l, h1, h2, h3⟩ := view_some hB.complete hok.2
        refine ⟨?_, ?_, by rw [e1]; exact good_snocA hH.good (good_oneA (hg rfl))⟩
        · intro k
          rw [e1]
          rw [sub_appendA]
          simp only [List.foldl_cons, List.foldl_nil]
          rw [hH.view  k]
          exact (setResponse_view hB.complete hok.2 _ e2 e3 k).symm
        · rw [e1]
          rw [pending_some (pc := .subs it c r) e5 (by rw [e4]; simp [hlt]), due_snocA]
          simp only [nextDueA, pcDue]
          rw [hH.view, h3, callbacks_cbl e3, h2, Option.getD_some]
      case subs it c r =>
        obtain ⟨_, r0, l, h1, h2, h3⟩ := view_some hB.complete hok.2
        have h4 := callbacks_get s c.key
        rw [h2] at h4
        cases hi : s.cbs.get? c.key with
        | none => rw [hi] at h4; cases h4
        | some i =>
          rw [hi] at h h4
          cases h4
          cases h
          exact hq1 _ (.fire it r i 0) [] (List.append_nil _).symm (by simp) (by simp) rfl rfl hst rfl (by simp [pcDue, h2]; rfl)
      case fire it r l i =>
        cases hx : (s.list l)[i]? with
        | none =>
          rw [hx] at h
          cases h
          exact hq1 _ (.next it) [] (List.append_nil _).symm (by simp) (by simp) rfl rfl hst rfl
            (by simp only [pcDue]; rw [List.drop_eq_nil_of_le (List.getElem?_eq_none_iff.mp hx)]; rfl)
        | some k =>
          rw [hx] at h
          injection h with h
          have hdr : (s.list l).drop i = k :: (s.list l).drop (i + 1) := by
            obtain ⟨h1, h2⟩ := List.getElem?_eq_some_iff.mp hx
            rw [List.drop_eq_getElem_cons h1, h2]
          have hdue : s.pcDue (.fire it r l i) = (k, r) :: s.pcDue (.inside it r l (i + 1)) := by
            simp only [pcDue, hdr, List.map_cons]
          have e1 : s'.log = s.log ++ [.fired k r] := by rw [← h]; rfl
          have e2 : s'.commands = s.commands := by rw [← h]; rfl
          have e3 : s'.cbl = s.cbl := by rw [← h]; rfl
          have e4 : s'.threads = s.threads.set t (.inside it r l (i + 1)) := by rw [← h]; rfl
          have e5 : s'.thread = some t := by rw [← h]; exact hst
          refine ⟨?_, ?_, by
            rw [e1]; refine good_snocA hH.good (good_oneA ?_)
            show (dueA s.log).head? = some (k, r); rw [hH.dueA, hpend, hdue]; rfl⟩
          · intro k'
            rw [e1]
            rw [sub_appendA, view_of e2 e3]; exact hH.view  k'
          · rw [e1]
            rw [pending_some (pc := .inside it r l (i + 1)) e5 (by rw [e4]; simp [hlt]), due_snocA, hH.dueA, hpend, hdue]
            simp only [pcDue, list_of e3]; rfl
      case sleep =>
        cases h
        exact hq1 _ .test [] (List.append_nil _).symm (by simp) (by simp) rfl rfl hst rfl rfl
  | cb t op =>
    simp only at h
    split at h
    · next it r rest hp =>
      have hst := hI.act t _ hp rfl
      obtain ⟨h1, h2, h3, -⟩ := cbCall_ctl hst h
      obtain ⟨d1, d2, d3, d4, d5, -⟩ := cbCall_polite hst hpol h
      exact hist_inertA hH (es := []) (by simp [d5]) (by simp) (by simp) (view_of d1 d2) (pending_of h3 h2 d2)
    · cases h
  | cbEnd t ok =>
    simp only at h
    split at h
    · next it r l i hp =>
      have hst := hI.act t _ hp rfl
      have hlt : t < s.threads.length := (List.getElem?_eq_some_iff.mp hp).1
      have hpend := pending_some hst hp
      split at h <;> injection h with h
      · have e4 : s'.threads = s.threads.set t (.fire it r l i) := by rw [← h]; rfl
        have e5 : s'.thread = some t := by rw [← h]; exact hst
        have e6 : s'.cbl = s.cbl := by rw [← h]; rfl
        refine hist_inertA hH (es := []) (by rw [← h]; exact (List.append_nil _).symm) (by simp) (by simp) (fun k => by rw [← h]; rfl) ?_
        rw [hpend, pending_some (pc := .fire it r l i) e5 (by rw [e4]; simp [hlt])]; simp only [pcDue, list_of e6]
      · have e1 : s'.log = s.log ++ [.ended .callback] := by rw [← h]; rfl
        have e2 : s'.commands = s.commands := by rw [← h]; rfl
        have e3 : s'.cbl = s.cbl := by rw [← h]; rfl
        have e4 : s'.threads = s.threads.set t (.finished .callback) := by rw [← h]; rfl
        have e5 : s'.thread = some t := by rw [← h]; exact hst
        refine ⟨?_, ?_, by rw [e1]; exact good_snocA hH.good (good_oneA trivial)⟩
        · intro k
          rw [e1]
          rw [sub_appendA, view_of e2 e3]; exact hH.view  k
        · rw [e1, due_snocA, pending_some (pc := .finished .callback) e5 (by rw [e4]; simp [hlt])]; rfl
    · cases h
  | reorder t rest =>
    obtain ⟨it, it', h1, -, h2, -⟩ := reorder_eq hh
    exact absurd (hB.ok t _ h1).keys h2

theorem areach_histA {dev : Device} {fl : Str → Option PyFloat} {s : AW} (h : AReach dev fl politeCallback s) : HistInvA s := by
  induction h with
  | init a o h => exact ⟨fun _ => rfl, rfl, by simp⟩
  | step s a s' h hok hs ih => exact hist_stepA (areach_inv h) (areach_any h) (areach_polite h) ih hok hs

end AW
end Model
