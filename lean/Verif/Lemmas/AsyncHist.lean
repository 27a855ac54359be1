import Verif.Lemmas.AsyncLoop
/-!
# The state and the history
-/
namespace Spec
open Py Model

theorem sub_append (k : CmdKey) (a b : List Ev) : sub k (a ++ b) = b.foldl (Sub.next k) (sub k a) := by
  unfold sub; rw [List.foldl_append]

theorem dueAux_snoc (e : Ev) (l : List Ev) : ∀ (done : List Ev) (d : List (Nat × Response)),
    dueAux done d (l ++ [e]) = nextDue (done ++ l) (dueAux done d l) e := by
  induction l with
  | nil => intro done d; simp [dueAux]
  | cons x l ih => intro done d; simp only [List.cons_append, dueAux]; rw [ih]; simp

theorem due_snoc (l : List Ev) (e : Ev) : due (l ++ [e]) = nextDue l (due l) e := by
  unfold due; rw [dueAux_snoc]; simp

theorem sane_left {a b : List Ev} (h : Sane (a ++ b)) : Sane a := by
  intro x c j y hl; exact h x c j (y ++ b) (by rw [hl]; simp)

/-- Events without influence on subscriptions and due callbacks. -/
def Inert : Ev → Prop
  | .call _ => True
  | .ret _ => True
  | .raised _ _ => True
  | .answer _ _ => True
  | .started => True
  | .queried _ => True
  | .slept => True
  | _ => False

theorem inert_sub {k : CmdKey} {es : List Ev} (h : ∀ e ∈ es, Inert e) : ∀ x, es.foldl (Sub.next k) x = x := by
  induction es with
  | nil => intro x; rfl
  | cons e es ih =>
    intro x
    have h1 : Sub.next k x e = x := by
      have := h e (by simp)
      cases e <;> first | rfl | exact absurd this (by simp [Inert])
    rw [List.foldl_cons, h1]
    exact ih (fun e he => h e (List.mem_cons_of_mem _ he)) x

theorem inert_due {es : List Ev} (h : ∀ e ∈ es, Inert e) : ∀ l, due (l ++ es) = due l := by
  induction es with
  | nil => intro l; simp
  | cons e es ih =>
    intro l
    have h1 : due (l ++ [e]) = due l := by
      rw [due_snoc]
      have := h e (by simp)
      cases e <;> first | rfl | exact absurd this (by simp [Inert])
    have := ih (fun e he => h e (List.mem_cons_of_mem _ he)) (l ++ [e])
    rw [List.append_assoc] at this
    rw [← h1, ← this]; rfl

end Spec

namespace Model
open Py Spec
namespace AW
open ObdM

/-- The callbacks that the thread at this position still has to call. -/
def pcDue (s : AW) : Pc → List (Nat × Response)
  | .subs _ c r => ((s.callbacks.get? c.key).getD []).map (fun j => (j, r))
  | .fire _ r l i => ((s.list l).drop i).map (fun j => (j, r))
  | .inside _ r l i => ((s.list l).drop i).map (fun j => (j, r))
  | _ => []

def pending (s : AW) : List (Nat × Response) :=
  match s.thread with
  | none => []
  | some t => match s.threads[t]? with
    | none => []
    | some pc => s.pcDue pc

theorem pending_some {s : AW} {t : Nat} {pc : Pc} (h1 : s.thread = some t) (h2 : s.threads[t]? = some pc) : s.pending = s.pcDue pc := by
  unfold pending; rw [h1]; simp only; rw [h2]

theorem pending_none {s : AW} (h1 : s.thread = none) : s.pending = [] := by
  unfold pending; rw [h1]

theorem pending_of {s s' : AW} (h1 : s'.thread = s.thread) (h2 : s'.threads = s.threads) (h3 : s'.cbl = s.cbl) : s'.pending = s.pending := by
  have hp : ∀ pc, s'.pcDue pc = s.pcDue pc := by
    intro pc
    cases pc <;> simp only [pcDue, callbacks_cbl h3, list_of h3]
  unfold pending; rw [h1, h2]; simp only [hp]

/-- What each recorded event says about the history before it. -/
def Good (a : List Ev) : Ev → Prop
  | .fired k r => Sane a → (due a).head? = some (k, r)
  | .queried _ => Sane a → due a = []
  | .stored _ _ => Sane a → due a = []
  | .slept => Sane a → due a = []
  | .answer c r => Sane a → r = match sub c.key a with
    | some (_, r) => r
    | none => {}
  | _ => True

structure HistInv (s : AW) : Prop where
  view : Sane s.log → ∀ k, sub k s.log = s.view k
  due : Sane s.log → due s.log = s.pending
  good : ∀ a e b, s.log = a ++ e :: b → Good a e

theorem good_snoc {l es : List Ev} (h : ∀ a e b, l = a ++ e :: b → Good a e) (h2 : ∀ a e b, es = a ++ e :: b → Good (l ++ a) e) :
    ∀ a e b, l ++ es = a ++ e :: b → Good a e := by
  intro a e b he
  rcases append_cons_split he.symm with ⟨b', -, h3⟩ | ⟨a', rfl, h3⟩
  · exact h a e b' h3
  · exact h2 a' e b h3

theorem good_one {l : List Ev} {x : Ev} (h : Good l x) : ∀ a e b, [x] = a ++ e :: b → Good (l ++ a) e := by
  intro a e b he
  cases a with
  | nil => simp at he; obtain ⟨rfl, -⟩ := he; simpa using h
  | cons y a => simp at he

/-- The user's thread, outside changes of the subscriptions. -/
theorem callerStep_inert {dev : Device} {op : AOp} {pc : CPc} {s s' : AW} (hp : pc ≠ .modify) (h : s.callerStep dev op pc = some s') :
    ∃ es, s'.log = s.log ++ es ∧ (∀ e ∈ es, Inert e) ∧ (∀ a c r b, es = a ++ .answer c r :: b → r = s.lookup c ∧ a = []) ∧
      (∀ c, .queried c ∉ es) ∧ .slept ∉ es := by
  have hgo : ∀ (x : AW) (p : CPc), x.log = s.log → ∃ es, (x.goto op p).log = s.log ++ es ∧ (∀ e ∈ es, Inert e) ∧
      (∀ a c r b, es = a ++ .answer c r :: b → r = s.lookup c ∧ a = []) ∧ (∀ c, .queried c ∉ es) ∧ .slept ∉ es :=
    fun x p hx => ⟨[], by simp [goto, hx], by simp, by intro a c r b h; simp at h, by simp, by simp⟩
  have hret : ∀ (x : AW), x.log = s.log → ∃ es, (x.ret op).log = s.log ++ es ∧ (∀ e ∈ es, Inert e) ∧
      (∀ a c r b, es = a ++ .answer c r :: b → r = s.lookup c ∧ a = []) ∧ (∀ c, .queried c ∉ es) ∧ .slept ∉ es :=
    fun x hx => ⟨[.ret op], by simp [ret, emit, hx], by simp [Inert], by intro a c r b h; have := congrArg (fun l => Ev.answer c r ∈ l) h; simp at this, by simp, by simp⟩
  have hra : ∀ (x : AW) (y : Exc), x.log = s.log → ∃ es, (x.raise op y).log = s.log ++ es ∧ (∀ e ∈ es, Inert e) ∧
      (∀ a c r b, es = a ++ .answer c r :: b → r = s.lookup c ∧ a = []) ∧ (∀ c, .queried c ∉ es) ∧ .slept ∉ es :=
    fun x y hx => ⟨[.raised op y], by simp [raise, emit, hx], by simp [Inert], by intro a c r b h; have := congrArg (fun l => Ev.answer c r ∈ l) h; simp at this, by simp, by simp⟩
  have hafter : ∀ x : AW, x.log = s.log → ∃ es, (x.afterStop op).log = s.log ++ es ∧ (∀ e ∈ es, Inert e) ∧
      (∀ a c r b, es = a ++ .answer c r :: b → r = s.lookup c ∧ a = []) ∧ (∀ c, .queried c ∉ es) ∧ .slept ∉ es := by
    intro x hx
    unfold afterStop
    split
    · exact hgo _ _ hx
    · exact hret _ hx
  cases pc <;> simp only [callerStep] at h
  case modify => exact absurd rfl hp
  case startConn => cases h; split; exacts [hgo _ _ rfl, hret _ rfl]
  case startLen => cases h; split; exacts [hret _ rfl, hgo _ _ rfl]
  case startNone => cases h; split; exacts [hgo _ _ rfl, hret _ rfl]
  case startRun => cases h; exact hgo _ _ rfl
  case startNew => cases h; exact hgo _ _ rfl
  case startGo =>
    split at h <;> cases h
    · exact hra _ _ rfl
    · exact ⟨[.started, .ret op], by simp [ret, emit, setPc], by simp [Inert], by intro a c r b h; have := congrArg (fun l => Ev.answer c r ∈ l) h; simp at this, by simp, by simp⟩
  case stopNone => cases h; split; exacts [hafter _ rfl, hgo _ _ rfl]
  case stopRun => cases h; exact hgo _ _ rfl
  case stopRead =>
    split at h <;> cases h
    · exact hra _ _ rfl
    · exact hgo _ _ rfl
  case join => split at h <;> cases h; exact hgo _ _ rfl
  case stopEnd => cases h; exact hafter _ rfl
  case enter => cases h; exact hgo _ _ rfl
  case exit => cases h; split; exacts [hgo _ _ rfl, hret _ rfl]
  case closeObd => split at h <;> cases h; exacts [hret _ rfl, hra _ _ rfl]
  case gate => cases h; split; exacts [hret _ rfl, hgo _ _ rfl]
  case ask =>
    cases op <;> simp only [Option.some.injEq] at h <;> subst h
    case query c =>
      exact ⟨[.answer c (s.lookup c), .ret (.query c)], by simp [ret, emit], by simp [Inert], by
        intro a c' r b h
        cases a with
        | nil => simp at h; exact ⟨by rw [← h.1.1, ← h.1.2], rfl⟩
        | cons y a => cases a with
          | nil => simp at h
          | cons z a => simp at h, by simp, by simp⟩
    all_goals exact hret _ rfl
  case power => split at h <;> cases h; exacts [hret _ rfl, hra _ _ rfl]

theorem lookup_view {s : AW} (hC : Complete s) (c : OBDCommand) : s.lookup c = match s.view c.key with
    | some (_, r) => r
    | none => {} := by
  unfold lookup
  by_cases hk : c.key ∈ Dict.keys s.commands
  · obtain ⟨_, r, l, h1, -, h3⟩ := view_some hC hk
    rw [h1, h3]
  · rw [view_none hk, (Dict.get?_eq_none_iff _ _).mpr hk]

/-- Extending a history by inert events. -/
theorem hist_inert {s s' : AW} {es : List Ev} (hH : HistInv s) (hl : s'.log = s.log ++ es) (hin : ∀ e ∈ es, Inert e)
    (hg : ∀ a e b, es = a ++ e :: b → Good (s.log ++ a) e) (hv : ∀ k, s'.view k = s.view k) (hp : s'.pending = s.pending) : HistInv s' := by
  refine ⟨?_, ?_, ?_⟩
  · intro hS k
    rw [hl] at hS ⊢
    rw [sub_append, inert_sub hin, hH.view (sane_left hS), hv]
  · intro hS
    rw [hl] at hS ⊢
    rw [inert_due hin, hH.due (sane_left hS), hp]
  · rw [hl]; exact good_snoc hH.good hg

theorem pcDue_inactive {s : AW} {pc : Pc} (h : Pc.active pc = false ∨ pc = .drop1 ∨ pc = .drop2) : s.pcDue pc = [] := by
  rcases h with h | rfl | rfl
  · cases pc <;> first | rfl | (cases h; done)
  · rfl
  · rfl

theorem pending_nil {s : AW} (h : ∀ (t : Nat) (pc : Pc), s.threads[t]? = some pc → Pc.active pc = true → pc = .drop1 ∨ pc = .drop2) : s.pending = [] := by
  unfold pending
  split
  · rfl
  · split
    · rfl
    · next t _ pc hp =>
      apply pcDue_inactive
      cases ha : Pc.active pc with
      | false => exact Or.inl rfl
      | true => exact Or.inr (h _ pc hp ha)

theorem hist_step {dev : Device} {fl : ElmM.FloatFn} {s s' : AW} {a : Action} (hI : Inv s) (hA : AnyInv s) (hB : PoliteInv s) (hH : HistInv s)
    (hpol : politeCallback s a) (h : s.step dev fl a = some s') : HistInv s' := by
  have hstep := h
  have hh := h
  unfold step at h
  cases a with
  | call op =>
    simp only at h
    cases hc : s.caller with
    | busy o p => rw [hc] at h; cases h
    | idle =>
      rw [hc] at h; cases h
      exact hist_inert hH (es := [.call op]) rfl (by simp [Inert]) (good_one trivial) (fun k => rfl) (pending_of rfl rfl rfl)
  | caller =>
    simp only at h
    cases hc : s.caller with
    | idle => rw [hc] at h; cases h
    | busy o p =>
      rw [hc] at h
      by_cases hm : p = .modify
      · subst hm
        have hno : ∀ (t : Nat) (pc : Pc), s.threads[t]? = some pc → Pc.active pc = true → pc = .drop1 ∨ pc = .drop2 := by
          intro t pc h1 h2
          by_contra h3
          have h3 : pc ≠ .drop1 ∧ pc ≠ .drop2 := by simpa using h3
          rcases hB.run t pc h1 h2 h3.1 h3.2 with h4 | ⟨o', h4 | ⟨t1, h4⟩⟩
          · rw [hA.modify o hc] at h4; cases h4
          · rw [hc] at h4; cases h4
          · rw [hc] at h4; cases h4
        have hctl := doModify_ctl o s
        obtain ⟨s1, fin, hd, hs1, hl, hfin, hco, hcb, hthr, hths⟩ : ∃ s1 fin, (s.doModify o).2 = s1 ∧ True ∧ s'.log = s1.log ++ [fin] ∧
            (fin = .ret o ∨ ∃ x, fin = .raised o x) ∧ s'.commands = s1.commands ∧ s'.cbl = s1.cbl ∧ s'.thread = s1.thread ∧ s'.threads = s1.threads := by
          simp only [callerStep] at h
          cases hd : s.doModify o with
          | mk x s1 =>
            rw [hd] at h
            cases x with
            | ok _ => cases h; exact ⟨s1, .ret o, rfl, trivial, rfl, Or.inl rfl, rfl, rfl, rfl, rfl⟩
            | error y => cases h; exact ⟨s1, .raised o y, rfl, trivial, rfl, Or.inr ⟨y, rfl⟩, rfl, rfl, rfl, rfl⟩
        rw [hd] at hctl
        have hinert : Inert fin := by rcases hfin with rfl | ⟨x, rfl⟩ <;> trivial
        have hgood : ∀ l, Good l fin := by intro l; rcases hfin with rfl | ⟨x, rfl⟩ <;> trivial
        have hp1 : s.pending = [] := pending_nil hno
        have hp2 : s'.pending = [] := pending_nil (by rw [hths, hctl.2.1]; exact hno)
        rcases doModify_changed hA.tables o with hch | hch | hch
        · rw [hd] at hch
          have hl2 : s'.log = (s.log ++ [.did o]) ++ [fin] := by rw [hl, hch.log]
          refine ⟨?_, ?_, ?_⟩
          · intro hS k
            rw [hl2] at hS ⊢
            rw [sub_append, inert_sub (by simpa using hinert), sub_append, view_of hco hcb]
            have hS1 := sane_left hS
            rw [hH.view (sane_left hS1)]
            have := hch.view hB.complete ?_ k
            · rw [this]; rfl
            · intro c j hop l r hv
              subst hop
              exact hS1 s.log c j [] rfl l r (by rw [hH.view (sane_left hS1)]; exact hv)
          · intro hS
            rw [hl2] at hS ⊢
            rw [inert_due (by simpa using hinert), due_snoc, hH.due (sane_left (sane_left hS)), hp1, hp2]
            rfl
          · rw [hl2]
            exact good_snoc (good_snoc hH.good (good_one trivial)) (good_one (hgood _))
        · exact absurd hB.complete hch.2.1
        · rw [hd] at hch
          subst hch
          exact hist_inert hH hl (by simpa using hinert) (good_one (hgood _)) (view_of hco hcb) (by rw [hp1, hp2])
      · obtain ⟨es, hl, hin, hans, hq, hsl⟩ := callerStep_inert hm h
        have hdata : s'.commands = s.commands ∧ s'.cbl = s.cbl := by
          rcases callerStep_data h with h1 | h1
          · exact ⟨h1.1, h1.2.1⟩
          · exact absurd h1.1 hm
        refine hist_inert hH hl hin ?_ (view_of hdata.1 hdata.2) ?_
        · intro a e b he
          have hmem : e ∈ es := by rw [he]; simp
          have := hin e hmem
          cases e <;> first
            | exact absurd hmem (hq _)
            | exact absurd hmem hsl
            | exact False.elim this
            | exact True.intro
            | skip
          rename_i c r
          obtain ⟨h1, ha⟩ := hans a c r b he
          subst ha
          intro hS
          rw [List.append_nil] at hS ⊢
          rw [hH.view hS, h1, lookup_view hB.complete]
        · -- the callbacks due
          have hCI := hI.caller
          unfold CallerInv at hCI
          rw [hc] at hCI
          rcases callerStep_threads h with ⟨e1, hnn⟩ | ⟨hp, e1, e2⟩ | ⟨hp, t, e0, e1, e2⟩
          · rcases callerStep_thread h with e2 | e2 | e2
            · exact pending_of e2 e1 hdata.2
            · rw [pending_none e2]
              by_cases hs : s.thread = none
              · rw [pending_none hs]
              · -- only the end of `stop`
                have hpe : p = .stopEnd := by
                  by_contra hne
                  apply hs
                  rw [← e2]
                  have hafter : ∀ x : AW, (x.afterStop o).thread = x.thread := fun x => (afterStop_caller o x).2.1
                  clear hl hin hans hq hsl hdata e1 hCI
                  cases p <;> simp only [callerStep] at h
                  case modify => exact absurd rfl hm
                  case stopEnd => exact absurd rfl hne
                  case startNew => cases h; cases e2
                  case ask => cases o <;> simp only [Option.some.injEq] at h <;> subst h <;> rfl
                  case stopNone => cases h; split
                                   · rw [hafter]
                                   · rfl
                  all_goals repeat' split at h
                  all_goals first | (cases h; done) | (cases h; rfl) | (cases h; split <;> rfl)
                subst hpe
                obtain ⟨t, ht⟩ := Option.ne_none_iff_exists'.mp hs
                have hov := hCI.2 t ht
                unfold over at hov
                split at hov
                · next e hp => rw [pending_some ht hp]; rfl
                · cases hov
            · exact absurd e2 hnn
          · rw [hp] at hCI
            rw [pending_none hCI, pending_some (pc := .notStarted) e2 (by rw [e1]; simp)]; rfl
          · rw [hp] at hCI
            obtain ⟨t', h1, h2⟩ := hCI
            have hlt : t' < s.threads.length := (List.getElem?_eq_some_iff.mp h2).1
            rw [e0] at h1; cases h1
            rw [pending_some e0 h2, pending_some (pc := .test) (e2.trans e0) (by rw [e1]; simp [hlt])]; rfl
  | daemon t =>
    simp only at h
    cases hp : s.threads[t]? with
    | none => rw [hp] at h; cases h
    | some pc =>
      rw [hp] at h
      obtain ⟨hc, -, hact, pc2, g1, -, h6⟩ := daemonStep_ctl h
      have hlt : t < s.threads.length := (List.getElem?_eq_some_iff.mp hp).1
      have hst := hI.act t pc hp hact
      have hok := hB.ok t pc hp
      have hpend := pending_some hst hp
      have hq1 : ∀ (s2 : AW) (x : Pc) (es : List Ev), s2.log = s.log ++ es → (∀ e ∈ es, Inert e) → (∀ a e b, es = a ++ e :: b → Good (s.log ++ a) e) →
          s2.commands = s.commands → s2.cbl = s.cbl → s2.thread = some t → s2.threads = s.threads.set t x → s2.pcDue x = s.pcDue pc →
          HistInv s2 := by
        intro s2 x es e1 e2 e3 e4 e5 e6 e7 e8
        refine hist_inert hH e1 e2 e3 (view_of e4 e5) ?_
        rw [hpend, ← e8]
        exact pending_some e6 (by rw [e7]; simp [hlt])
      have hq2 : ∀ (s2 : AW) (es : List Ev) (e : End), s2.log = s.log ++ es ++ [.ended e] → (∀ e ∈ es, Inert e) →
          (∀ a e b, es = a ++ e :: b → Good (s.log ++ a) e) → s2.commands = s.commands → s2.cbl = s.cbl →
          (s2.thread = none ∨ s2.threads = s.threads.set t (.finished e)) → HistInv s2 := by
        intro s2 es e e1 e2 e3 e4 e5 e6
        refine ⟨?_, ?_, ?_⟩
        · intro hS k
          rw [e1] at hS ⊢
          rw [sub_append, sub_append, inert_sub e2, view_of e4 e5, ← hH.view (sane_left (sane_left hS))]
          rfl
        · intro hS
          rw [e1, due_snoc]
          unfold pending
          split
          · rfl
          · next t' ht' =>
            split
            · rfl
            · next pc' hpc' =>
              rcases e6 with e6 | e6
              · rw [e6] at ht'; cases ht'
              · rw [e6] at hpc'
                rcases set_get hpc' with ⟨-, rfl⟩ | ⟨hne, hpc'⟩
                · rfl
                · have hI2 := inv_step hI hstep
                  cases ha : Pc.active pc' with
                  | false => exact (pcDue_inactive (Or.inl ha)).symm
                  | true => have := hI.act t' pc' hpc' ha; rw [hst] at this; cases this; exact absurd rfl hne
        · rw [e1]; exact good_snoc (good_snoc hH.good e3) (good_one trivial)
      have hg : s.pcDue pc = [] → Sane s.log → Spec.due s.log = [] := by
        intro h0 hS; rw [hH.due hS, hpend, h0]
      cases pc <;> simp only [daemonStep] at h
      case notStarted => cases hact
      case finished => cases hact
      case inside => cases h
      case test =>
        split at h <;> cases h
        · exact hq1 _ .size [] (List.append_nil _).symm (by simp) (by simp) rfl rfl hst rfl rfl
        · exact hq2 _ [] .returned (by simp [emit, setPc]) (by simp) (by simp) rfl rfl (Or.inr rfl)
      case size =>
        split at h <;> cases h
        · exact hq1 _ .iter [] (List.append_nil _).symm (by simp) (by simp) rfl rfl hst rfl rfl
        · exact hq1 _ .sleep [.slept] rfl (by simp [Inert]) (good_one (hg rfl)) rfl rfl hst rfl rfl
      case iter =>
        cases h
        exact hq1 _ _ [] (List.append_nil _).symm (by simp) (by simp) rfl rfl hst rfl rfl
      case next it =>
        rw [if_neg (by intro h2; exact h2.2 hok.keys)] at h
        cases hr : it.rest with
        | nil =>
          rw [hr] at h; cases h
          exact hq1 _ .sleep [.slept] rfl (by simp [Inert]) (good_one (hg rfl)) rfl rfl hst rfl rfl
        | cons c rest =>
          rw [hr] at h; cases h
          exact hq1 _ _ [] (List.append_nil _).symm (by simp) (by simp) rfl rfl hst rfl rfl
      case conn it c =>
        split at h <;> cases h
        · exact hq1 _ (.query it c) [] (List.append_nil _).symm (by simp) (by simp) rfl rfl hst rfl rfl
        · exact hq1 _ .drop1 [] (List.append_nil _).symm (by simp) (by simp) rfl rfl hst rfl rfl
      case drop1 =>
        cases h
        exact hq1 _ .drop2 [] (List.append_nil _).symm (by simp) (by simp) rfl rfl hst rfl rfl
      case drop2 =>
        cases h
        exact hq2 _ [] .returned (by simp [emit, setPc]) (by simp) (by simp) rfl rfl (Or.inl rfl)
      case query it c =>
        cases hq : ObdM.query dev fl c true s.obd with
        | mk x o =>
          rw [hq] at h
          cases x with
          | error x =>
            cases h
            exact hq2 _ [.queried c] (.query x) rfl (by simp [Inert]) (good_one (hg rfl)) rfl rfl (Or.inr rfl)
          | ok r =>
            cases h
            exact hq1 _ (.store it c r) [.queried c] rfl (by simp [Inert]) (good_one (hg rfl)) rfl rfl hst rfl rfl
      case store it c r =>
        injection h with h
        have e1 : s'.log = s.log ++ [.stored c r] := by rw [← h]; rfl
        have e2 : s'.commands = setResponse s.commands c r := by rw [← h]; rfl
        have e3 : s'.cbl = s.cbl := by rw [← h]; rfl
        have e4 : s'.threads = s.threads.set t (.subs it c r) := by rw [← h]; rfl
        have e5 : s'.thread = some t := by rw [← h]; exact hst
        obtain ⟨_, r0, l, h1, h2, h3⟩ := view_some hB.complete hok.2
        refine ⟨?_, ?_, by rw [e1]; exact good_snoc hH.good (good_one (hg rfl))⟩
        · intro hS k
          rw [e1] at hS ⊢
          rw [sub_append]
          simp only [List.foldl_cons, List.foldl_nil]
          rw [hH.view (sane_left hS) k]
          exact (setResponse_view hB.complete hok.2 _ e2 e3 k).symm
        · intro hS
          rw [e1] at hS ⊢
          rw [pending_some (pc := .subs it c r) e5 (by rw [e4]; simp [hlt]), due_snoc]
          simp only [nextDue, pcDue]
          rw [hH.view (sane_left hS), h3, callbacks_cbl e3, h2, Option.getD_some]
      case subs it c r =>
        obtain ⟨_, r0, l, h1, h2, h3⟩ := view_some hB.complete hok.2
        have h4 := callbacks_get s c.key
        rw [h2] at h4
        cases hi : s.cbs.get? c.key with
        | none => rw [hi] at h4; cases h4
        | some i =>
          rw [hi] at h h4
          cases h4
          cases h
          exact hq1 _ (.fire it r i 0) [] (List.append_nil _).symm (by simp) (by simp) rfl rfl hst rfl (by simp [pcDue, h2]; rfl)
      case fire it r l i =>
        cases hx : (s.list l)[i]? with
        | none =>
          rw [hx] at h
          cases h
          exact hq1 _ (.next it) [] (List.append_nil _).symm (by simp) (by simp) rfl rfl hst rfl
            (by simp only [pcDue]; rw [List.drop_eq_nil_of_le (List.getElem?_eq_none_iff.mp hx)]; rfl)
        | some k =>
          rw [hx] at h
          injection h with h
          have hdr : (s.list l).drop i = k :: (s.list l).drop (i + 1) := by
            obtain ⟨h1, h2⟩ := List.getElem?_eq_some_iff.mp hx
            rw [List.drop_eq_getElem_cons h1, h2]
          have hdue : s.pcDue (.fire it r l i) = (k, r) :: s.pcDue (.inside it r l (i + 1)) := by
            simp only [pcDue, hdr, List.map_cons]
          have e1 : s'.log = s.log ++ [.fired k r] := by rw [← h]; rfl
          have e2 : s'.commands = s.commands := by rw [← h]; rfl
          have e3 : s'.cbl = s.cbl := by rw [← h]; rfl
          have e4 : s'.threads = s.threads.set t (.inside it r l (i + 1)) := by rw [← h]; rfl
          have e5 : s'.thread = some t := by rw [← h]; exact hst
          refine ⟨?_, ?_, by
            rw [e1]; refine good_snoc hH.good (good_one ?_)
            intro hS; rw [hH.due hS, hpend, hdue]; rfl⟩
          · intro hS k'
            rw [e1] at hS ⊢
            rw [sub_append, view_of e2 e3]; exact hH.view (sane_left hS) k'
          · intro hS
            rw [e1] at hS ⊢
            rw [pending_some (pc := .inside it r l (i + 1)) e5 (by rw [e4]; simp [hlt]), due_snoc, hH.due (sane_left hS), hpend, hdue]
            simp only [pcDue, list_of e3]; rfl
      case sleep =>
        cases h
        exact hq1 _ .test [] (List.append_nil _).symm (by simp) (by simp) rfl rfl hst rfl rfl
  | cb t op =>
    simp only at h
    split at h
    · next it r rest hp =>
      have hst := hI.act t _ hp rfl
      obtain ⟨h1, h2, h3, -⟩ := cbCall_ctl hst h
      obtain ⟨d1, d2, d3, d4, d5, -⟩ := cbCall_polite hst hpol h
      exact hist_inert hH (es := []) (by simp [d5]) (by simp) (by simp) (view_of d1 d2) (pending_of h3 h2 d2)
    · cases h
  | cbEnd t ok =>
    simp only at h
    split at h
    · next it r l i hp =>
      have hst := hI.act t _ hp rfl
      have hlt : t < s.threads.length := (List.getElem?_eq_some_iff.mp hp).1
      have hpend := pending_some hst hp
      split at h <;> injection h with h
      · have e4 : s'.threads = s.threads.set t (.fire it r l i) := by rw [← h]; rfl
        have e5 : s'.thread = some t := by rw [← h]; exact hst
        have e6 : s'.cbl = s.cbl := by rw [← h]; rfl
        refine hist_inert hH (es := []) (by rw [← h]; exact (List.append_nil _).symm) (by simp) (by simp) (fun k => by rw [← h]; rfl) ?_
        rw [hpend, pending_some (pc := .fire it r l i) e5 (by rw [e4]; simp [hlt])]; simp only [pcDue, list_of e6]
      · have e1 : s'.log = s.log ++ [.ended .callback] := by rw [← h]; rfl
        have e2 : s'.commands = s.commands := by rw [← h]; rfl
        have e3 : s'.cbl = s.cbl := by rw [← h]; rfl
        have e4 : s'.threads = s.threads.set t (.finished .callback) := by rw [← h]; rfl
        have e5 : s'.thread = some t := by rw [← h]; exact hst
        refine ⟨?_, ?_, by rw [e1]; exact good_snoc hH.good (good_one trivial)⟩
        · intro hS k
          rw [e1] at hS ⊢
          rw [sub_append, view_of e2 e3]; exact hH.view (sane_left hS) k
        · intro hS
          rw [e1, due_snoc, pending_some (pc := .finished .callback) e5 (by rw [e4]; simp [hlt])]; rfl
    · cases h
  | reorder t rest =>
    obtain ⟨it, it', h1, -, h2, -⟩ := reorder_eq hh
    exact absurd (hB.ok t _ h1).keys h2

theorem areach_hist {dev : Device} {fl : Str → Option PyFloat} {s : AW} (h : AReach dev fl politeCallback s) : HistInv s := by
  induction h with
  | init a o h => exact ⟨fun _ k => rfl, fun _ => rfl, by simp⟩
  | step s a s' h hok hs ih => exact hist_step (areach_inv h) (areach_any h) (areach_polite h) ih hok hs

end AW
end Model
