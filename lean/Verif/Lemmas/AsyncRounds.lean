import Verif.Lemmas.AsyncJoin
import Verif.Lemmas.AsyncActual
import Verif.Spec.Rounds
/-!
# The rounds of the update loop
-/
namespace Spec
open Py Model

theorem watchedAux_snoc (e : Ev) (l : List Ev) : ∀ (done : List Ev) (d : List CmdKey),
    watchedAux done d (l ++ [e]) = watchedNext (done ++ l) (watchedAux done d l) e := by
  induction l with
  | nil => intro done d; simp [watchedAux]
  | cons x l ih => intro done d; simp only [List.cons_append, watchedAux, ih, List.append_assoc, List.nil_append]

theorem watched_snoc (l : List Ev) (e : Ev) : watched (l ++ [e]) = watchedNext l (watched l) e := by
  unfold watched; rw [watchedAux_snoc]; rfl

/-- Events that do not change the watch list. -/
def NoDid : Ev → Prop
  | .did _ => False
  | _ => True

theorem watched_same {es : List Ev} (h : ∀ e ∈ es, NoDid e) : ∀ l, watched (l ++ es) = watched l := by
  induction es with
  | nil => intro l; simp
  | cons e es ih =>
    intro l
    have := ih (fun x hx => h x (List.mem_cons_of_mem _ hx)) (l ++ [e])
    rw [List.append_assoc] at this
    rw [List.singleton_append] at this
    rw [this, watched_snoc]
    have he := h e (by simp)
    cases e <;> first | rfl | (exact absurd he id)

theorem askedFor_append (a b : List Ev) : askedFor (a ++ b) = b.foldl askedNext (askedFor a) := by
  unfold askedFor; rw [List.foldl_append]

theorem got_append (a b : List Ev) : got (a ++ b) = b.foldl gotNext (got a) := by
  unfold got; rw [List.foldl_append]

/-- Events outside rounds. -/
def Aside : Ev → Prop
  | .started => False
  | .slept => False
  | .queried _ => False
  | .stored _ _ => False
  | _ => True

theorem askedFor_aside {es : List Ev} (h : ∀ e ∈ es, Aside e) : ∀ l, askedFor (l ++ es) = askedFor l ∧ got (l ++ es) = got l := by
  induction es with
  | nil => intro l; simp
  | cons e es ih =>
    intro l
    have := ih (fun x hx => h x (List.mem_cons_of_mem _ hx)) (l ++ [e])
    rw [List.append_assoc, List.singleton_append] at this
    rw [this.1, this.2, askedFor_append, got_append]
    have he := h e (by simp)
    cases e <;> first | exact ⟨rfl, rfl⟩ | exact absurd he id

end Spec

namespace Model
open Py Spec
namespace AW

/-- What has been asked for and answered in this round when the thread is at this position; the watch list is `K`. -/
def AskedAt (A G K : List CmdKey) : Pc → Prop
  | .test => A = [] ∧ G = []
  | .size => A = [] ∧ G = []
  | .iter => A = [] ∧ G = []
  | .sleep => A = [] ∧ G = []
  | .next it => A ++ it.rest.map OBDCommand.key = K ∧ G = A
  | .conn it c => A ++ c.key :: it.rest.map OBDCommand.key = K ∧ G = A
  | .query it c => A ++ c.key :: it.rest.map OBDCommand.key = K ∧ G = A
  | .store it c _ => A ++ it.rest.map OBDCommand.key = K ∧ G ++ [c.key] = A
  | .subs it _ _ => A ++ it.rest.map OBDCommand.key = K ∧ G = A
  | .fire it _ _ _ => A ++ it.rest.map OBDCommand.key = K ∧ G = A
  | .inside it _ _ _ => A ++ it.rest.map OBDCommand.key = K ∧ G = A
  | _ => True

/-- What each recorded event says about the history before it. -/
def Round (a : List Ev) : Ev → Prop
  | .queried c => ∃ later, watched a = askedFor a ++ c.key :: later
  | .stored c _ => ∃ later, watched a = got a ++ c.key :: later ∧ askedFor a = got a ++ [c.key]
  | .slept => askedFor a = watched a ∧ got a = watched a
  | _ => True

structure RoundInv (s : AW) : Prop where
  watched : watched s.log = Dict.keys s.commands
  at_ : ∀ (t : Nat) (pc : Pc), s.threads[t]? = some pc → AskedAt (askedFor s.log) (got s.log) (Dict.keys s.commands) pc
  round : ∀ a e b, s.log = a ++ e :: b → Round a e

theorem round_snoc {l es : List Ev} (h : ∀ a e b, l = a ++ e :: b → Round a e) (h2 : ∀ a e b, es = a ++ e :: b → Round (l ++ a) e) :
    ∀ a e b, l ++ es = a ++ e :: b → Round a e := by
  intro a e b he
  rcases append_cons_split he.symm with ⟨b', -, h3⟩ | ⟨a', rfl, h3⟩
  · exact h a e b' h3
  · exact h2 a' e b h3

theorem round_one {l : List Ev} {x : Ev} (h : Round l x) : ∀ a e b, [x] = a ++ e :: b → Round (l ++ a) e := by
  intro a e b he
  cases a with
  | nil => simp at he; obtain ⟨rfl, -⟩ := he; simpa using h
  | cons y a => simp at he

theorem round_aside {l es : List Ev} (h : ∀ e ∈ es, Aside e) : ∀ a e b, es = a ++ e :: b → Round (l ++ a) e := by
  intro a e b he
  have := h e (by rw [he]; simp)
  cases e <;> first | trivial

theorem askedAt_inactive {A G K : List CmdKey} {pc : Pc} (h : Pc.active pc = false) : AskedAt A G K pc := by
  cases pc <;> trivial

theorem keys_pop {d : Dict CmdKey (OBDCommand × Response)} (k : CmdKey) : Dict.keys (d.pop k) = (Dict.keys d).erase k := by
  induction d with
  | nil => rfl
  | cons x d ih =>
    obtain ⟨a, b⟩ := x
    unfold Dict.pop
    split
    · next h => subst h; simp [Dict.keys]
    · next h =>
      simp only [Dict.keys, List.map_cons] at ih ⊢
      rw [ih, List.erase_cons, if_neg (by simpa using h)]

/-- The keys of the watched commands after a change of the subscriptions. -/
theorem doModify_keys {s : AW} (op : AOp) (hl : (s.doModify op).2.log = s.log ++ [.did op]) :
    match op with
    | .watch c _ _ => Dict.keys (s.doModify op).2.commands = if c.key ∈ Dict.keys s.commands then Dict.keys s.commands else Dict.keys s.commands ++ [c.key]
    | .unwatch c _ => Dict.keys (s.doModify op).2.commands = Dict.keys s.commands ∨ Dict.keys (s.doModify op).2.commands = (Dict.keys s.commands).erase c.key
    | .unwatchAll => Dict.keys (s.doModify op).2.commands = []
    | _ => True := by
  cases op <;> simp only
  case watch c cb force =>
    have hk : ∀ x : AW, x = (if s.commands.mem c.key then s else { s with commands := s.commands.set c.key (c, {}) }.newList c.key) →
        Dict.keys x.commands = if c.key ∈ Dict.keys s.commands then Dict.keys s.commands else Dict.keys s.commands ++ [c.key] := by
      intro x hx
      subst hx
      split
      · next h => rw [if_pos ((Dict.mem_iff _ _).mp h)]
      · next h => show Dict.keys (s.commands.set c.key (c, {})) = _; have hn := fun h2 => h ((Dict.mem_iff _ _).mpr h2); rw [Dict.keys_set, if_neg hn, if_neg hn]
    have hno : ∀ {e : Ev} {l : List Ev}, l = l ++ [e] → False := by
      intro e l h
      have := congrArg List.length h
      simp at this
    simp only [doModify, doWatch] at hl ⊢
    split at hl
    · exact (hno hl).elim
    · exact (hno hl).elim
    · have hk := hk _ rfl
      clear hl
      generalize (if s.commands.mem c.key = true then s else newList c.key { s with commands := s.commands.set c.key (c, {}) }) = x at hk ⊢
      cases cb with
      | none => exact hk
      | some j =>
        simp only
        split
        · exact hk
        · split <;> exact hk
  case unwatch c cb =>
    simp only [doModify, doUnwatch]
    split
    · cases cb with
      | none => exact Or.inr (keys_pop _)
      | some j =>
        simp only
        split
        · exact Or.inl rfl
        · split
          · split
            · exact Or.inr (keys_pop _)
            · exact Or.inl rfl
          · exact Or.inr (keys_pop _)
    · exact Or.inl rfl
  case unwatchAll => rfl

theorem view_isSome {s : AW} (hC : Complete s) (k : CmdKey) : (s.view k).isSome = true ↔ k ∈ Dict.keys s.commands := by
  by_cases hk : k ∈ Dict.keys s.commands
  · obtain ⟨_, _, _, -, -, h⟩ := view_some hC hk
    simp [h, hk]
  · simp [view_none hk, hk]

/-- The watch list is in step with the dictionary, after a change. -/
theorem watched_modify {s : AW} (hA : AnyInv s) (hB : PoliteInv s) (hH : HistInvA s) (hw : watched s.log = Dict.keys s.commands) (op : AOp) :
    (s.doModify op).2 = s ∨ (s.doModify op).2.log = s.log ++ [.did op] ∧
      watched (s.log ++ [.did op]) = Dict.keys (s.doModify op).2.commands := by
  rcases doModify_changed hA.tables op with hch | hch | hch
  · right
    refine ⟨hch.log, ?_⟩
    have hk := doModify_keys op hch.log
    have hv : ∀ k, subA k (s.log ++ [.did op]) = (s.doModify op).2.view k := by
      intro k
      rw [sub_appendA, hH.view]
      exact view_actual hA.tables hB.complete hch rfl k
    have hC := hch.complete hB.complete
    rw [watched_snoc]
    cases op <;> simp only at hk <;> simp only [watchedNext]
    case watch => rw [hk, hw]
    case unwatchAll => rw [hk]
    case unwatch c cb =>
      rw [hv, hw]
      have hn := hA.tables.nodupC
      by_cases hin : c.key ∈ Dict.keys (s.doModify (.unwatch c cb)).2.commands
      · rw [if_pos ((view_isSome hC _).mpr hin)]
        rcases hk with hk | hk
        · exact hk.symm
        · rw [hk] at hin
          exact absurd hin (by simp [List.Nodup.mem_erase_iff hn])
      · rw [if_neg (by rw [view_isSome hC]; exact hin)]
        rcases hk with hk | hk
        · rw [hk] at hin ⊢; exact List.erase_of_not_mem hin
        · exact hk.symm
    all_goals
      exfalso
      have := congrArg List.length hch.log
      simp [doModify] at this
  · exact absurd hB.complete hch.2.1
  · exact Or.inl hch


theorem round_quiet {s s' : AW} (hR : RoundInv s) (es : List Ev) (hl : s'.log = s.log ++ es) (h1 : ∀ e ∈ es, Aside e) (h2 : ∀ e ∈ es, NoDid e)
    (hk : Dict.keys s'.commands = Dict.keys s.commands)
    (hat : ∀ (t : Nat) (pc : Pc), s'.threads[t]? = some pc → AskedAt (askedFor s.log) (got s.log) (Dict.keys s.commands) pc) : RoundInv s' where
  watched := by
    rw [hl, watched_same h2, hk]
    exact hR.watched
  at_ := by
    intro t pc hp
    rw [hl, (askedFor_aside h1 _).1, (askedFor_aside h1 _).2, hk]
    exact hat t pc hp
  round := by
    rw [hl]
    exact round_snoc hR.round (round_aside h1)

theorem callerStep_started {dev : Device} {op : AOp} {pc : CPc} {s s' : AW} {es : List Ev} (hm : pc ≠ .modify) (hg : pc ≠ .startGo)
    (h : s.callerStep dev op pc = some s') (hl : s'.log = s.log ++ es) : .started ∉ es := by
  have key : ∀ es', s'.log = s.log ++ es' → .started ∉ es' → .started ∉ es := by
    intro es' h1 h2
    rw [hl] at h1
    rw [List.append_cancel_left h1]; exact h2
  have hafter : ∀ x : AW, x.log = s.log → (x.afterStop op).log = s.log ∨ (x.afterStop op).log = s.log ++ [.ret op] := by
    intro x hx
    unfold afterStop
    split
    · left; exact hx
    · right; show x.log ++ _ = _; rw [hx]
  have ha : ∀ x : AW, x.log = s.log → s' = x.afterStop op → .started ∉ es := by
    intro x hx he
    rcases hafter x hx with h1 | h1
    · exact key [] (by rw [he, h1]; simp) (by simp)
    · exact key [.ret op] (by rw [he, h1]) (by simp)
  cases pc <;> simp only [callerStep] at h
  case modify => exact absurd rfl hm
  case startGo => exact absurd rfl hg
  case stopNone =>
    split at h
    · cases h; exact ha s rfl rfl
    · cases h; exact key [] (List.append_nil _).symm (by simp)
  case stopEnd => cases h; exact ha { s with thread := none } rfl rfl
  case ask =>
    split at h
    · next c => cases h; exact key [.answer c (s.lookup c), .ret (.query c)] (by simp [ret, emit]) (by simp)
    · cases h; exact key [.ret op] rfl (by simp)
  all_goals
    (try simp only [Option.some.injEq] at h)
    repeat' (split at h)
    all_goals first
      | (cases h; done)
      | (subst h; exact key [] (List.append_nil _).symm (by simp))
      | (subst h; exact key [_] rfl (by simp))
      | (cases h; exact key [] (List.append_nil _).symm (by simp))
      | (cases h; exact key [_] rfl (by simp))

theorem round_step {dev : Device} {fl : ElmM.FloatFn} {s s' : AW} {a : Action} (hI : Inv s) (hA : AnyInv s) (hB : PoliteInv s) (hH : HistInvA s) (hR : RoundInv s)
    (hpol : politeCallback s a) (h : s.step dev fl a = some s') : RoundInv s' := by
  have hh := h
  unfold step at h
  cases a with
  | call op =>
    simp only at h
    cases hc : s.caller with
    | busy o p => rw [hc] at h; cases h
    | idle =>
      rw [hc] at h; cases h
      exact round_quiet hR [.call op] rfl (by simp [Aside]) (by simp [NoDid]) rfl hR.at_
  | caller =>
    simp only at h
    cases hc : s.caller with
    | idle => rw [hc] at h; cases h
    | busy o p =>
      rw [hc] at h
      have hno : p = .modify → ∀ (t : Nat) (pc : Pc), s.threads[t]? = some pc → Pc.active pc = true → pc = .drop1 ∨ pc = .drop2 := by
        intro hm t pc h1 h2
        subst hm
        by_contra h3
        have h3 : pc ≠ .drop1 ∧ pc ≠ .drop2 := by simpa using h3
        rcases hB.run t pc h1 h2 h3.1 h3.2 with h4 | ⟨o', h4 | ⟨t1, h4⟩⟩
        · rw [hA.modify o hc] at h4; cases h4
        · rw [hc] at h4; cases h4
        · rw [hc] at h4; cases h4
      by_cases hm : p = .modify
      · subst hm
        have hidle : ∀ (t : Nat) (pc : Pc) (A G K : List CmdKey), s.threads[t]? = some pc → AskedAt A G K pc := by
          intro t pc A G K hq
          cases hx : Pc.active pc with
          | false => exact askedAt_inactive hx
          | true => rcases hno rfl t pc hq hx with rfl | rfl <;> trivial
        have hths : s'.threads = s.threads := by
          rcases callerStep_threads h with ⟨e, -⟩ | ⟨e, -⟩ | ⟨e, -⟩
          · exact e
          · cases e
          · cases e
        obtain ⟨fin, hl, hfin, hco⟩ : ∃ fin, s'.log = (s.doModify o).2.log ++ [fin] ∧
            (fin = .ret o ∨ ∃ x, fin = .raised o x) ∧ s'.commands = (s.doModify o).2.commands := by
          simp only [callerStep] at h
          cases hd : s.doModify o with
          | mk x s1 =>
            rw [hd] at h
            cases x with
            | ok _ => cases h; exact ⟨.ret o, rfl, Or.inl rfl, rfl⟩
            | error y => cases h; exact ⟨.raised o y, rfl, Or.inr ⟨y, rfl⟩, rfl⟩
        have hf1 : ∀ e ∈ [fin], Aside e := by rcases hfin with rfl | ⟨x, rfl⟩ <;> simp [Aside]
        have hf2 : ∀ e ∈ [fin], NoDid e := by rcases hfin with rfl | ⟨x, rfl⟩ <;> simp [NoDid]
        rcases watched_modify hA hB hH hR.watched o with hs | ⟨hlog, hwat⟩
        · rw [hs] at hl hco
          exact round_quiet hR [fin] hl hf1 hf2 (by rw [hco]) (by rw [hths]; exact hR.at_)
        · refine ⟨?_, ?_, ?_⟩
          · rw [hl, hlog, watched_same hf2, hco]
            exact hwat
          · intro t pc hq
            rw [hths] at hq
            exact hidle t pc _ _ _ hq
          · rw [hl, hlog]
            exact round_snoc (round_snoc hR.round (round_one trivial)) (round_aside hf1)
      · obtain ⟨es, hl, hin, -, hq, hsl⟩ := callerStep_inert hm h
        have hdata : s'.commands = s.commands := by
          rcases callerStep_data h with h1 | h1
          · exact h1.1
          · exact absurd h1.1 hm
        have hd : ∀ e ∈ es, NoDid e := by
          intro e he
          have := hin e he
          cases e <;> trivial
        by_cases hst : .started ∈ es
        · have hp : p = .startGo := by
            by_contra hne
            exact callerStep_started hm hne h hl hst
          subst hp
          have hCI := hI.caller
          unfold CallerInv at hCI
          rw [hc] at hCI
          obtain ⟨t, e0, e1⟩ := hCI
          simp only [callerStep, e0] at h
          cases h
          have hother : ∀ (A G K : List CmdKey) (t' : Nat) (x : Pc), AskedAt A G K .test → (s.threads.set t .test)[t']? = some x → AskedAt A G K x := by
            intro A G K t' x h1 hx
            rcases set_get hx with ⟨-, rfl⟩ | ⟨hne, hx⟩
            · exact h1
            · cases ha : Pc.active x with
              | false => exact askedAt_inactive ha
              | true =>
                have := hI.act t' x hx ha
                rw [e0] at this; cases this
                exact absurd rfl hne
          have hl2 : ((s.setPc t .test).emit .started |>.ret o).log = s.log ++ [.started, .ret o] := by simp [ret, emit, setPc]
          refine ⟨?_, ?_, ?_⟩
          · rw [hl2, watched_same (by simp [NoDid])]
            exact hR.watched
          · intro t' x hx
            refine hother _ _ _ t' x ?_ hx
            rw [hl2, askedFor_append, got_append]
            exact ⟨rfl, rfl⟩
          · rw [hl2]
            refine round_snoc hR.round ?_
            intro a e b he
            cases a with
            | nil => cases he; trivial
            | cons y a =>
              cases a with
              | nil => cases he; trivial
              | cons z a => simp at he
        · have has : ∀ e ∈ es, Aside e := by
            intro e he
            have := hin e he
            cases e <;> first
              | trivial
              | exact absurd he hst
              | exact absurd he hsl
              | exact absurd he (hq _)
          refine round_quiet hR es hl has hd (by rw [hdata]) ?_
          rcases callerStep_threads h with ⟨e, -⟩ | ⟨-, e, -⟩ | ⟨hp, t, e0, e1, e2⟩
          · rw [e]; exact hR.at_
          · intro t pc hx
            rw [e] at hx
            rcases append_get hx with hx | ⟨-, rfl⟩
            · exact hR.at_ t pc hx
            · trivial
          · exfalso
            subst hp
            simp only [callerStep, e0] at h
            cases h
            apply hst
            have : es = [.started, .ret o] := by
              have : s.log ++ es = s.log ++ [.started, .ret o] := by rw [← hl]; simp [ret, emit, setPc]
              exact List.append_cancel_left this
            rw [this]; simp
  | daemon t =>
    simp only at h
    cases hp : s.threads[t]? with
    | none => rw [hp] at h; cases h
    | some pc =>
      rw [hp] at h
      have hact := (daemonStep_ctl h).2.2.1
      have hat := hR.at_ t pc hp
      have hok := hB.ok t pc hp
      have hst := hI.act t pc hp hact
      -- the other threads have ended
      have only : ∀ (A G K : List CmdKey) (pc' : Pc), AskedAt A G K pc' → ∀ (t' : Nat) (x : Pc), (s.threads.set t pc')[t']? = some x → AskedAt A G K x := by
        intro A G K pc' h1 t' x hq
        rcases set_get hq with ⟨-, rfl⟩ | ⟨hne, hq⟩
        · exact h1
        · cases hx : Pc.active x with
          | false => exact askedAt_inactive hx
          | true =>
            have := hI.act t' x hq hx
            rw [hst] at this
            cases this
            exact absurd rfl hne
      have big : ∀ (x : AW) (pc' : Pc) (es : List Ev), x.log = s.log ++ es → (∀ e ∈ es, NoDid e) → Dict.keys x.commands = Dict.keys s.commands →
          x.threads = s.threads.set t pc' → (∀ a e b, es = a ++ e :: b → Round (s.log ++ a) e) →
          AskedAt (askedFor (s.log ++ es)) (got (s.log ++ es)) (Dict.keys s.commands) pc' → RoundInv x := by
        intro x pc' es h1 h2 h3 h4 h5 h6
        refine ⟨?_, ?_, ?_⟩
        · rw [h1, watched_same h2, h3]
          exact hR.watched
        · rw [h1, h3, h4]; exact only _ _ _ pc' h6
        · rw [h1]; exact round_snoc hR.round h5
      have quiet : ∀ (x : AW) (pc' : Pc) (es : List Ev), x.log = s.log ++ es → (∀ e ∈ es, Aside e) → (∀ e ∈ es, NoDid e) →
          Dict.keys x.commands = Dict.keys s.commands → x.threads = s.threads.set t pc' →
          AskedAt (askedFor s.log) (got s.log) (Dict.keys s.commands) pc' → RoundInv x := by
        intro x pc' es h1 h2 h3 h4 h5 h6
        refine big x pc' es h1 h3 h4 h5 (round_aside h2) ?_
        rw [(askedFor_aside h2 _).1, (askedFor_aside h2 _).2]; exact h6
      have slept : askedFor s.log = Dict.keys s.commands → got s.log = Dict.keys s.commands → RoundInv ((s.setPc t .sleep).emit .slept) := by
        intro h1 h2
        refine big _ .sleep [.slept] rfl (by simp [NoDid]) rfl rfl (round_one ?_) ?_
        · show _ = watched _ ∧ _
          rw [hR.watched]; exact ⟨h1, h2⟩
        · rw [askedFor_append, got_append]; exact ⟨rfl, rfl⟩
      cases pc <;> simp only [daemonStep] at h
      case notStarted => cases hact
      case finished => cases hact
      case inside => cases h
      case test =>
        split at h <;> cases h
        · exact quiet _ .size [] (List.append_nil _).symm (by simp) (by simp) rfl rfl hat
        · exact quiet _ (.finished .returned) [.ended .returned] rfl (by simp [Aside]) (by simp [NoDid]) rfl rfl trivial
      case size =>
        split at h <;> cases h
        · exact quiet _ .iter [] (List.append_nil _).symm (by simp) (by simp) rfl rfl hat
        · next hz =>
          have : s.commands = [] := by
            cases hc : s.commands with
            | nil => rfl
            | cons x l => rw [hc] at hz; simp at hz
          have hk : Dict.keys s.commands = [] := by rw [this]; rfl
          refine slept ?_ ?_
          · rw [hk]; exact hat.1
          · rw [hk]; exact hat.2
      case iter =>
        cases h
        refine quiet _ _ [] (List.append_nil _).symm (by simp) (by simp) rfl rfl ?_
        refine ⟨?_, by rw [hat.1, hat.2]⟩
        rw [hat.1, List.nil_append]
        simp only [List.map_map, Dict.keys]
        apply List.map_congr_left
        intro e he
        exact hA.tables.keyed e he
      case next it =>
        rw [if_neg (by intro h2; exact h2.2 hok.keys)] at h
        cases hr : it.rest with
        | nil =>
          rw [hr] at h; cases h
          obtain ⟨h1, h2⟩ := hat
          rw [hr] at h1
          have h1 : askedFor s.log = Dict.keys s.commands := by simpa using h1
          exact slept h1 (h2.trans h1)
        | cons c rest =>
          rw [hr] at h; cases h
          obtain ⟨h1, h2⟩ := hat
          rw [hr] at h1
          exact quiet _ _ [] (List.append_nil _).symm (by simp) (by simp) rfl rfl ⟨h1, h2⟩
      case conn it c =>
        split at h <;> cases h
        · exact quiet _ (.query it c) [] (List.append_nil _).symm (by simp) (by simp) rfl rfl hat
        · exact quiet _ .drop1 [] (List.append_nil _).symm (by simp) (by simp) rfl rfl trivial
      case drop1 =>
        cases h
        exact quiet _ .drop2 [] (List.append_nil _).symm (by simp) (by simp) rfl rfl trivial
      case drop2 =>
        cases h
        exact quiet _ (.finished .returned) [.ended .returned] rfl (by simp [Aside]) (by simp [NoDid]) rfl rfl trivial
      case query it c =>
        obtain ⟨h1, h2⟩ := hat
        have hround : Round s.log (.queried c) := by
          exact ⟨_, by rw [hR.watched]; exact h1.symm⟩
        cases hq : ObdM.query dev fl c true s.obd with
        | mk x o =>
          rw [hq] at h
          cases x with
          | error x =>
            cases h
            refine big _ (.finished (.query x)) [.queried c, .ended (.query x)] (by simp [emit, setPc]) (by simp [NoDid]) rfl rfl ?_ trivial
            intro a e b he
            cases a with
            | nil => cases he; simpa using hround
            | cons y a =>
              cases a with
              | nil => cases he; trivial
              | cons z a => simp at he
          | ok r =>
            cases h
            refine big _ (.store it c r) [.queried c] rfl (by simp [NoDid]) rfl rfl (round_one hround) ?_
            rw [askedFor_append, got_append]
            exact ⟨by simpa [askedNext] using h1, by simp [askedNext, gotNext, h2]⟩
      case store it c r =>
        cases h
        obtain ⟨h1, h2⟩ := hat
        have hk : Dict.keys (setResponse s.commands c r) = Dict.keys s.commands := by
          unfold setResponse
          rw [Dict.keys_set, if_pos hok.2]
        refine big _ (.subs it c r) [.stored c r] rfl (by simp [NoDid]) hk rfl (round_one ?_) ?_
        · refine ⟨it.rest.map OBDCommand.key, ?_, h2.symm⟩
          rw [hR.watched, ← h1, ← h2, List.append_assoc]; rfl
        · rw [askedFor_append, got_append]
          exact ⟨h1, h2⟩
      case subs it c r =>
        split at h <;> cases h
        · exact quiet _ (.finished .missing) [.ended .missing] rfl (by simp [Aside]) (by simp [NoDid]) rfl rfl trivial
        · exact quiet _ _ [] (List.append_nil _).symm (by simp) (by simp) rfl rfl hat
      case fire it r l i =>
        split at h <;> cases h
        · exact quiet _ (.next it) [] (List.append_nil _).symm (by simp) (by simp) rfl rfl hat
        · exact quiet _ (.inside it r l (i + 1)) [.fired _ r] rfl (by simp [Aside]) (by simp [NoDid]) rfl rfl hat
      case sleep =>
        cases h
        exact quiet _ .test [] (List.append_nil _).symm (by simp) (by simp) rfl rfl hat
  | cb t op =>
    simp only at h
    split at h
    · next it r rest hp =>
      have hst := hI.act t _ hp rfl
      obtain ⟨h1, h2, h3, -⟩ := cbCall_ctl hst h
      obtain ⟨d1, d2, d3, d4, d5, -⟩ := cbCall_polite hst hpol h
      exact round_quiet hR [] (by simp [d5]) (by simp) (by simp) (by rw [d1]) (by rw [h2]; exact hR.at_)
    · cases h
  | cbEnd t ok =>
    simp only at h
    split at h
    · next it r l i hp =>
      have hst := hI.act t _ hp rfl
      have hat := hR.at_ t _ hp
      split at h <;> cases h
      · refine round_quiet hR [] (List.append_nil _).symm (by simp) (by simp) rfl ?_
        intro t' pc hq
        rcases set_get hq with ⟨-, rfl⟩ | ⟨-, hq⟩
        · exact hat
        · exact hR.at_ t' pc hq
      · refine round_quiet hR [.ended .callback] rfl (by simp [Aside]) (by simp [NoDid]) rfl ?_
        intro t' pc hq
        rcases set_get hq with ⟨-, rfl⟩ | ⟨-, hq⟩
        · trivial
        · exact hR.at_ t' pc hq
    · cases h
  | reorder t rest =>
    obtain ⟨it, it', h1, -, h2, -⟩ := reorder_eq hh
    exact absurd (hB.ok t _ h1).keys h2

theorem areach_round {dev : Device} {fl : Str → Option PyFloat} {s : AW} (h : AReach dev fl politeCallback s) : RoundInv s := by
  induction h with
  | init a o h => exact ⟨rfl, by simp, by simp⟩
  | step s a s' h hok hs ih => exact round_step (areach_inv h) (areach_any h) (areach_polite h) (areach_histA h) ih hok hs

end AW
end Model
