import Verif.Lemmas.AsyncRounds
/-!
# The loop keeps going round
-/
namespace Model
open Py Spec
namespace AW

/-- Steps left for an update thread until it sleeps; `n` commands are watched and no list of callbacks is longer than `K`. -/
def toSleep (K n : Nat) : Pc → Nat
  | .notStarted => 0
  | .finished _ => 0
  | .sleep => 0
  | .drop1 => 0
  | .drop2 => 0
  | .test => 6 + (6 + 2 * K) * n
  | .size => 5 + (6 + 2 * K) * n
  | .iter => 4 + (6 + 2 * K) * n
  | .next it => 3 + (6 + 2 * K) * it.rest.length
  | .conn it _ => 8 + 2 * K + (6 + 2 * K) * it.rest.length
  | .query it _ => 7 + 2 * K + (6 + 2 * K) * it.rest.length
  | .store it _ _ => 6 + 2 * K + (6 + 2 * K) * it.rest.length
  | .subs it _ _ => 5 + 2 * K + (6 + 2 * K) * it.rest.length
  | .fire it _ _ i => 4 + 2 * (K - i) + (6 + 2 * K) * it.rest.length
  | .inside it _ _ i => 5 + 2 * (K - i) + (6 + 2 * K) * it.rest.length

theorem daemonStep_toSleep {dev : Device} {fl : ElmM.FloatFn} {t : Nat} {pc : Pc} {s s' : AW} {K : Nat} (hK : ∀ i, (s.list i).length ≤ K)
    (h : s.daemonStep dev fl t pc = some s') (h1 : pc ≠ .sleep) (h2 : pc ≠ .drop1) (h3 : pc ≠ .drop2) :
    ∃ pc', s'.threads = s.threads.set t pc' ∧ toSleep K s.commands.length pc' < toSleep K s.commands.length pc := by
  cases pc <;> simp only [daemonStep] at h
  case notStarted => cases h
  case finished => cases h
  case inside => cases h
  case sleep => exact absurd rfl h1
  case drop1 => exact absurd rfl h2
  case drop2 => exact absurd rfl h3
  case test => split at h <;> cases h <;> exact ⟨_, rfl, by simp only [toSleep]; omega⟩
  case size => split at h <;> cases h <;> exact ⟨_, rfl, by simp only [toSleep]; omega⟩
  case iter => cases h; exact ⟨_, rfl, by simp only [toSleep, List.length_map]; omega⟩
  case next it =>
    split at h
    · cases h; exact ⟨_, rfl, by simp only [toSleep]; omega⟩
    · cases hrest : it.rest with
      | nil => rw [hrest] at h; cases h; exact ⟨_, rfl, by simp only [toSleep, hrest]; simp⟩
      | cons c rest =>
        rw [hrest] at h; cases h
        refine ⟨_, rfl, ?_⟩
        simp only [toSleep, hrest, List.length_cons, Nat.mul_succ]; omega
  case conn it c => split at h <;> cases h <;> exact ⟨_, rfl, by simp only [toSleep]; omega⟩
  case query it c => split at h <;> cases h <;> exact ⟨_, rfl, by simp only [toSleep]; omega⟩
  case store it c r => cases h; exact ⟨_, rfl, by simp only [toSleep]; omega⟩
  case subs it c r =>
    cases hg : s.cbs.get? c.key with
    | none => rw [hg] at h; cases h; exact ⟨_, rfl, by simp only [toSleep]; omega⟩
    | some l =>
      rw [hg] at h; cases h
      exact ⟨_, rfl, by simp only [toSleep]; omega⟩
  case fire it r l i =>
    cases hx : (s.list l)[i]? with
    | none => rw [hx] at h; cases h; exact ⟨_, rfl, by simp only [toSleep]; omega⟩
    | some k =>
      rw [hx] at h; cases h
      have h1 := (List.getElem?_eq_some_iff.mp hx).1
      have h2 := hK l
      exact ⟨_, rfl, by simp only [toSleep]; omega⟩

/-- A step after which the thread lives on records no end. -/
theorem daemonStep_alive {dev : Device} {fl : ElmM.FloatFn} {t : Nat} {pc : Pc} {s s' : AW} (hlt : t < s.threads.length) (h : s.daemonStep dev fl t pc = some s')
    (ha : Active s' t) : ∃ es, s'.log = s.log ++ es ∧ (∀ e, .ended e ∉ es) := by
  obtain ⟨pc1, hp1, ha1⟩ := ha
  have dead : ∀ (x : AW) e, x.threads = s.threads.set t (.finished e) → s' = x → False := by
    intro x e hx hs
    subst hs
    rw [hx, List.getElem?_set, if_pos rfl, if_pos hlt] at hp1
    cases hp1; cases ha1
  cases pc <;> simp only [daemonStep] at h
  case query it c =>
    cases hq : ObdM.query dev fl c true s.obd with
    | mk x o =>
      rw [hq] at h
      cases x with
      | error x => cases h; exact (dead _ _ rfl rfl).elim
      | ok r => cases h; exact ⟨[.queried c], rfl, by simp⟩
  case next it =>
    split at h
    · cases h; exact (dead _ _ rfl rfl).elim
    · cases hr : it.rest with
      | nil => rw [hr] at h; cases h; exact ⟨[.slept], rfl, by simp⟩
      | cons c rest => rw [hr] at h; cases h; exact ⟨[], (List.append_nil _).symm, by simp⟩
  all_goals
    (try simp only [Option.some.injEq] at h)
    repeat' (split at h)
    all_goals first
      | (cases h; done)
      | (cases h; exact (dead _ _ rfl rfl).elim)
      | (subst h; exact (dead _ _ rfl rfl).elim)
      | (cases h; exact ⟨[], (List.append_nil _).symm, by simp⟩)
      | (subst h; exact ⟨[], (List.append_nil _).symm, by simp⟩)
      | (cases h; exact ⟨[_], rfl, by simp⟩)


/-- A step while the loop runs and its thread lives on: the tables stay, and the thread gets nearer to sleeping or does nothing. -/
theorem live_step {dev : Device} {fl : ElmM.FloatFn} {s s' : AW} {a : Action} {t : Nat} {K : Nat} (hI : Inv s) (hA : AnyInv s) (hB : PoliteInv s)
    (hp : politeCallback s a) (hr : s.running = true) (ht : Active s t) (ht' : Active s' t) (hK : ∀ i, (s.list i).length ≤ K)
    (h : s.step dev fl a = some s') :
    s'.cbl = s.cbl ∧ Dict.keys s'.commands = Dict.keys s.commands ∧
    (∃ es, s'.log = s.log ++ es ∧ ∀ e, .ended e ∉ es) ∧
    ∀ pc, s.threads[t]? = some pc → ∃ pc', s'.threads[t]? = some pc' ∧
      ((pc' = pc ∧ a ≠ .daemon t ∧ ∀ ok, a ≠ .cbEnd t ok) ∨ (pc = .sleep ∧ pc' = .test) ∨ pc = .drop1 ∧ s'.running = false ∨
        toSleep K s.commands.length pc' < toSleep K s.commands.length pc) := by
  obtain ⟨pc0, hp0, hact0⟩ := ht
  have hlt : t < s.threads.length := (List.getElem?_eq_some_iff.mp hp0).1
  have hst : s.thread = some t := hI.act t pc0 hp0 hact0
  have honly : ∀ (t' : Nat) (pc : Pc), s.threads[t']? = some pc → Pc.active pc = true → t' = t := by
    intro t' pc h1 h2
    have := hI.act t' pc h1 h2
    rw [hst] at this; cases this; rfl
  have hh := h
  unfold step at h
  cases a with
  | call o =>
    simp only at h
    cases hc : s.caller with
    | busy o p => rw [hc] at h; cases h
    | idle =>
      rw [hc] at h; cases h
      exact ⟨rfl, rfl, ⟨[.call o], rfl, by simp⟩, fun pc hpc => ⟨pc, hpc, Or.inl ⟨rfl, by simp, by simp⟩⟩⟩
  | caller =>
    simp only at h
    cases hc : s.caller with
    | idle => rw [hc] at h; cases h
    | busy o p =>
      rw [hc] at h
      have hm : p ≠ .modify := by
        rintro rfl
        rw [hA.modify o hc] at hr; cases hr
      have hdata : s'.commands = s.commands ∧ s'.cbl = s.cbl := by
        rcases callerStep_data h with h1 | h1
        · exact ⟨h1.1, h1.2.1⟩
        · exact absurd h1.1 hm
      obtain ⟨es, hl, hin, -⟩ := callerStep_inert hm h
      refine ⟨hdata.2, by rw [hdata.1], ⟨es, hl, ?_⟩, ?_⟩
      · intro e he; exact hin _ he
      · intro pc hpc
        refine ⟨pc, ?_, Or.inl ⟨rfl, by simp, by simp⟩⟩
        rcases callerStep_threads h with ⟨e, -⟩ | ⟨-, e, -⟩ | ⟨hp, t1, e0, e1, e2⟩
        · rw [e]; exact hpc
        · rw [e, List.getElem?_append_left hlt]; exact hpc
        · exfalso
          subst hp
          have hCI := hI.caller
          unfold CallerInv at hCI
          rw [hc] at hCI
          obtain ⟨t2, e3, e4⟩ := hCI
          rw [hst] at e3; cases e3
          rw [hp0] at e4; cases e4; cases hact0
  | daemon t' =>
    simp only at h
    cases hq : s.threads[t']? with
    | none => rw [hq] at h; cases h
    | some pc =>
      rw [hq] at h
      have hctl := daemonStep_ctl h
      obtain rfl := honly t' pc hq hctl.2.2.1
      obtain ⟨pc'', h3, -, h5, h6, h7, -, -, h8, h9⟩ := daemonStep_ok hA.tables (hB.ok _ _ hq) h
      have hpc'' : s'.threads[t']? = some pc'' := by rw [h3, List.getElem?_set, if_pos rfl, if_pos hlt]
      refine ⟨h7, h6, daemonStep_alive hlt h ht', ?_⟩
      · intro pc1 h10
        rw [hq] at h10; cases h10
        refine ⟨pc'', hpc'', Or.inr ?_⟩
        by_cases e1 : pc = .sleep
        · subst e1
          simp only [daemonStep] at h; cases h
          left; refine ⟨rfl, ?_⟩
          have : (s.threads.set t' Pc.test)[t']? = some pc'' := hpc''
          rw [List.getElem?_set, if_pos rfl, if_pos hlt] at this
          cases this; rfl
        by_cases e2 : pc = .drop1
        · subst e2
          simp only [daemonStep] at h; cases h
          right; left; exact ⟨rfl, rfl⟩
        by_cases e3 : pc = .drop2
        · subst e3
          rw [hI.drop t' hq] at hr; cases hr
        obtain ⟨pc', h11, h12⟩ := daemonStep_toSleep (K := K) hK h e1 e2 e3
        have : s'.threads[t']? = some pc' := by rw [h11, List.getElem?_set, if_pos rfl, if_pos hlt]
        rw [hpc''] at this; cases this
        exact Or.inr (Or.inr h12)
  | cb t' o =>
    simp only at h
    split at h
    · next it r rest hq =>
      obtain rfl := honly t' _ hq rfl
      obtain ⟨h1, h2, -, -⟩ := cbCall_ctl hst h
      obtain ⟨h3, h4, -, -, h5, -⟩ := cbCall_polite hst hp h
      refine ⟨h4, by rw [h3], ⟨[], by simp [h5], by simp⟩, ?_⟩
      intro pc h5
      exact ⟨pc, by rw [h2]; exact h5, Or.inl ⟨rfl, by simp, by simp⟩⟩
    · cases h
  | cbEnd t' ok =>
    simp only at h
    split at h
    · next it r l i hq =>
      obtain rfl := honly t' _ hq rfl
      split at h <;> cases h
      · refine ⟨rfl, rfl, ⟨[], (List.append_nil _).symm, by simp⟩, ?_⟩
        intro pc h5
        rw [hq] at h5; cases h5
        refine ⟨.fire it r l i, ?_, Or.inr (Or.inr (Or.inr (by simp only [toSleep]; omega)))⟩
        show (s.threads.set t' _)[t']? = _
        rw [List.getElem?_set, if_pos rfl, if_pos hlt]
      · exfalso
        obtain ⟨pc, h1, h2⟩ := ht'
        have h1 : (s.threads.set t' _)[t']? = some pc := h1
        rw [List.getElem?_set, if_pos rfl, if_pos hlt] at h1
        cases h1; cases h2
    · cases h
  | reorder t' rest =>
    obtain ⟨it, it', h1, -, h2, -⟩ := reorder_eq hh
    exact absurd (hB.ok t' _ h1).keys h2

/-- What has been done, among the new events, for a response that was stored among them, when the thread is at this position. -/
def Served (new : List Ev) (s : AW) (pc : Pc) : Prop :=
  ∀ c r, .stored c r ∈ new → (∀ l, s.callbacks.get? c.key = some l → ∀ j ∈ l, .fired j r ∈ new) ∨
    match pc with
    | .subs _ c' r' => c'.key = c.key ∧ r' = r
    | .fire _ r' l i => r' = r ∧ s.cbs.get? c.key = some l ∧ ∀ k < i, ∀ j, (s.list l)[k]? = some j → .fired j r ∈ new
    | .inside _ r' l i => r' = r ∧ s.cbs.get? c.key = some l ∧ ∀ k < i, ∀ j, (s.list l)[k]? = some j → .fired j r ∈ new
    | _ => False

theorem subs_of_cbl {s s' : AW} (h : s'.cbl = s.cbl) : s'.callbacks = s.callbacks ∧ s'.cbs = s.cbs ∧ ∀ l, s'.list l = s.list l := by
  have h1 : s'.cbs = s.cbs := congrArg Prod.fst h
  have h2 := fun l => list_of h l
  exact ⟨by unfold callbacks; rw [h1]; simp only [h2], h1, h2⟩

/-- Nothing is stored, and the thread does not move. -/
theorem served_more {s s' : AW} {new es : List Ev} {pc : Pc} (h : Served new s pc) (hc : s'.cbl = s.cbl) (hes : ∀ c r, .stored c r ∉ es) : Served (new ++ es) s' pc := by
  obtain ⟨h1, h2, h3⟩ := subs_of_cbl hc
  intro c r hm
  rcases List.mem_append.mp hm with hm | hm
  · rcases h c r hm with h4 | h4
    · left; intro l hl j hj; rw [h1] at hl; exact List.mem_append_left _ (h4 l hl j hj)
    · right
      cases pc <;> first
        | exact h4
        | exact ⟨h4.1, by rw [h2]; exact h4.2.1, fun k hk j hj => List.mem_append_left _ (h4.2.2 k hk j (by rw [← h3]; exact hj))⟩
  · exact absurd hm (hes c r)

/-- All has been done, if the thread is at a position outside a command. -/
def Outside : Pc → Prop
  | .subs _ _ _ => False
  | .fire _ _ _ _ => False
  | .inside _ _ _ _ => False
  | _ => True

theorem served_outside {new : List Ev} {s : AW} {pc pc' : Pc} (h : Served new s pc) (ho : Outside pc) : Served new s pc' := by
  intro c r hm
  rcases h c r hm with h4 | h4
  · exact Or.inl h4
  · cases pc <;> first | exact h4.elim | exact ho.elim

theorem served_daemon {dev : Device} {fl : ElmM.FloatFn} {t : Nat} {pc : Pc} {s s' : AW} {new : List Ev} (hlt : t < s.threads.length)
    (hS : Served new s pc) (hc : s'.cbl = s.cbl) (h : s.daemonStep dev fl t pc = some s') :
    ∃ es pc', s'.log = s.log ++ es ∧ s'.threads[t]? = some pc' ∧ Served (new ++ es) s' pc' := by
  have get : ∀ (x : AW) pc', x.threads = s.threads.set t pc' → s' = x → s'.threads[t]? = some pc' := by
    intro x pc' h1 h2
    rw [h2, h1, List.getElem?_set, if_pos rfl, if_pos hlt]
  have quiet : ∀ (x : AW) (es : List Ev) pc', x.threads = s.threads.set t pc' → s' = x → x.log = s.log ++ es → (∀ c r, .stored c r ∉ es) → Outside pc →
      ∃ es pc', s'.log = s.log ++ es ∧ s'.threads[t]? = some pc' ∧ Served (new ++ es) s' pc' := by
    intro x es pc' h1 h2 h3 h4 h5
    exact ⟨es, pc', by rw [h2, h3], get x pc' h1 h2, served_outside (served_more hS hc h4) h5⟩
  cases pc <;> simp only [daemonStep] at h
  case notStarted => cases h
  case finished => cases h
  case inside => cases h
  case test => split at h <;> cases h <;> first | exact quiet _ [] _ rfl rfl (List.append_nil _).symm (by simp) trivial | exact quiet _ [_] _ rfl rfl rfl (by simp) trivial
  case size => split at h <;> cases h <;> first | exact quiet _ [] _ rfl rfl (List.append_nil _).symm (by simp) trivial | exact quiet _ [_] _ rfl rfl rfl (by simp) trivial
  case iter => cases h; exact quiet _ [] _ rfl rfl (List.append_nil _).symm (by simp) trivial
  case next it =>
    split at h
    · cases h; exact quiet _ [_] _ rfl rfl rfl (by simp) trivial
    · cases hr : it.rest with
      | nil => rw [hr] at h; cases h; exact quiet _ [_] _ rfl rfl rfl (by simp) trivial
      | cons c rest => rw [hr] at h; cases h; exact quiet _ [] _ rfl rfl (List.append_nil _).symm (by simp) trivial
  case conn it c => split at h <;> cases h <;> exact quiet _ [] _ rfl rfl (List.append_nil _).symm (by simp) trivial
  case drop1 => cases h; exact quiet _ [] _ rfl rfl (List.append_nil _).symm (by simp) trivial
  case drop2 => cases h; exact quiet _ [_] _ rfl rfl rfl (by simp) trivial
  case sleep => cases h; exact quiet _ [] _ rfl rfl (List.append_nil _).symm (by simp) trivial
  case query it c =>
    cases hq : ObdM.query dev fl c true s.obd with
    | mk x o =>
      rw [hq] at h
      cases x with
      | error x => cases h; exact quiet _ [.queried c, .ended (.query x)] _ rfl rfl (by simp [emit, setPc]) (by simp) trivial
      | ok r => cases h; exact quiet _ [_] _ rfl rfl rfl (by simp) trivial
  case store it c r =>
    cases h
    refine ⟨[.stored c r], _, rfl, get _ _ rfl rfl, ?_⟩
    intro c' r' hm
    rcases List.mem_append.mp hm with hm | hm
    · rcases hS c' r' hm with h4 | h4
      · left
        intro l hl j hj
        exact List.mem_append_left _ (h4 l hl j hj)
      · exact h4.elim
    · have : Ev.stored c' r' = Ev.stored c r := by simpa using hm
      cases this
      exact Or.inr ⟨rfl, rfl⟩
  case subs it c r =>
    cases hg : s.cbs.get? c.key with
    | none =>
      rw [hg] at h; cases h
      refine ⟨[.ended .missing], _, rfl, get _ _ rfl rfl, ?_⟩
      intro c' r' hm
      have hm : .stored c' r' ∈ new := by simpa using hm
      left
      intro l hl j hj
      rcases hS c' r' hm with h4 | h4
      · exact List.mem_append_left _ (h4 l hl j hj)
      · exfalso
        have hl : s.callbacks.get? c'.key = some l := hl
        rw [callbacks_get, ← h4.1, hg] at hl; cases hl
    | some l =>
      rw [hg] at h; cases h
      refine ⟨[], _, (List.append_nil _).symm, get _ _ rfl rfl, ?_⟩
      rw [List.append_nil]
      intro c' r' hm
      rcases hS c' r' hm with h4 | h4
      · exact Or.inl h4
      · right
        refine ⟨h4.2, ?_, by omega⟩
        show s.cbs.get? c'.key = _
        rw [← h4.1, hg]
  case fire it r l i =>
    cases hx : (s.list l)[i]? with
    | none =>
      rw [hx] at h; cases h
      refine ⟨[], _, (List.append_nil _).symm, get _ _ rfl rfl, ?_⟩
      rw [List.append_nil]
      intro c' r' hm
      left
      rcases hS c' r' hm with h4 | ⟨rfl, h4, h5⟩
      · exact h4
      · intro l' hl' j hj
        have hl' : s.callbacks.get? c'.key = some l' := hl'
        rw [callbacks_get, h4] at hl'
        simp only [Option.map_some, Option.some.injEq] at hl'
        subst hl'
        obtain ⟨k, hk⟩ := List.getElem?_of_mem hj
        have h6 := (List.getElem?_eq_some_iff.mp hk).1
        have h7 := List.getElem?_eq_none_iff.mp hx
        exact h5 k (by omega) j hk
    | some j0 =>
      rw [hx] at h; cases h
      refine ⟨[.fired j0 r], _, rfl, get _ _ rfl rfl, ?_⟩
      intro c' r' hm
      have hm : .stored c' r' ∈ new := by simpa using hm
      rcases hS c' r' hm with h4 | ⟨rfl, h4, h5⟩
      · left; intro l' hl' j hj; exact List.mem_append_left _ (h4 l' hl' j hj)
      · right
        refine ⟨rfl, h4, ?_⟩
        intro k hk j hj
        replace hj : (s.list l)[k]? = some j := hj
        rcases Nat.lt_or_ge k i with h6 | h6
        · exact List.mem_append_left _ (h5 k h6 j hj)
        · have : k = i := by omega
          subst this
          have hj : (s.list l)[k]? = some j := hj
          have e := hx.symm.trans hj
          cases e
          simp

/-- One step while the loop runs and its thread lives on. -/
theorem served_step {dev : Device} {fl : ElmM.FloatFn} {s s' : AW} {a : Action} {t : Nat} {pc : Pc} {new : List Ev} (hI : Inv s) (hA : AnyInv s) (hB : PoliteInv s)
    (hp : politeCallback s a) (hr : s.running = true) (hpc : s.threads[t]? = some pc) (hact : Pc.active pc = true) (ht' : Active s' t)
    (hS : Served new s pc) (h : s.step dev fl a = some s') :
    ∃ es pc', s'.log = s.log ++ es ∧ s'.threads[t]? = some pc' ∧ Served (new ++ es) s' pc' := by
  obtain ⟨K, hK⟩ := callbacks_bound s
  obtain ⟨hcb, hkeys, -, hmove⟩ := live_step hI hA hB hp hr ⟨pc, hpc, hact⟩ ht' hK h
  have hlt : t < s.threads.length := (List.getElem?_eq_some_iff.mp hpc).1
  have hst : s.thread = some t := hI.act t pc hpc hact
  have honly : ∀ (t' : Nat) (pc : Pc), s.threads[t']? = some pc → Pc.active pc = true → t' = t := by
    intro t' pc h1 h2
    have := hI.act t' pc h1 h2
    rw [hst] at this; cases this; rfl
  have stay : ∀ es, s'.log = s.log ++ es → (∀ c r, .stored c r ∉ es) → s'.threads[t]? = some pc →
      ∃ es pc', s'.log = s.log ++ es ∧ s'.threads[t]? = some pc' ∧ Served (new ++ es) s' pc' :=
    fun es h1 h2 h3 => ⟨es, pc, h1, h3, served_more hS hcb h2⟩
  have hh := h
  unfold step at h
  cases a with
  | call o =>
    simp only at h
    cases hc : s.caller with
    | busy o p => rw [hc] at h; cases h
    | idle => rw [hc] at h; cases h; exact stay [.call o] rfl (by simp) hpc
  | caller =>
    simp only at h
    cases hc : s.caller with
    | idle => rw [hc] at h; cases h
    | busy o p =>
      rw [hc] at h
      have hm : p ≠ .modify := by
        rintro rfl
        rw [hA.modify o hc] at hr; cases hr
      obtain ⟨es, hl, hin, -⟩ := callerStep_inert hm h
      refine stay es hl (fun c r he => (hin _ he)) ?_
      obtain ⟨pc', h1, h2⟩ := hmove pc hpc
      rcases callerStep_threads h with ⟨e, -⟩ | ⟨-, e, -⟩ | ⟨hp, t1, e0, e1, e2⟩
      · rw [e]; exact hpc
      · rw [e, List.getElem?_append_left hlt]; exact hpc
      · exfalso
        subst hp
        have hCI := hI.caller
        unfold CallerInv at hCI
        rw [hc] at hCI
        obtain ⟨t2, e3, e4⟩ := hCI
        rw [hst] at e3; cases e3
        rw [hpc] at e4; cases e4; cases hact
  | daemon t' =>
    simp only at h
    cases hq : s.threads[t']? with
    | none => rw [hq] at h; cases h
    | some pc1 =>
      rw [hq] at h
      obtain rfl := honly t' pc1 hq (daemonStep_ctl h).2.2.1
      rw [hpc] at hq; cases hq
      exact served_daemon hlt hS hcb h
  | cb t' o =>
    simp only at h
    split at h
    · next it r rest hq =>
      obtain rfl := honly t' _ hq rfl
      obtain ⟨h1, h2, -, -⟩ := cbCall_ctl hst h
      obtain ⟨h3, h4, -, -, h5, -⟩ := cbCall_polite hst hp h
      exact stay [] (by simp [h5]) (by simp) (by rw [h2]; exact hpc)
    · cases h
  | cbEnd t' ok =>
    simp only at h
    split at h
    · next it r l i hq =>
      obtain rfl := honly t' _ hq rfl
      rw [hpc] at hq; cases hq
      split at h <;> cases h
      · refine ⟨[], .fire it r l i, (List.append_nil _).symm, ?_, ?_⟩
        · show (s.threads.set t' _)[t']? = _
          rw [List.getElem?_set, if_pos rfl, if_pos hlt]
        · rw [List.append_nil]; exact hS
      · exfalso
        obtain ⟨pc, h1, h2⟩ := ht'
        have h1 : (s.threads.set t' _)[t']? = some pc := h1
        rw [List.getElem?_set, if_pos rfl, if_pos hlt] at h1
        cases h1; cases h2
    · cases h
  | reorder t' rest =>
    obtain ⟨it, it', h1, -, h2, -⟩ := reorder_eq hh
    exact absurd (hB.ok t' _ h1).keys h2

/-- The step with which the thread falls asleep. -/
theorem into_sleep {dev : Device} {fl : ElmM.FloatFn} {s s' : AW} {a : Action} {t : Nat} {pc : Pc} (hI : Inv s) (hB : PoliteInv s) (hR : RoundInv s)
    (hpc : s.threads[t]? = some pc) (hact : Pc.active pc = true) (h1 : pc ≠ .sleep) (h2 : s'.threads[t]? = some .sleep)
    (h : s.step dev fl a = some s') (hp : politeCallback s a) : Outside pc ∧ got s.log = Dict.keys s.commands ∧ s'.log = s.log ++ [.slept] := by
  have hlt : t < s.threads.length := (List.getElem?_eq_some_iff.mp hpc).1
  have hst : s.thread = some t := hI.act t pc hpc hact
  have honly : ∀ (t' : Nat) (pc : Pc), s.threads[t']? = some pc → Pc.active pc = true → t' = t := by
    intro t' pc h1 h2
    have := hI.act t' pc h1 h2
    rw [hst] at this; cases this; rfl
  have no : s'.threads = s.threads → False := by
    intro e; rw [e, hpc] at h2; cases h2; exact h1 rfl
  have noset : ∀ t' x, s'.threads = s.threads.set t' x → x ≠ .sleep → False := by
    intro t' x e hx
    rw [e] at h2
    rcases set_get h2 with ⟨-, h3⟩ | ⟨-, h3⟩
    · exact hx h3.symm
    · rw [hpc] at h3; cases h3; exact h1 rfl
  have hh := h
  unfold step at h
  cases a with
  | call o =>
    simp only at h
    cases hc : s.caller with
    | busy o p => rw [hc] at h; cases h
    | idle => rw [hc] at h; cases h; exact (no rfl).elim
  | caller =>
    simp only at h
    cases hc : s.caller with
    | idle => rw [hc] at h; cases h
    | busy o p =>
      rw [hc] at h
      rcases callerStep_threads h with ⟨e, -⟩ | ⟨-, e, -⟩ | ⟨hp, t1, e0, e1, e2⟩
      · exact (no e).elim
      · rw [e, List.getElem?_append_left hlt, hpc] at h2; cases h2; exact absurd rfl h1
      · exact (noset _ _ e1 (by simp)).elim
  | daemon t' =>
    simp only at h
    cases hq : s.threads[t']? with
    | none => rw [hq] at h; cases h
    | some pc1 =>
      rw [hq] at h
      obtain rfl := honly t' pc1 hq (daemonStep_ctl h).2.2.1
      rw [hpc] at hq; cases hq
      have hat := hR.at_ _ _ hpc
      have hok := hB.ok _ _ hpc
      cases pc <;> simp only [daemonStep] at h
      case notStarted => cases h
      case finished => cases h
      case inside => cases h
      case sleep => exact absurd rfl h1
      case test => split at h <;> cases h <;> exact (noset _ _ rfl (by simp)).elim
      case size =>
        split at h <;> cases h
        · exact (noset _ _ rfl (by simp)).elim
        · next hz =>
          have : s.commands = [] := by
            cases hc : s.commands with
            | nil => rfl
            | cons x l => rw [hc] at hz; simp at hz
          refine ⟨trivial, ?_, rfl⟩
          rw [this]; exact hat.2
      case iter => cases h; exact (noset _ _ rfl (by simp)).elim
      case next it =>
        rw [if_neg (by intro h2; exact h2.2 hok.keys)] at h
        cases hr : it.rest with
        | nil =>
          rw [hr] at h; cases h
          obtain ⟨h3, h4⟩ := hat
          rw [hr] at h3
          exact ⟨trivial, by rw [h4]; simpa using h3, rfl⟩
        | cons c rest => rw [hr] at h; cases h; exact (noset _ _ rfl (by simp)).elim
      case conn it c => split at h <;> cases h <;> exact (noset _ _ rfl (by simp)).elim
      case drop1 => cases h; exact (noset _ _ rfl (by simp)).elim
      case drop2 => cases h; exact (noset _ _ rfl (by simp)).elim
      case query it c =>
        cases hq : ObdM.query dev fl c true s.obd with
        | mk x o =>
          rw [hq] at h
          cases x <;> cases h <;> exact (noset _ _ rfl (by simp)).elim
      case store it c r => cases h; exact (noset _ _ rfl (by simp)).elim
      case subs it c r => split at h <;> cases h <;> exact (noset _ _ rfl (by simp)).elim
      case fire it r l i => split at h <;> cases h <;> exact (noset _ _ rfl (by simp)).elim
  | cb t' o =>
    simp only at h
    split at h
    · next it r rest hq =>
      obtain rfl := honly t' _ hq rfl
      exact (no (cbCall_ctl hst h).2.1).elim
    · cases h
  | cbEnd t' ok =>
    simp only at h
    split at h
    · next it r l i hq => split at h <;> cases h <;> exact (noset _ _ rfl (by simp)).elim
    · cases h
  | reorder t' rest =>
    obtain ⟨it, it', h1, -, h2, -⟩ := reorder_eq hh
    exact absurd (hB.ok t' _ h1).keys h2

theorem got_mem {new : List Ev} {k : CmdKey} : ∀ {l}, k ∈ new.foldl gotNext l → k ∈ l ∨ ∃ c r, .stored c r ∈ new ∧ c.key = k := by
  induction new with
  | nil => intro l h; exact Or.inl h
  | cons e new ih =>
    intro l h
    rcases ih h with h1 | ⟨c, r, h1, h2⟩
    · cases e <;> simp only [gotNext] at h1
      case stored c r =>
        rcases List.mem_append.mp h1 with h1 | h1
        · exact Or.inl h1
        · right; refine ⟨c, r, by simp, ?_⟩; simpa using (List.mem_singleton.mp h1).symm
      case started => cases h1
      case slept => cases h1
      all_goals exact Or.inl h1
    · exact Or.inr ⟨c, r, List.mem_cons_of_mem _ h1, h2⟩

variable {dev : Device} {fl : Str → Option PyFloat} {run : Nat → AW} {act : Nat → Action}

/-- A run in which from `n` on the loop keeps running. -/
structure Keeps (run : Nat → AW) (n t : Nat) : Prop where
  alive : ∀ m ≥ n, Active (run m) t
  running : ∀ m ≥ n, (run m).running = true

theorem Keeps.from {n t m : Nat} (h : Keeps run n t) (hm : n ≤ m) : Keeps run m t :=
  ⟨fun k hk => h.alive k (by omega), fun k hk => h.running k (by omega)⟩

theorem keeps_tables (hF : FairRun dev fl run act) {n t : Nat} (h : Keeps run n t) (d : Nat) :
    (run (n + d)).cbl = (run n).cbl ∧ Dict.keys (run (n + d)).commands = Dict.keys (run n).commands := by
  induction d with
  | zero => exact ⟨rfl, rfl⟩
  | succ d ih =>
    obtain ⟨K, hK⟩ := callbacks_bound (run (n + d))
    obtain ⟨h1, h2, -⟩ := live_step (areach_inv (hF.reach (n + d))) (areach_any (hF.reach _)) (areach_polite (hF.reach _)) (hF.polite (n + d)) (h.running _ (by omega))
      (h.alive _ (by omega)) (h.alive _ (by omega)) hK (hF.step (n + d))
    exact ⟨h1.trans ih.1, h2.trans ih.2⟩

/-- One step of the run. -/
theorem keeps_one (hF : FairRun dev fl run act) {n t : Nat} (h : Keeps run n t) {K : Nat} (hK : ∀ i, ((run n).list i).length ≤ K) {m : Nat} (hm : n ≤ m) {pc : Pc}
    (hpc : (run m).threads[t]? = some pc) : ∃ pc', (run (m + 1)).threads[t]? = some pc' ∧
      ((pc' = pc ∧ act m ≠ .daemon t ∧ ∀ ok, act m ≠ .cbEnd t ok) ∨ (pc = .sleep ∧ pc' = .test) ∨
        toSleep K (run n).commands.length pc' < toSleep K (run n).commands.length pc) := by
  obtain ⟨d, rfl⟩ := Nat.exists_eq_add_of_le hm
  have htab := keeps_tables hF h d
  obtain ⟨-, -, -, h3⟩ := live_step (K := K) (areach_inv (hF.reach (n + d))) (areach_any (hF.reach _)) (areach_polite (hF.reach _)) (hF.polite (n + d)) (h.running _ (by omega))
      (h.alive _ (by omega)) (h.alive _ (by omega)) (fun i => by rw [list_of htab.1]; exact hK i) (hF.step (n + d))
  rw [keys_length htab.2] at h3
  obtain ⟨pc', h4, h5⟩ := h3 pc hpc
  refine ⟨pc', h4, ?_⟩
  rcases h5 with h5 | h5 | ⟨-, h5⟩ | h5
  · exact Or.inl h5
  · exact Or.inr (Or.inl h5)
  · rw [h.running (n + d + 1) (by omega)] at h5; cases h5
  · exact Or.inr (Or.inr h5)

/-- The thread moves on. -/
theorem keeps_moves (hF : FairRun dev fl run act) {n t : Nat} (h : Keeps run n t) {K : Nat} (hK : ∀ i, ((run n).list i).length ≤ K) {m : Nat} (hm : n ≤ m) {pc : Pc}
    (hpc : (run m).threads[t]? = some pc) : ∃ k ≥ m, (run k).threads[t]? = some pc ∧ ∃ pc', (run (k + 1)).threads[t]? = some pc' ∧
      ((pc = .sleep ∧ pc' = .test) ∨ toSleep K (run n).commands.length pc' < toSleep K (run n).commands.length pc) := by
  obtain ⟨k, hk, hk2⟩ := hF.thread t m (fun k hk => h.alive k (by omega))
  have hwalk : ∀ d, m + d ≤ k → (∃ k ≥ m, (run k).threads[t]? = some pc ∧ ∃ pc', (run (k + 1)).threads[t]? = some pc' ∧
      ((pc = .sleep ∧ pc' = .test) ∨ toSleep K (run n).commands.length pc' < toSleep K (run n).commands.length pc)) ∨ (run (m + d)).threads[t]? = some pc := by
    intro d
    induction d with
    | zero => intro _; exact Or.inr hpc
    | succ d ihd =>
      intro hd
      rcases ihd (by omega) with h1 | h1
      · exact Or.inl h1
      · obtain ⟨pc', h2, h3⟩ := keeps_one hF h hK (show n ≤ m + d by omega) h1
        rcases h3 with ⟨rfl, -⟩ | h3
        · exact Or.inr h2
        · exact Or.inl ⟨m + d, by omega, h1, pc', h2, h3⟩
  obtain ⟨d, rfl⟩ := Nat.exists_eq_add_of_le hk
  rcases hwalk d (Nat.le_refl _) with h1 | h1
  · exact h1
  · obtain ⟨pc', h2, h3⟩ := keeps_one hF h hK (show n ≤ m + d by omega) h1
    rcases h3 with ⟨-, h4, h5⟩ | h3
    · rcases hk2 with hk2 | ⟨ok, hk2⟩
      · exact absurd hk2 h4
      · exact absurd hk2 (h5 ok)
    · exact ⟨m + d, by omega, h1, pc', h2, h3⟩

/-- The thread falls asleep, sooner or later. -/
theorem keeps_sleeps (hF : FairRun dev fl run act) {n t : Nat} (h : Keeps run n t) {m : Nat} (hm : n ≤ m) {pc : Pc}
    (hpc : (run m).threads[t]? = some pc) (hs : pc ≠ .sleep) : ∃ k ≥ m, (∃ pc', (run k).threads[t]? = some pc' ∧ pc' ≠ .sleep) ∧ (run (k + 1)).threads[t]? = some .sleep := by
  obtain ⟨K, hK⟩ := callbacks_bound (run n)
  have main : ∀ f m, n ≤ m → ∀ pc, (run m).threads[t]? = some pc → pc ≠ .sleep → toSleep K (run n).commands.length pc = f →
      ∃ k ≥ m, (∃ pc', (run k).threads[t]? = some pc' ∧ pc' ≠ .sleep) ∧ (run (k + 1)).threads[t]? = some .sleep := by
    intro f
    induction f using Nat.strongRecOn with
    | _ f ih =>
      intro m hm pc hpc hs hf
      obtain ⟨k, hk, h1, pc', h2, h3⟩ := keeps_moves hF h hK hm hpc
      rcases h3 with ⟨h3, -⟩ | h3
      · exact absurd h3 hs
      · by_cases h4 : pc' = .sleep
        · subst h4; exact ⟨k, hk, ⟨pc, h1, hs⟩, h2⟩
        · obtain ⟨k', h5, h6⟩ := ih _ (by omega) (k + 1) (by omega) pc' h2 h4 rfl
          exact ⟨k', by omega, h6⟩
  exact main _ m hm pc hpc hs rfl

theorem run_log (hF : FairRun dev fl run act) (m d : Nat) : ∃ new, (run (m + d)).log = (run m).log ++ new := by
  induction d with
  | zero => exact ⟨[], (List.append_nil _).symm⟩
  | succ d ih =>
    obtain ⟨es, h4⟩ := ih
    obtain ⟨es', h5, -⟩ := step_log (hF.step (m + d))
    exact ⟨es ++ es', by rw [show m + (d + 1) = m + d + 1 from rfl, h5, h4, List.append_assoc]⟩

/-- A full round after the thread slept. -/
theorem keeps_round (hF : FairRun dev fl run act) {n t : Nat} (h : Keeps run n t) (hpc : (run n).threads[t]? = some .sleep) :
    ∃ d new, (run (n + d)).log = (run n).log ++ new ∧ ∀ k ∈ Dict.keys (run n).commands, ∃ c r, .stored c r ∈ new ∧ c.key = k ∧
      ∀ l, (run n).callbacks.get? k = some l → ∀ j ∈ l, .fired j r ∈ new := by
  obtain ⟨K, hK⟩ := callbacks_bound (run n)
  obtain ⟨k, hk, h1, pc', h2, h3⟩ := keeps_moves hF h hK (Nat.le_refl n) hpc
  have hns : pc' ≠ .sleep := by
    rcases h3 with ⟨-, rfl⟩ | h3
    · simp
    · rintro rfl; omega
  obtain ⟨m, hm, ⟨pc, h4, h5⟩, h6⟩ := keeps_sleeps hF h (show n ≤ k + 1 by omega) h2 hns
  have hact : ∀ d, ∃ new pc, (run (n + d)).log = (run n).log ++ new ∧ (run (n + d)).threads[t]? = some pc ∧ Served new (run (n + d)) pc := by
    intro d
    induction d with
    | zero => exact ⟨[], _, (List.append_nil _).symm, hpc, by intro c r hm; simp at hm⟩
    | succ d ih =>
      obtain ⟨new, pc, e1, e2, e3⟩ := ih
      have ha : Pc.active pc = true := by
        obtain ⟨pc2, e4, e5⟩ := h.alive (n + d) (by omega)
        rw [e2] at e4; cases e4; exact e5
      obtain ⟨es, pc', e4, e5, e6⟩ := served_step (areach_inv (hF.reach (n + d))) (areach_any (hF.reach _)) (areach_polite (hF.reach _)) (hF.polite (n + d)) (h.running _ (by omega))
        e2 ha (h.alive _ (by omega)) e3 (hF.step (n + d))
      exact ⟨new ++ es, pc', by rw [show n + (d + 1) = n + d + 1 from rfl, e4, e1, List.append_assoc], e5, e6⟩
  obtain ⟨d, rfl⟩ := Nat.exists_eq_add_of_le (show n ≤ m by omega)
  obtain ⟨new, pc2, e1, e2, e3⟩ := hact d
  rw [h4] at e2; cases e2
  have ha : Pc.active pc = true := by
    obtain ⟨pc2, e4, e5⟩ := h.alive (n + d) (by omega)
    rw [h4] at e4; cases e4; exact e5
  obtain ⟨i1, i2, -⟩ := into_sleep (areach_inv (hF.reach (n + d))) (areach_polite (hF.reach _)) (areach_round (hF.reach _)) h4 ha h5 h6 (hF.step (n + d)) (hF.polite _)
  refine ⟨d, new, e1, ?_⟩
  intro k hk
  have htab := keeps_tables hF h d
  have hg0 : got (run n).log = [] := ((areach_round (hF.reach n)).at_ _ _ hpc).2
  rw [e1, got_append, hg0, htab.2] at i2
  rw [← i2] at hk
  rcases got_mem hk with hk0 | ⟨c, r, hk1, rfl⟩
  · cases hk0
  · refine ⟨c, r, hk1, rfl, ?_⟩
    intro l hl
    rw [← (subs_of_cbl htab.1).1] at hl
    exact (served_outside (pc' := .sleep) e3 i1 c r hk1).resolve_right id l hl

/-- Again and again. -/
theorem keeps_again (hF : FairRun dev fl run act) {n t : Nat} (h : Keeps run n t) {k : CmdKey} (hk : k ∈ Dict.keys (run n).commands) :
    ∃ m > n, ∃ new, (run m).log = (run n).log ++ new ∧ ∃ c r, .stored c r ∈ new ∧ c.key = k ∧
      ∀ l, (run n).callbacks.get? k = some l → ∀ j ∈ l, .fired j r ∈ new := by
  obtain ⟨pc, hpc, -⟩ := h.alive n (Nat.le_refl _)
  obtain ⟨m, hm, hpm⟩ : ∃ m ≥ n, (run m).threads[t]? = some .sleep := by
    by_cases hs : pc = .sleep
    · subst hs; exact ⟨n, Nat.le_refl _, hpc⟩
    · obtain ⟨k, h1, -, h2⟩ := keeps_sleeps hF h (Nat.le_refl _) hpc hs
      exact ⟨k + 1, by omega, h2⟩
  obtain ⟨d, rfl⟩ := Nat.exists_eq_add_of_le hm
  have htab := keeps_tables hF h d
  obtain ⟨d2, new, h1, h2⟩ := keeps_round hF (h.from hm) hpm
  obtain ⟨new0, h0⟩ := run_log hF n d
  obtain ⟨c, r, h3, h4, h5⟩ := h2 k (by rw [htab.2]; exact hk)
  have hpos : 0 < d + d2 := by
    rcases Nat.eq_zero_or_pos d2 with rfl | h6
    · exfalso
      have := congrArg List.length h1
      simp at this
      subst this; cases h3
    · omega
  refine ⟨n + d + d2, by omega, new0 ++ new, by rw [h1, h0, List.append_assoc], c, r, List.mem_append_right _ h3, h4, ?_⟩
  intro l hl j hj
  rw [← (subs_of_cbl htab.1).1] at hl
  exact List.mem_append_right _ (h5 l hl j hj)

/-- Positions of the user's thread in calls that do not stop the loop. -/
def Harmless : CPc → Bool
  | .startConn => true
  | .startLen => true
  | .startNone => true
  | .exit => true
  | .gate => true
  | .ask => true
  | .power => true
  | _ => false

/-- The loop is at work and nothing is about to stop it. -/
structure Going (s : AW) (t : Nat) : Prop where
  running : s.running = true
  at_ : ∃ pc, s.threads[t]? = some pc ∧ Pc.active pc = true ∧ pc ≠ .drop1 ∧ pc ≠ .drop2
  caller : ∀ op p, s.caller = .busy op p → Harmless p = true

theorem going_step {s s' : AW} {a : Action} {t : Nat} (hI : Inv s) (hB : PoliteInv s) (hB' : PoliteInv s') (hp : politeCallback s a)
    (hG : Going s t) (h : s.step dev fl a = some s') (h1 : a ≠ .call .stop ∧ a ≠ .call .enter ∧ a ≠ .call .close) (h2 : ObdM.isConnected s.obd = true)
    (h3 : ∀ es, s'.log = s.log ++ es → .ended .callback ∉ es ∧ ∀ x, .ended (.query x) ∉ es) : Going s' t := by
  obtain ⟨hr, ⟨pc, hpc, hact, hd1, hd2⟩, hcl⟩ := hG
  have hlt : t < s.threads.length := (List.getElem?_eq_some_iff.mp hpc).1
  have hst : s.thread = some t := hI.act t pc hpc hact
  have honly : ∀ (t' : Nat) (pc : Pc), s.threads[t']? = some pc → Pc.active pc = true → t' = t := by
    intro t' pc h1 h2
    have := hI.act t' pc h1 h2
    rw [hst] at this; cases this; rfl
  have hh := h
  unfold step at h
  cases a with
  | call o =>
    simp only at h
    cases hc : s.caller with
    | busy o p => rw [hc] at h; cases h
    | idle =>
      rw [hc] at h; cases h
      refine ⟨hr, ⟨pc, hpc, hact, hd1, hd2⟩, ?_⟩
      intro op p hx
      have hx : Caller.busy o (entry o) = .busy op p := hx
      cases hx
      cases o <;> simp only [entry, Harmless] <;> simp at h1
  | caller =>
    simp only at h
    cases hc : s.caller with
    | idle => rw [hc] at h; cases h
    | busy o p =>
      rw [hc] at h
      have hp := hcl o p hc
      have idle : ∀ x : AW, x = s' → x.running = true → x.threads = s.threads → x.caller = .idle → Going s' t := by
        intro x e4 e1 e2 e3
        subst e4
        exact ⟨e1, ⟨pc, by rw [e2]; exact hpc, hact, hd1, hd2⟩, by intro op p hx; rw [e3] at hx; cases hx⟩
      have busy : ∀ (x : AW) p, x = s' → x.running = true → x.threads = s.threads → x.caller = .busy o p → Harmless p = true → Going s' t := by
        intro x p e5 e1 e2 e3 e4
        subst e5
        exact ⟨e1, ⟨pc, by rw [e2]; exact hpc, hact, hd1, hd2⟩, by intro op p hx; rw [e3] at hx; cases hx; exact e4⟩
      cases p <;> simp only [Harmless, Bool.false_eq_true] at hp <;> simp only [callerStep, Option.some.injEq] at h
      case startConn =>
        rw [if_pos h2] at h
        exact busy _ .startLen h hr rfl rfl rfl
      case startLen =>
        split at h
        · exact idle _ h hr rfl rfl
        · exact busy _ .startNone h hr rfl rfl rfl
      case startNone => rw [if_neg (by rw [hst]; simp)] at h; exact idle _ h hr rfl rfl
      case exit => rw [hr] at h; exact idle _ h hr rfl rfl
      case gate => rw [if_pos hr] at h; exact idle _ h hr rfl rfl
      case ask =>
        split at h <;> cases h
        · exact idle _ rfl hr rfl rfl
        · exact idle _ rfl hr rfl rfl
      case power =>
        split at h <;> cases h
        · exact idle _ rfl hr rfl rfl
        · exact idle _ rfl hr rfl rfl
  | daemon t' =>
    simp only at h
    cases hq : s.threads[t']? with
    | none => rw [hq] at h; cases h
    | some pc1 =>
      rw [hq] at h
      obtain ⟨hca, -, hac, -⟩ := daemonStep_ctl h
      obtain rfl := honly t' pc1 hq hac
      rw [hpc] at hq; cases hq
      have hcl' : ∀ op p, s'.caller = .busy op p → Harmless p = true := by rw [hca]; exact hcl
      have good : ∀ (x : AW) pc', s' = x → x.running = true → x.threads = s.threads.set t' pc' → Pc.active pc' = true → pc' ≠ .drop1 → pc' ≠ .drop2 → Going s' t' := by
        intro x pc' e6 e1 e2 e3 e4 e5
        refine ⟨by rw [e6]; exact e1, ⟨pc', ?_, e3, e4, e5⟩, hcl'⟩
        rw [e6, e2, List.getElem?_set, if_pos rfl, if_pos hlt]
      have hok := hB.ok _ _ hpc
      cases pc <;> simp only [daemonStep] at h
      case notStarted => cases h
      case finished => cases h
      case inside => cases h
      case drop1 => exact absurd rfl hd1
      case drop2 => exact absurd rfl hd2
      case sleep => cases h; exact good _ .test rfl hr rfl rfl (by simp) (by simp)
      case test => rw [if_pos hr] at h; cases h; exact good _ .size rfl hr rfl rfl (by simp) (by simp)
      case size =>
        split at h <;> cases h
        · exact good _ .iter rfl hr rfl rfl (by simp) (by simp)
        · exact good _ .sleep rfl hr rfl rfl (by simp) (by simp)
      case iter => cases h; exact good _ _ rfl hr rfl rfl (by simp) (by simp)
      case next it =>
        rw [if_neg (by intro h2; exact h2.2 hok.keys)] at h
        cases hre : it.rest with
        | nil => rw [hre] at h; cases h; exact good _ _ rfl hr rfl rfl (by simp) (by simp)
        | cons c rest => rw [hre] at h; cases h; exact good _ _ rfl hr rfl rfl (by simp) (by simp)
      case conn it c => rw [if_pos h2] at h; cases h; exact good _ _ rfl hr rfl rfl (by simp) (by simp)
      case query it c =>
        cases hq : ObdM.query dev fl c true s.obd with
        | mk x o =>
          rw [hq] at h
          cases x with
          | error x =>
            cases h
            exact absurd (by simp) ((h3 [.queried c, .ended (.query x)] (by simp [emit, setPc])).2 x)
          | ok r => cases h; exact good _ _ rfl hr rfl rfl (by simp) (by simp)
      case store it c r => cases h; exact good _ _ rfl hr rfl rfl (by simp) (by simp)
      case subs it c r =>
        cases hg : s.cbs.get? c.key with
        | none =>
          rw [hg] at h; cases h
          exact absurd (by simp [emit]) hB'.fine.2
        | some l => rw [hg] at h; cases h; exact good _ _ rfl hr rfl rfl (by simp) (by simp)
      case fire it r l i =>
        cases hx : (s.list l)[i]? with
        | none => rw [hx] at h; cases h; exact good _ _ rfl hr rfl rfl (by simp) (by simp)
        | some k => rw [hx] at h; cases h; exact good _ _ rfl hr rfl rfl (by simp) (by simp)
  | cb t' o =>
    simp only at h
    split at h
    · next it r rest hq =>
      obtain rfl := honly t' _ hq rfl
      obtain ⟨h1, h2, -, -⟩ := cbCall_ctl hst h
      obtain ⟨-, -, -, h4, -⟩ := cbCall_polite hst hp h
      exact ⟨by rw [h4]; exact hr, ⟨pc, by rw [h2]; exact hpc, hact, hd1, hd2⟩, by rw [h1]; exact hcl⟩
    · cases h
  | cbEnd t' ok =>
    simp only at h
    split at h
    · next it r l i hq =>
      obtain rfl := honly t' _ hq rfl
      split at h <;> cases h
      · refine ⟨hr, ⟨.fire it r l i, ?_, rfl, by simp, by simp⟩, hcl⟩
        show (s.threads.set t' _)[t']? = _
        rw [List.getElem?_set, if_pos rfl, if_pos hlt]
      · exact absurd (by simp) (h3 [.ended .callback] rfl).1
    · cases h
  | reorder t' rest =>
    obtain ⟨it, it', h1, -, h2, -⟩ := reorder_eq hh
    exact absurd (hB.ok t' _ h1).keys h2

/-- Nothing stops the loop: it keeps running. -/
theorem going_keeps (hF : FairRun dev fl run act) {n t : Nat} (hG : Going (run n) t) (h1 : ∀ m ≥ n, act m ≠ .call .stop ∧ act m ≠ .call .enter ∧ act m ≠ .call .close)
    (h2 : ∀ m ≥ n, ObdM.isConnected (run m).obd = true)
    (h3 : ∀ m ≥ n, ∀ new, (run m).log = (run n).log ++ new → .ended .callback ∉ new ∧ ∀ x, .ended (.query x) ∉ new) : Keeps run n t := by
  have main : ∀ d, Going (run (n + d)) t := by
    intro d
    induction d with
    | zero => exact hG
    | succ d ih =>
      refine going_step (areach_inv (hF.reach (n + d))) (areach_polite (hF.reach _)) (areach_polite (hF.reach (n + d + 1))) (hF.polite (n + d)) ih (hF.step (n + d))
        (h1 _ (by omega)) (h2 _ (by omega)) ?_
      intro es hes
      obtain ⟨new, h4⟩ := run_log hF n d
      have := h3 (n + d + 1) (by omega) (new ++ es) (by show (run (n + (d + 1))).log = _; rw [hes, h4, List.append_assoc])
      exact ⟨fun h => this.1 (List.mem_append_right _ h), fun x h => this.2 x (List.mem_append_right _ h)⟩
  refine ⟨?_, ?_⟩
  · intro m hm
    obtain ⟨d, rfl⟩ := Nat.exists_eq_add_of_le hm
    obtain ⟨pc, h4, h5, -⟩ := (main d).at_
    exact ⟨pc, h4, h5⟩
  · intro m hm
    obtain ⟨d, rfl⟩ := Nat.exists_eq_add_of_le hm
    exact (main d).running

end AW
end Model
