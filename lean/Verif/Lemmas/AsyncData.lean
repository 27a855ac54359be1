import Verif.Lemmas.AsyncStop
import Verif.Lemmas.Basic
/-!
# The subscription tables
-/
namespace Py
namespace Dict
variable {κ ν : Type} [DecidableEq κ]

theorem mem_pop {d : Dict κ ν} {k : κ} {e : κ × ν} (h : e ∈ pop d k) : e ∈ d := by
  induction d with
  | nil => exact h
  | cons x d ih =>
    obtain ⟨a, b⟩ := x
    unfold pop at h
    split at h
    · exact List.mem_cons_of_mem _ h
    · rcases List.mem_cons.mp h with h | h
      · subst h; simp
      · exact List.mem_cons_of_mem _ (ih h)

theorem keys_pop_sublist (d : Dict κ ν) (k : κ) : (keys (pop d k)).Sublist (keys d) := by
  induction d with
  | nil => simp [pop]
  | cons x d ih =>
    obtain ⟨a, b⟩ := x
    unfold pop
    split
    · simp [keys]
    · simpa [keys] using ih

theorem keys_pop_nodup {d : Dict κ ν} (h : (keys d).Nodup) (k : κ) : (keys (pop d k)).Nodup := h.sublist (keys_pop_sublist d k)

theorem mem_keys_pop {d : Dict κ ν} (h : (keys d).Nodup) (k k' : κ) : k' ∈ keys (pop d k) ↔ k' ≠ k ∧ k' ∈ keys d := by
  rw [← get?_isSome_iff, ← get?_isSome_iff, get?_pop d k k' h]
  split
  · next e => subst e; simp
  · next e => exact ⟨fun h => ⟨fun h' => e h'.symm, h⟩, fun h => h.2⟩

theorem mem_set {d : Dict κ ν} {k : κ} {v : ν} {e : κ × ν} (h : e ∈ set d k v) : e ∈ d ∨ e = (k, v) := by
  induction d with
  | nil => right; simpa [set] using h
  | cons x d ih =>
    obtain ⟨a, b⟩ := x
    unfold set at h
    split at h
    · next hk =>
      rcases List.mem_cons.mp h with h | h
      · right; rw [h, hk]
      · left; exact List.mem_cons_of_mem _ h
    · rcases List.mem_cons.mp h with h | h
      · left; rw [h]; simp
      · rcases ih h with h | h
        · left; exact List.mem_cons_of_mem _ h
        · right; exact h

theorem get?_mem {d : Dict κ ν} {k : κ} {v : ν} (h : get? d k = some v) : (k, v) ∈ d := by
  induction d with
  | nil => cases h
  | cons x d ih =>
    obtain ⟨a, b⟩ := x
    rw [get?_cons] at h
    split at h
    · next e => subst e; cases h; simp
    · exact List.mem_cons_of_mem _ (ih h)

theorem get?_of_mem {d : Dict κ ν} {k : κ} {v : ν} (hn : (keys d).Nodup) (h : (k, v) ∈ d) : get? d k = some v := by
  induction d with
  | nil => cases h
  | cons x d ih =>
    obtain ⟨a, b⟩ := x
    simp only [keys, List.map_cons, List.nodup_cons] at hn
    rw [get?_cons]
    rcases List.mem_cons.mp h with h | h
    · cases h; simp
    · rw [if_neg]
      · exact ih hn.2 h
      · intro e; subst e; exact hn.1 (List.mem_map.mpr ⟨_, h, rfl⟩)

theorem set_self {d : Dict κ ν} {k : κ} {v : ν} (h : get? d k = some v) : set d k v = d := by
  induction d with
  | nil => cases h
  | cons x d ih =>
    obtain ⟨a, b⟩ := x
    rw [get?_cons] at h
    unfold set
    split at h
    · next e => cases h; rw [if_pos e]
    · next e => rw [if_neg e, ih h]

theorem map_set {μ : Type} (f g : ν → μ) (d : Dict κ ν) (k : κ) (v : ν) (h : ∀ e ∈ d, e.1 ≠ k → g e.2 = f e.2) (hn : (keys d).Nodup) :
    (set d k v).map (fun e => (e.1, g e.2)) = set (d.map (fun e => (e.1, f e.2))) k (g v) := by
  induction d with
  | nil => rfl
  | cons x d ih =>
    obtain ⟨a, b⟩ := x
    simp only [keys, List.map_cons, List.nodup_cons] at hn
    unfold set
    split
    · next e =>
      subst e
      simp only [List.map_cons, if_true, List.cons.injEq, true_and]
      apply List.map_congr_left
      intro e he
      rw [h e (List.mem_cons_of_mem _ he)]
      intro e2
      exact hn.1 (List.mem_map.mpr ⟨e, he, e2⟩)
    · next e =>
      simp only [List.map_cons, if_neg e, h (a, b) (by simp) e]
      rw [ih (fun e he => h e (List.mem_cons_of_mem _ he)) hn.2]

theorem map_pop {μ : Type} (f : ν → μ) (d : Dict κ ν) (k : κ) :
    (pop d k).map (fun e => (e.1, f e.2)) = pop (d.map (fun e => (e.1, f e.2))) k := by
  induction d with
  | nil => rfl
  | cons x d ih =>
    obtain ⟨a, b⟩ := x
    unfold pop
    split
    · next e => simp [if_pos e]
    · next e => simp only [List.map_cons, if_neg e, ih]

theorem get?_map {μ : Type} (f : ν → μ) (d : Dict κ ν) (k : κ) : get? (d.map (fun e => (e.1, f e.2))) k = (get? d k).map f := by
  induction d with
  | nil => rfl
  | cons x d ih =>
    obtain ⟨a, b⟩ := x
    simp only [List.map_cons, get?_cons]
    split
    · rfl
    · exact ih

end Dict
end Py

namespace Model
open Py Spec
namespace AW
open ObdM

/-- The lists of `__callbacks` exist, and no two commands share one. -/
structure Heap (s : AW) : Prop where
  nodup : (Dict.keys s.cbs).Nodup
  live : ∀ k i, s.cbs.get? k = some i → i < s.lists.length
  apart : ∀ k k' i, s.cbs.get? k = some i → s.cbs.get? k' = some i → k = k'

theorem callbacks_keys (s : AW) : Dict.keys s.callbacks = Dict.keys s.cbs := by
  simp [callbacks, Dict.keys, Function.comp_def]

theorem callbacks_get (s : AW) (k : CmdKey) : s.callbacks.get? k = (s.cbs.get? k).map s.list := Dict.get?_map s.list s.cbs k

theorem callbacks_of {s s' : AW} (h1 : s'.cbs = s.cbs) (h2 : s'.lists = s.lists) : s'.callbacks = s.callbacks := by
  unfold callbacks list; rw [h1, h2]

/-- `__callbacks` and its list objects. -/
def cbl (s : AW) : Dict CmdKey Nat × List (List Nat) := (s.cbs, s.lists)

theorem cbs_of {s s' : AW} (h : s'.cbl = s.cbl) : s'.cbs = s.cbs := congrArg Prod.fst h
theorem lists_of {s s' : AW} (h : s'.cbl = s.cbl) : s'.lists = s.lists := congrArg Prod.snd h
theorem list_of {s s' : AW} (h : s'.cbl = s.cbl) (i : Nat) : s'.list i = s.list i := by unfold list; rw [lists_of h]
theorem callbacks_cbl {s s' : AW} (h : s'.cbl = s.cbl) : s'.callbacks = s.callbacks := callbacks_of (cbs_of h) (lists_of h)

theorem heap_of {s s' : AW} (h : Heap s) (h1 : s'.cbs = s.cbs) (h2 : s'.lists = s.lists) : Heap s' := by
  constructor
  · rw [h1]; exact h.1
  · rw [h1, h2]; exact h.2
  · rw [h1]; exact h.3

theorem list_newList {s : AW} (k : CmdKey) (i : Nat) : (s.newList k).list i = s.list i := by
  unfold list newList
  simp only [List.getD_eq_getElem?_getD]
  by_cases h : i < s.lists.length
  · rw [List.getElem?_append_left h]
  · rw [List.getElem?_eq_none (Nat.le_of_not_lt h)]
    by_cases h2 : i = s.lists.length
    · subst h2; simp
    · rw [List.getElem?_eq_none (by simp; omega)]

theorem newList_callbacks {s : AW} (h : Heap s) (k : CmdKey) : (s.newList k).callbacks = s.callbacks.set k [] := by
  have h0 : (s.newList k).list s.lists.length = [] := by
    rw [list_newList]; simp [list]
  rw [← h0]
  exact Dict.map_set s.list (s.newList k).list s.cbs k s.lists.length (fun e _ _ => list_newList k e.2) h.1

theorem list_setList {s : AW} {i : Nat} (l : List Nat) (h : i < s.lists.length) (j : Nat) : (s.setList i l).list j = if i = j then l else s.list j := by
  unfold list setList
  simp only [List.getD_eq_getElem?_getD, List.getElem?_set]
  split
  · next e => subst e; simp [h]
  · rfl

theorem setList_callbacks {s : AW} (h : Heap s) {k : CmdKey} {i : Nat} (hk : s.cbs.get? k = some i) (l : List Nat) :
    (s.setList i l).callbacks = s.callbacks.set k l := by
  have h1 := h.live k i hk
  have h0 : (s.setList i l).list i = l := by rw [list_setList l h1, if_pos rfl]
  have := Dict.map_set s.list (s.setList i l).list s.cbs k i (by
    intro e he hne
    rw [list_setList l h1, if_neg]
    intro e2
    exact hne (h.apart _ _ i (e2 ▸ Dict.get?_of_mem h.1 (show (e.1, e.2) ∈ s.cbs from he)) hk)) h.1
  rw [Dict.set_self hk, h0] at this
  exact this

theorem heap_newList {s : AW} (h : Heap s) (k : CmdKey) : Heap (s.newList k) := by
  constructor
  · exact Dict.keys_set_nodup _ _ _ h.1
  · intro k' i hi
    simp only [newList, Dict.get?_set, List.length_append, List.length_singleton] at hi ⊢
    split at hi
    · cases hi; omega
    · have := h.live k' i hi; omega
  · intro k1 k2 i h1 h2
    simp only [newList, Dict.get?_set] at h1 h2
    split at h1 <;> split at h2
    · next e1 e2 => exact e1.symm.trans e2
    · cases h1; exact absurd (h.live _ _ h2) (by omega)
    · cases h2; exact absurd (h.live _ _ h1) (by omega)
    · exact h.apart _ _ i h1 h2

theorem heap_setList {s : AW} (h : Heap s) (i : Nat) (l : List Nat) : Heap (s.setList i l) := by
  constructor
  · exact h.1
  · intro k' j hj; simpa [setList] using h.live k' j hj
  · exact h.3

theorem heap_pop {s s' : AW} (h : Heap s) (k : CmdKey) (h1 : s'.cbs = s.cbs.pop k) (h2 : s'.lists = s.lists) : Heap s' := by
  have hg : ∀ k' i, s'.cbs.get? k' = some i → s.cbs.get? k' = some i := by
    intro k' i hi
    rw [h1, Dict.get?_pop _ _ _ h.1] at hi
    split at hi
    · cases hi
    · exact hi
  constructor
  · rw [h1]; exact Dict.keys_pop_nodup h.1 _
  · intro k' i hi; rw [h2]; exact h.live k' i (hg _ _ hi)
  · intro k1 k2 i a b; exact h.apart _ _ i (hg _ _ a) (hg _ _ b)

theorem pop_callbacks {s s' : AW} (k : CmdKey) (h1 : s'.cbs = s.cbs.pop k) (h2 : s'.lists = s.lists) : s'.callbacks = s.callbacks.pop k := by
  have : s'.list = s.list := by funext i; unfold list; rw [h2]
  unfold callbacks
  rw [h1, this]
  exact Dict.map_pop s.list s.cbs k

structure Tables (s : AW) : Prop where
  nodupC : (Dict.keys s.commands).Nodup
  nodupB : (Dict.keys s.callbacks).Nodup
  keyed : ∀ e ∈ s.commands, e.2.1.key = e.1
  once : ∀ k l, s.callbacks.get? k = some l → l.Nodup
  heap : Heap s

/-- Every watched command has a list of callbacks. -/
def Complete (s : AW) : Prop := ∀ k ∈ Dict.keys s.commands, k ∈ Dict.keys s.callbacks

/-- The subscription of the command with key `k`. -/
def view (s : AW) (k : CmdKey) : Sub :=
  match s.commands.get? k, s.callbacks.get? k with
  | some (_, r), some l => some (l, r)
  | _, _ => none

theorem tables_emit {s : AW} {e : Ev} : Tables (s.emit e) ↔ Tables s := ⟨fun h => ⟨h.1, h.2, h.3, h.4, heap_of h.5 rfl rfl⟩, fun h => ⟨h.1, h.2, h.3, h.4, heap_of h.5 rfl rfl⟩⟩

theorem tables_of {s s' : AW} (h : Tables s) (h1 : s'.commands = s.commands) (h2 : s'.cbl = s.cbl) : Tables s' := by
  have h4 := callbacks_cbl h2
  constructor
  · rw [h1]; exact h.1
  · rw [h4]; exact h.2
  · rw [h1]; exact h.3
  · rw [h4]; exact h.4
  · exact heap_of h.5 (cbs_of h2) (lists_of h2)

theorem complete_of {s s' : AW} (h : Complete s) (h1 : s'.commands = s.commands) (h2 : s'.cbl = s.cbl) : Complete s' := by
  unfold Complete; rw [h1, callbacks_cbl h2]; exact h

theorem view_of {s s' : AW} (h1 : s'.commands = s.commands) (h2 : s'.cbl = s.cbl) (k : CmdKey) : s'.view k = s.view k := by
  unfold view; rw [h1, callbacks_cbl h2]

theorem setResponse_tables {s : AW} (h : Tables s) (c : OBDCommand) (r : Response) (s' : AW)
    (h1 : s'.commands = setResponse s.commands c r) (hb : s'.cbl = s.cbl) : Tables s' := by
  have h2 := callbacks_cbl hb
  refine ⟨?_, ?_, ?_, ?_, heap_of h.5 (cbs_of hb) (lists_of hb)⟩
  · rw [h1]; exact Dict.keys_set_nodup _ _ _ h.1
  · rw [h2]; exact h.2
  · rw [h1]
    intro e he
    rcases Dict.mem_set he with he | he
    · exact h.3 e he
    · subst he
      simp only
      split
      · next c' r' hg => exact h.3 _ (Dict.get?_mem hg)
      · rfl
  · rw [h2]; exact h.4

theorem setResponse_keys {d : Dict CmdKey (OBDCommand × Response)} {c : OBDCommand} (r : Response) (h : c.key ∈ Dict.keys d) :
    Dict.keys (setResponse d c r) = Dict.keys d := by
  unfold setResponse; rw [Dict.keys_set, if_pos h]

theorem setResponse_view {s : AW} {c : OBDCommand} {r : Response} (hC : Complete s) (h : c.key ∈ Dict.keys s.commands) (s' : AW)
    (h1 : s'.commands = setResponse s.commands c r) (hb : s'.cbl = s.cbl) (k : CmdKey) :
    s'.view k = Sub.next k (s.view k) (.stored c r) := by
  have h2 := callbacks_cbl hb
  unfold view
  rw [h1, h2]
  unfold setResponse
  rw [Dict.get?_set]
  simp only [Sub.next]
  by_cases hk : c.key = k
  · subst hk
    simp only [if_true]
    have h3 := (Dict.get?_isSome_iff _ _).mpr h
    have h4 := (Dict.get?_isSome_iff _ _).mpr (hC _ h)
    obtain ⟨⟨c', r'⟩, h5⟩ := Option.isSome_iff_exists.mp h3
    obtain ⟨l, h6⟩ := Option.isSome_iff_exists.mp h4
    rw [h5, h6]
    rfl
  · rw [if_neg hk, if_neg hk]

/-! ## changes of the tables -/

/-- What a completed change of the subscriptions does. -/
structure Changed (s s' : AW) (op : AOp) : Prop where
  tables : Tables s'
  complete : Complete s → Complete s'
  log : s'.log = s.log ++ [.did op]
  view : Complete s → (∀ c j, op = .unwatch c (some j) → ∀ l r, s.view c.key = some (l, r) → j ∈ l) → ∀ k, s'.view k = Sub.next k (s.view k) (.did op)

theorem view_some {s : AW} (hC : Complete s) {k : CmdKey} (hk : k ∈ Dict.keys s.commands) :
    ∃ c r l, s.commands.get? k = some (c, r) ∧ s.callbacks.get? k = some l ∧ s.view k = some (l, r) := by
  have h3 := (Dict.get?_isSome_iff _ _).mpr hk
  have h4 := (Dict.get?_isSome_iff _ _).mpr (hC _ hk)
  obtain ⟨⟨c', r'⟩, h5⟩ := Option.isSome_iff_exists.mp h3
  obtain ⟨l, h6⟩ := Option.isSome_iff_exists.mp h4
  exact ⟨c', r', l, h5, h6, by unfold view; rw [h5, h6]⟩

theorem view_none {s : AW} {k : CmdKey} (hk : k ∉ Dict.keys s.commands) : s.view k = none := by
  unfold view; rw [(Dict.get?_eq_none_iff _ _).mpr hk]

theorem watch_base {s : AW} (hT : Tables s) (c : OBDCommand) (force : Bool) (s1 : AW)
    (hs : s1 = (if s.commands.mem c.key then s
      else { s with commands := s.commands.set c.key (c, {}) }.newList c.key)) :
    Tables s1 ∧ (Complete s → Complete s1) ∧ s1.log = s.log ∧ c.key ∈ Dict.keys s1.commands ∧
    (Complete s → ∀ k, s1.view k = Sub.next k (s.view k) (.did (.watch c none force))) := by
  subst hs
  by_cases hm : s.commands.mem c.key = true
  · rw [if_pos hm]
    have hk := (Dict.mem_iff _ _).mp hm
    refine ⟨hT, id, rfl, hk, ?_⟩
    intro hC k
    simp only [Sub.next]
    by_cases he : c.key = k
    · subst he
      rw [if_pos rfl]
      obtain ⟨_, r, l, -, -, hv⟩ := view_some hC hk
      rw [hv]
    · rw [if_neg he]
  · rw [if_neg hm]
    have hk : c.key ∉ Dict.keys s.commands := fun h => hm ((Dict.mem_iff _ _).mpr h)
    have hH : Heap { s with commands := s.commands.set c.key (c, {}) } := heap_of hT.5 rfl rfl
    have hcb : ({ s with commands := s.commands.set c.key (c, {}) }.newList c.key).callbacks = s.callbacks.set c.key [] := newList_callbacks hH c.key
    generalize hs1 : { s with commands := s.commands.set c.key (c, {}) }.newList c.key = s1 at hcb
    have hcm : s1.commands = s.commands.set c.key (c, {}) := by subst hs1; rfl
    have hHH : Heap s1 := hs1 ▸ heap_newList hH _
    have hlg : s1.log = s.log := by subst hs1; rfl
    clear hs1
    refine ⟨⟨hcm ▸ Dict.keys_set_nodup _ _ _ hT.1, hcb ▸ Dict.keys_set_nodup _ _ _ hT.2, ?_, ?_, hHH⟩, ?_, hlg, ?_, ?_⟩
    · intro e he
      rw [hcm] at he
      rcases Dict.mem_set he with he | he
      · exact hT.3 e he
      · subst he; rfl
    · intro k l hl
      rw [hcb, Dict.get?_set] at hl
      split at hl
      · cases hl; simp
      · exact hT.4 k l hl
    · intro hC k hk
      rw [hcm, Dict.mem_keys_set] at hk
      rw [hcb, Dict.mem_keys_set]
      rcases hk with hk | hk
      · exact Or.inl hk
      · exact Or.inr (hC k hk)
    · rw [hcm, Dict.mem_keys_set]; exact Or.inl rfl
    · intro hC k
      simp only [Sub.next]
      by_cases he : c.key = k
      · subst he
        rw [if_pos rfl, view_none hk]
        unfold view; rw [hcm, hcb]; simp only [Dict.get?_set, if_true]
      · rw [if_neg he]
        unfold view; rw [hcm, hcb]; simp only [Dict.get?_set, if_neg he]

theorem next_watch (k : CmdKey) (x : Sub) (c : OBDCommand) (j : Nat) (f : Bool) :
    Sub.next k x (.did (.watch c (some j) f)) = if c.key = k then (Sub.next k x (.did (.watch c none f))).map
      (fun y => (if j ∈ y.1 then y.1 else y.1 ++ [j], y.2)) else x := by
  simp only [Sub.next]
  split
  · cases x with
    | none => simp
    | some y => obtain ⟨l, r⟩ := y; simp
  · rfl

theorem doWatch_changed {s : AW} (hT : Tables s) (c : OBDCommand) (cb : Option Nat) (force : Bool) :
    (Changed s (s.doWatch c cb force).2 (.watch c cb force)) ∨
    (Tables (s.doWatch c cb force).2 ∧ ¬ Complete s ∧ (s.doWatch c cb force).2.log = s.log) ∨ (s.doWatch c cb force).2 = s := by
  unfold doWatch
  split
  · exact Or.inr (Or.inr rfl)
  · exact Or.inr (Or.inr rfl)
  · generalize hs : (if s.commands.mem c.key then s
      else { s with commands := s.commands.set c.key (c, {}) }.newList c.key) = s1
    obtain ⟨hT1, hC1, hL, hk, hv⟩ := watch_base hT c force s1 hs.symm
    simp only
    cases cb with
    | none =>
      left
      exact ⟨tables_emit.mpr hT1, hC1, by simp [emit, hL], fun hC _ k => hv hC k⟩
    | some j =>
      simp only
      have hcg := callbacks_get s1 c.key
      cases hi : s1.cbs.get? c.key with
      | none =>
        have hg : s1.callbacks.get? c.key = none := by rw [hcg, hi]; rfl
        right; left
        refine ⟨hT1, ?_, hL⟩
        intro hC
        exact absurd (hC1 hC _ hk) ((Dict.get?_eq_none_iff _ _).mp hg)
      | some i =>
        left
        simp only
        have hg : s1.callbacks.get? c.key = some (s1.list i) := by rw [hcg, hi]; rfl
        have hset := setList_callbacks hT1.5 hi (s1.list i ++ [j])
        have hheap := heap_setList hT1.5 i (s1.list i ++ [j])
        have hscm : (s1.setList i (s1.list i ++ [j])).commands = s1.commands := rfl
        have hslg : (s1.setList i (s1.list i ++ [j])).log = s1.log := rfl
        generalize s1.setList i (s1.list i ++ [j]) = s2 at hset hheap hscm hslg ⊢
        generalize s1.list i = l at *
        split
        · next hj =>
          refine ⟨tables_emit.mpr hT1, hC1, by simp [emit, hL], ?_⟩
          intro hC _ k
          rw [next_watch, ← hv hC k]
          split
          · next he =>
            subst he
            obtain ⟨_, r, l', -, h5, h6⟩ := view_some (hC1 hC) hk
            rw [hg] at h5; cases h5
            show s1.view c.key = _
            rw [h6]; simp [hj]
          · next he => show s1.view k = _; rw [hv hC k]; simp [Sub.next, he]
        · next hj =>
          refine ⟨tables_emit.mpr ⟨hscm ▸ hT1.1, hset ▸ Dict.keys_set_nodup _ _ _ hT1.2, hscm ▸ hT1.3, ?_, hheap⟩, ?_, by simp [emit, hslg, hL], ?_⟩
          · intro k l' hl
            rw [hset, Dict.get?_set] at hl
            split at hl
            · cases hl
              have := hT1.4 _ _ hg
              rw [List.nodup_append]
              exact ⟨this, by simp, by intro a ha b hb; simp at hb; subst hb; intro e; subst e; exact hj ha⟩
            · exact hT1.4 k l' hl
          · intro hC k hk
            have hk : k ∈ Dict.keys s2.commands := hk
            show k ∈ Dict.keys s2.callbacks
            rw [hscm] at hk
            rw [hset, Dict.mem_keys_set]
            exact Or.inr (hC1 hC k hk)
          · intro hC _ k
            rw [next_watch, ← hv hC k]
            split
            · next he =>
              subst he
              obtain ⟨_, r, l', h4, h5, h6⟩ := view_some (hC1 hC) hk
              rw [hg] at h5; cases h5
              rw [h6]
              show s2.view c.key = _
              unfold view
              rw [hscm, hset, Dict.get?_set, h4]
              simp [hj]
            · next he =>
              have : s1.view k = s.view k := by rw [hv hC k]; simp [Sub.next, he]
              rw [← this]
              show s2.view k = _
              unfold view
              rw [hscm, hset, Dict.get?_set, if_neg he]

theorem doUnwatch_changed {s : AW} (hT : Tables s) (c : OBDCommand) (cb : Option Nat) :
    (Changed s (s.doUnwatch c cb).2 (.unwatch c cb)) ∨ ¬ Complete s ∧ (s.doUnwatch c cb).2 = s := by
  -- dropping the command with all callbacks
  have hdrop : ∀ s' : AW, s'.cbs = s.cbs.pop c.key → s'.lists = s.lists → s'.commands = s.commands.pop c.key →
      Tables s' ∧ (Complete s → Complete s') ∧ ∀ k, s'.view k = if c.key = k then none else s.view k := by
    intro s' hb hl h2
    have h1 := pop_callbacks c.key hb hl
    refine ⟨⟨?_, ?_, ?_, ?_, heap_pop hT.5 c.key hb hl⟩, ?_, ?_⟩
    · rw [h2]; exact Dict.keys_pop_nodup hT.1 _
    · rw [h1]; exact Dict.keys_pop_nodup hT.2 _
    · rw [h2]; intro e he; exact hT.3 e (Dict.mem_pop he)
    · rw [h1]; intro k l hl
      rw [Dict.get?_pop _ _ _ hT.2] at hl
      split at hl
      · cases hl
      · exact hT.4 k l hl
    · intro hC k hk
      rw [h2, Dict.mem_keys_pop hT.1] at hk
      rw [h1, Dict.mem_keys_pop hT.2]
      exact ⟨hk.1, hC k hk.2⟩
    · intro k
      unfold view
      rw [h1, h2, Dict.get?_pop _ _ _ hT.1, Dict.get?_pop _ _ _ hT.2]
      by_cases he : c.key = k
      · simp only [if_pos he]
      · simp only [if_neg he]
  unfold doUnwatch
  by_cases hm : s.commands.mem c.key = true
  · rw [if_pos hm]
    have hk := (Dict.mem_iff _ _).mp hm
    cases cb with
    | none =>
      left
      obtain ⟨h1, h2, h3⟩ := hdrop { s with cbs := s.cbs.pop c.key, commands := s.commands.pop c.key } rfl rfl rfl
      refine ⟨tables_emit.mpr h1, h2, rfl, ?_⟩
      intro hC _ k
      refine (h3 k).trans ?_
      simp only [Sub.next]
      split
      · cases s.view k <;> rfl
      · rfl
    | some j =>
      simp only
      have hcg := callbacks_get s c.key
      cases hi : s.cbs.get? c.key with
      | none =>
        have hg : s.callbacks.get? c.key = none := by rw [hcg, hi]; rfl
        right
        exact ⟨fun hC => absurd (hC _ hk) ((Dict.get?_eq_none_iff _ _).mp hg), rfl⟩
      | some i =>
        left
        simp only
        have hg : s.callbacks.get? c.key = some (s.list i) := by rw [hcg, hi]; rfl
        have hset1 := setList_callbacks hT.5 hi ((s.list i).erase j)
        have hheap1 := heap_setList hT.5 i ((s.list i).erase j)
        have hset2 : ({ s with commands := s.commands.pop c.key }.setList i ((s.list i).erase j)).callbacks = s.callbacks.set c.key ((s.list i).erase j) :=
          setList_callbacks (s := { s with commands := s.commands.pop c.key }) (heap_of hT.5 rfl rfl) hi _
        have hheap2 : Heap ({ s with commands := s.commands.pop c.key }.setList i ((s.list i).erase j)) :=
          heap_setList (s := { s with commands := s.commands.pop c.key }) (heap_of hT.5 rfl rfl) _ _
        have hcm1 : (s.setList i ((s.list i).erase j)).commands = s.commands := rfl
        have hcm2 : ({ s with commands := s.commands.pop c.key }.setList i ((s.list i).erase j)).commands = s.commands.pop c.key := rfl
        have hlg1 : (s.setList i ((s.list i).erase j)).log = s.log := rfl
        have hlg2 : ({ s with commands := s.commands.pop c.key }.setList i ((s.list i).erase j)).log = s.log := rfl
        generalize s.setList i ((s.list i).erase j) = s1 at hset1 hheap1 hcm1 hlg1 ⊢
        generalize { s with commands := s.commands.pop c.key }.setList i ((s.list i).erase j) = s2 at hset2 hheap2 hcm2 hlg2 ⊢
        generalize s.list i = l at *
        have hnd : ∀ k l', (s.callbacks.set c.key (l.erase j)).get? k = some l' → l'.Nodup := by
          intro k l' hl
          rw [Dict.get?_set] at hl
          split at hl
          · cases hl; exact (hT.4 _ _ hg).erase _
          · exact hT.4 k l' hl
        by_cases hj : j ∈ l
        · rw [if_pos hj]
          by_cases he : (l.erase j).isEmpty = true
          · rw [if_pos he]
            refine ⟨tables_emit.mpr ⟨hcm2 ▸ Dict.keys_pop_nodup hT.1 _, hset2 ▸ Dict.keys_set_nodup _ _ _ hT.2, hcm2 ▸ fun e he => hT.3 e (Dict.mem_pop he), hset2 ▸ hnd, hheap2⟩, ?_, by simp [emit, hlg2], ?_⟩
            · intro hC k hk
              have hk : k ∈ Dict.keys s2.commands := hk
              show k ∈ Dict.keys s2.callbacks
              rw [hcm2, Dict.mem_keys_pop hT.1] at hk
              rw [hset2, Dict.mem_keys_set]
              exact Or.inr (hC k hk.2)
            · intro hC _ k
              simp only [Sub.next]
              obtain ⟨_, r, l', h4, h5, h6⟩ := view_some hC hk
              rw [hg] at h5; cases h5
              split
              · next e =>
                subst e
                rw [h6]
                simp only [if_pos hj, List.isEmpty_iff.mp he, if_true]
                show s2.view c.key = none
                unfold view; rw [hcm2, Dict.get?_pop _ _ _ hT.1]; simp
              · next e =>
                show s2.view k = _
                unfold view; rw [hcm2, hset2, Dict.get?_pop _ _ _ hT.1, Dict.get?_set, if_neg e, if_neg e]
          · rw [if_neg he]
            refine ⟨tables_emit.mpr ⟨hcm1 ▸ hT.1, hset1 ▸ Dict.keys_set_nodup _ _ _ hT.2, hcm1 ▸ hT.3, hset1 ▸ hnd, hheap1⟩, ?_, by simp [emit, hlg1], ?_⟩
            · intro hC k hk
              have hk : k ∈ Dict.keys s1.commands := hk
              show k ∈ Dict.keys s1.callbacks
              rw [hcm1] at hk
              rw [hset1, Dict.mem_keys_set]
              exact Or.inr (hC k hk)
            · intro hC _ k
              simp only [Sub.next]
              obtain ⟨_, r, l', h4, h5, h6⟩ := view_some hC hk
              rw [hg] at h5; cases h5
              split
              · next e =>
                subst e
                rw [h6]
                simp only [if_pos hj]
                rw [if_neg (fun h => he (List.isEmpty_iff.mpr h))]
                show s1.view c.key = _
                unfold view; rw [hcm1, hset1, Dict.get?_set, h4]; simp
              · next e =>
                show s1.view k = _
                unfold view; rw [hcm1, hset1, Dict.get?_set, if_neg e]
        · rw [if_neg hj]
          obtain ⟨h1, h2, h3⟩ := hdrop { s with cbs := s.cbs.pop c.key, commands := s.commands.pop c.key } rfl rfl rfl
          refine ⟨tables_emit.mpr h1, h2, rfl, ?_⟩
          intro hC hsane k
          obtain ⟨_, r, l', h4, h5, h6⟩ := view_some hC hk
          rw [hg] at h5; cases h5
          exact absurd (hsane c j rfl l r h6) hj
  · rw [if_neg hm]
    left
    have hk : c.key ∉ Dict.keys s.commands := fun h => hm ((Dict.mem_iff _ _).mpr h)
    refine ⟨tables_emit.mpr hT, id, rfl, ?_⟩
    intro hC _ k
    show s.view k = _
    simp only [Sub.next]
    split
    · next e => subst e; rw [view_none hk]
    · rfl

/-- Every change of the tables: carried out, or refused without effect (an exception in the middle is only possible with
incomplete tables). -/
theorem doModify_changed {s : AW} (hT : Tables s) (op : AOp) :
    Changed s (s.doModify op).2 op ∨ (Tables (s.doModify op).2 ∧ ¬ Complete s ∧ (s.doModify op).2.log = s.log) ∨ (s.doModify op).2 = s := by
  unfold doModify
  split
  · exact doWatch_changed hT ..
  · rcases doUnwatch_changed hT _ _ with h | h
    · exact Or.inl h
    · exact Or.inr (Or.inr h.2)
  · left
    refine ⟨⟨by simp [doUnwatchAll, emit, Dict.keys], by simp [doUnwatchAll, emit, Dict.keys, callbacks], by simp [doUnwatchAll, emit], by simp [doUnwatchAll, emit, callbacks],
      ⟨by simp [doUnwatchAll, emit, Dict.keys], by simp [doUnwatchAll, emit], by simp [doUnwatchAll, emit]⟩⟩, ?_, rfl, ?_⟩
    · intro _ k hk; simp [doUnwatchAll, emit, Dict.keys] at hk
    · intro _ _ k; simp [doUnwatchAll, emit, view, Sub.next]
  · exact Or.inr (Or.inr rfl)

end AW
end Model
