import Verif.Lemmas.AsyncSource
/-!
# What `Async.query` can return
-/
namespace Model
open Py Spec
namespace AW

/-- A value that `query` may return for a command of key `k`: none yet, or one that was stored for such a command. -/
def Known (log : List Ev) (k : CmdKey) (r : Response) : Prop := r = {} ∨ ∃ c, c.key = k ∧ .stored c r ∈ log

theorem Known.more {log es : List Ev} {k : CmdKey} {r : Response} (h : Known log k r) : Known (log ++ es) k r := by
  rcases h with h | ⟨c, h1, h2⟩
  · exact Or.inl h
  · exact Or.inr ⟨c, h1, List.mem_append.2 (Or.inl h2)⟩

/-- All values are known, and all answers were. -/
structure KnownInv (s : AW) : Prop where
  values : ∀ k c r, s.commands.get? k = some (c, r) → Known s.log k r
  answers : ∀ a c r b, s.log = a ++ .answer c r :: b → Known a c.key r

theorem known_step {s s' : AW} (es : List Ev) (hK : KnownInv s) (hl : s'.log = s.log ++ es)
    (hv : ∀ k c r, s'.commands.get? k = some (c, r) → (∃ c', s.commands.get? k = some (c', r)) ∨ Known s'.log k r)
    (ha : ∀ c r, .answer c r ∈ es → Known s.log c.key r) : KnownInv s' where
  values := by
    intro k c r h
    rcases hv k c r h with ⟨c', h⟩ | h
    · rw [hl]; exact (hK.values k c' r h).more
    · exact h
  answers := by
    intro a c r b h
    rw [hl] at h
    rcases List.append_eq_append_iff.1 h with ⟨x, h1, h2⟩ | ⟨x, h1, h2⟩
    · -- a = s.log ++ x
      rw [h1]
      have hm : Ev.answer c r ∈ es := by rw [h2]; simp
      exact (ha c r hm).more
    · cases x with
      | nil =>
        simp only [List.nil_append] at h2
        have hm : Ev.answer c r ∈ es := by rw [← h2]; simp
        have e : a = s.log := by simpa using h1.symm
        rw [e]
        exact ha c r hm
      | cons e x =>
        simp only [List.cons_append, List.cons.injEq] at h2
        rw [← h2.1] at h1
        exact hK.answers a c r x h1

/-- What a change of the subscriptions does to the values. -/
theorem modify_known {s : AW} (hT : Tables s) (op : AOp) : ∃ es, (s.doModify op).2.log = s.log ++ es ∧ (∀ c r, .answer c r ∉ es) ∧
    ∀ k c r, (s.doModify op).2.commands.get? k = some (c, r) → (∃ c', s.commands.get? k = some (c', r)) ∨ r = {} := by
  have same : ∀ k c r, s.commands.get? k = some (c, r) → (∃ c', s.commands.get? k = some (c', r)) ∨ r = {} := fun k c r h => Or.inl ⟨c, h⟩
  have hpop : ∀ k0 k c r, (s.commands.pop k0).get? k = some (c, r) → (∃ c', s.commands.get? k = some (c', r)) ∨ r = {} := by
    intro k0 k c r h
    rw [Dict.get?_pop _ _ _ hT.nodupC] at h
    split at h
    · cases h
    · exact Or.inl ⟨c, h⟩
  have hset : ∀ c0 k c r, (s.commands.set c0.key (c0, {})).get? k = some (c, r) → (∃ c', s.commands.get? k = some (c', r)) ∨ r = {} := by
    intro c0 k c r h
    rw [Dict.get?_set] at h
    split at h
    · cases h; exact Or.inr rfl
    · exact Or.inl ⟨c, h⟩
  cases op with
  | watch c cb force =>
    simp only [doModify, doWatch]
    repeat' split
    all_goals first
      | exact ⟨[], (List.append_nil _).symm, by simp, same⟩
      | exact ⟨[], (List.append_nil _).symm, by simp, hset c⟩
      | exact ⟨[_], rfl, by simp, same⟩
      | exact ⟨[_], rfl, by simp, hset c⟩
  | unwatch c cb =>
    simp only [doModify, doUnwatch]
    repeat' split
    all_goals first
      | exact ⟨[], (List.append_nil _).symm, by simp, same⟩
      | exact ⟨[_], rfl, by simp, same⟩
      | exact ⟨[_], rfl, by simp, hpop c.key⟩
  | unwatchAll =>
    refine ⟨[.did .unwatchAll], rfl, by simp, ?_⟩
    intro k c r h
    cases h
  | _ => exact ⟨[], by simp [doModify], by simp, same⟩

theorem areach_known {dev : Device} {fl : Str → Option PyFloat} {ok : AW → Action → Prop} {s : AW} (h : AReach dev fl ok s) : KnownInv s := by
  induction h with
  | init a o h => exact ⟨fun k c r h => (by cases h), fun a c r b h => (by simp at h)⟩
  | step s a s' h _ hs ih =>
    have hT : Tables s := (areach_any h).tables
    unfold step at hs
    have same : ∀ es, s'.log = s.log ++ es → s'.commands = s.commands → (∀ c r, .answer c r ∉ es) → KnownInv s' := by
      intro es h1 h2 h3
      exact known_step es ih h1 (fun k c r h => Or.inl ⟨c, by rw [← h2]; exact h⟩) (fun c r h => absurd h (h3 c r))
    cases a with
    | call op =>
      simp only at hs
      cases hc : s.caller with
      | busy o p => rw [hc] at hs; cases hs
      | idle => rw [hc] at hs; cases hs; exact same [.call op] rfl rfl (by simp)
    | caller =>
      simp only at hs
      cases hc : s.caller with
      | idle => rw [hc] at hs; cases hs
      | busy op pc =>
        rw [hc] at hs
        cases pc <;> simp only [callerStep] at hs
        case modify =>
          obtain ⟨es, h1, h2, h3⟩ := modify_known hT op
          cases hm : s.doModify op with
          | mk out s1 =>
            rw [hm] at hs h1 h3
            cases out with
            | ok _ =>
              cases hs
              refine known_step (es ++ [.ret op]) ih (by show s1.log ++ _ = _; rw [show s1.log = s.log ++ es from h1, List.append_assoc]) ?_ ?_
              · intro k c r h
                rcases h3 k c r h with h | h
                · exact Or.inl h
                · exact Or.inr (Or.inl h)
              · intro c r h
                rcases List.mem_append.1 h with h | h
                · exact absurd h (h2 c r)
                · simp at h
            | error x =>
              cases hs
              refine known_step (es ++ [.raised op x]) ih (by show s1.log ++ _ = _; rw [show s1.log = s.log ++ es from h1, List.append_assoc]) ?_ ?_
              · intro k c r h
                rcases h3 k c r h with h | h
                · exact Or.inl h
                · exact Or.inr (Or.inl h)
              · intro c r h
                rcases List.mem_append.1 h with h | h
                · exact absurd h (h2 c r)
                · simp at h
        case ask =>
          cases op with
          | query c =>
            cases hs
            refine known_step [.answer c (s.lookup c), .ret (.query c)] ih (by simp [ret, emit]) (fun k c r h => Or.inl ⟨c, h⟩) ?_
            intro c' r' h
            simp only [List.mem_cons, Ev.answer.injEq, reduceCtorEq, List.not_mem_nil, or_false] at h
            obtain ⟨rfl, rfl⟩ := h
            unfold lookup
            split
            · next x r hg => exact ih.values _ _ _ hg
            · exact Or.inl rfl
          | _ => cases hs; exact same [_] rfl rfl (by simp)
        all_goals
          (try simp only [Option.some.injEq] at hs)
          repeat' (split at hs)
          all_goals first
            | (cases hs; done)
            | (cases hs; exact same [] (List.append_nil _).symm rfl (by simp))
            | (cases hs; exact same [_] rfl rfl (by simp))
            | (cases hs; exact same [_, _] (by simp [ret, emit, setPc]; constructor <;> rfl) rfl (by simp))
            | (cases hs; cases op <;> first
                | exact same [] (List.append_nil _).symm rfl (by simp)
                | exact same [_] rfl rfl (by simp))
    | daemon t =>
      simp only at hs
      cases hq : s.threads[t]? with
      | none => rw [hq] at hs; cases hs
      | some pc =>
        rw [hq] at hs
        cases pc <;> simp only [daemonStep] at hs
        case store it c r =>
          cases hs
          refine known_step [.stored c r] ih rfl ?_ (by simp)
          intro k c' r' h
          have h : (setResponse s.commands c r).get? k = some (c', r') := h
          unfold setResponse at h
          rw [Dict.get?_set] at h
          split at h
          · next hk =>
            right; right
            refine ⟨c, hk, ?_⟩
            have hr : r' = r := by split at h <;> cases h <;> rfl
            rw [hr]
            show Ev.stored c r ∈ s.log ++ [.stored c r]
            simp
          · exact Or.inl ⟨c', h⟩
        all_goals
          repeat' (split at hs)
          all_goals first
            | (cases hs; done)
            | (cases hs; exact same [] (List.append_nil _).symm rfl (by simp))
            | (cases hs; exact same [_] rfl rfl (by simp))
            | (cases hs; exact same [_, _] (by simp [setPc, emit]; constructor <;> rfl) rfl (by simp))
    | cb t o =>
      simp only at hs
      split at hs
      · next it r rest hq =>
        have hstop : ∀ x : AW, x.log = s.log → x.commands = s.commands → cbStop t x = some s' → KnownInv s' := by
          intro x h1 h2 h3
          unfold cbStop at h3
          repeat' (split at h3)
          all_goals first
            | (cases h3; done)
            | (cases h3; exact same [] (by simpa using h1) h2 (by simp))
        have hstart : s.cbStart = s' → KnownInv s' := by
          intro h3
          unfold cbStart at h3
          split at h3 <;> subst h3
          · exact same [_] rfl rfl (by simp)
          · exact same [] (List.append_nil _).symm rfl (by simp)
        have hmod : (if s.running then s else (s.doModify o).2) = s' → KnownInv s' := by
          intro h3
          split at h3
          · subst h3; exact same [] (List.append_nil _).symm rfl (by simp)
          · obtain ⟨es, h1, h2, h4⟩ := modify_known hT o
            rw [h3] at h1 h4
            refine known_step es ih h1 ?_ (fun c r h => absurd h (h2 c r))
            intro k c r h
            rcases h4 k c r h with h | h
            · exact Or.inl h
            · exact Or.inr (Or.inl h)
        cases o <;> simp only [cbCall, Option.some.injEq] at hs
        case start => exact hstart hs
        case stop => exact hstop _ rfl rfl hs
        case enter => exact hstop { s with wasRunning := s.running } rfl rfl hs
        case exit =>
          split at hs
          · exact hstart hs
          · subst hs; exact same [] (List.append_nil _).symm rfl (by simp)
        case close =>
          split at hs
          · cases hs; exact same [] (List.append_nil _).symm rfl (by simp)
          · exact hstop _ rfl rfl hs
        case watch => exact hmod hs
        case unwatch => exact hmod hs
        case unwatchAll => exact hmod hs
        all_goals subst hs; exact same [] (List.append_nil _).symm rfl (by simp)
      · cases hs
    | cbEnd t ok =>
      simp only at hs
      split at hs
      · split at hs <;> cases hs
        · exact same [] (by simp [setPc]) rfl (by simp)
        · exact same [_] rfl rfl (by simp)
      · cases hs
    | reorder t rest =>
      simp only at hs
      split at hs
      · split at hs <;> cases hs
        exact same [] (by simp [setPc]) rfl (by simp)
      · cases hs

end AW
end Model
