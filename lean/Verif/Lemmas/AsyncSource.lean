import Verif.Lemmas.AsyncPause
/-!
# Where responses come from; playing schedules
-/
namespace Model
open Py Spec
namespace AW

/-- Some query of `c` in a reachable state gave `r`. -/
def FromQuery (dev : Device) (fl : Str → Option PyFloat) (ok : AW → Action → Prop) (c : OBDCommand) (r : Response) : Prop :=
  ∃ s0, AReach dev fl ok s0 ∧ (ObdM.query dev fl c true s0.obd).1 = .ok r

structure SourceInv (dev : Device) (fl : Str → Option PyFloat) (ok : AW → Action → Prop) (s : AW) : Prop where
  store : ∀ (t : Nat) it c r, s.threads[t]? = some (.store it c r) → FromQuery dev fl ok c r
  log : ∀ c r, .stored c r ∈ s.log → FromQuery dev fl ok c r

theorem source_same {dev : Device} {fl : Str → Option PyFloat} {ok : AW → Action → Prop} {s s' : AW} {es : List Ev} (hS : SourceInv dev fl ok s)
    (hl : s'.log = s.log ++ es) (he : ∀ c r, .stored c r ∉ es)
    (ht : ∀ (t : Nat) it c r, s'.threads[t]? = some (.store it c r) → s.threads[t]? = some (.store it c r)) : SourceInv dev fl ok s' where
  store := fun t it c r h => hS.store t it c r (ht t it c r h)
  log := by
    intro c r h
    rw [hl] at h
    rcases List.mem_append.mp h with h | h
    · exact hS.log c r h
    · exact absurd h (he c r)

theorem daemon_source {dev : Device} {fl : Str → Option PyFloat} {ok : AW → Action → Prop} {s s' : AW} {t : Nat} {pc : Pc} (hR : AReach dev fl ok s)
    (hS : SourceInv dev fl ok s) (hq : s.threads[t]? = some pc) (h : s.daemonStep dev fl t pc = some s') : SourceInv dev fl ok s' := by
  have hset : ∀ (pc' : Pc), (∀ it c r, pc' ≠ .store it c r) → ∀ (t' : Nat) it c r, (s.threads.set t pc')[t']? = some (.store it c r) →
      s.threads[t']? = some (.store it c r) := by
    intro pc' hne t' it c r h
    rcases set_get h with ⟨-, h⟩ | ⟨-, h⟩
    · exact absurd h.symm (hne it c r)
    · exact h
  cases pc <;> simp only [daemonStep] at h
  case notStarted => cases h
  case finished => cases h
  case inside => cases h
  case query it c =>
    split at h
    · next r o hqr =>
      cases h
      constructor
      · intro t' it' c' r' h
        rcases set_get h with ⟨-, h⟩ | ⟨-, h⟩
        · cases h; exact ⟨s, hR, by rw [hqr]⟩
        · exact hS.store t' it' c' r' h
      · intro c' r' h
        have h : Ev.stored c' r' ∈ s.log ++ [.queried c] := h
        exact hS.log c' r' (by simpa using h)
    · next x o hqr =>
      cases h
      exact source_same (es := [.queried c, .ended (.query x)]) hS (by simp [emit, setPc]) (by simp) (hset _ (by simp))
  case store it c r =>
    cases h
    constructor
    · intro t' it' c' r' h
      rcases set_get h with ⟨-, h⟩ | ⟨-, h⟩
      · cases h
      · exact hS.store t' it' c' r' h
    · intro c' r' h
      have h : Ev.stored c' r' ∈ s.log ++ [.stored c r] := h
      rcases List.mem_append.mp h with h | h
      · exact hS.log c' r' h
      · simp at h; obtain ⟨rfl, rfl⟩ := h
        exact hS.store t it _ _ hq
  case next it =>
    split at h
    · cases h; exact source_same (es := [.ended .listChanged]) hS rfl (by simp) (hset _ (by simp))
    · split at h <;> cases h
      · exact source_same (es := [.slept]) hS rfl (by simp) (hset _ (by simp))
      · exact source_same (es := []) hS (by simp [setPc]) (by simp) (hset _ (by simp))
  case test => split at h <;> cases h; exacts [source_same (es := []) hS (by simp [setPc]) (by simp) (hset _ (by simp)), source_same (es := [.ended .returned]) hS rfl (by simp) (hset _ (by simp))]
  case size => split at h <;> cases h; exacts [source_same (es := []) hS (by simp [setPc]) (by simp) (hset _ (by simp)), source_same (es := [.slept]) hS rfl (by simp) (hset _ (by simp))]
  case conn => split at h <;> cases h; exacts [source_same (es := []) hS (by simp [setPc]) (by simp) (hset _ (by simp)), source_same (es := []) hS (by simp [setPc]) (by simp) (hset _ (by simp))]
  case subs => split at h <;> cases h; exacts [source_same (es := [.ended .missing]) hS rfl (by simp) (hset _ (by simp)), source_same (es := []) hS (by simp [setPc]) (by simp) (hset _ (by simp))]
  case fire => split at h <;> cases h; exacts [source_same (es := []) hS (by simp [setPc]) (by simp) (hset _ (by simp)), source_same (es := [.fired _ _]) hS rfl (by simp) (hset _ (by simp))]
  case drop2 => cases h; exact source_same (es := [.ended .returned]) hS rfl (by simp) (hset _ (by simp))
  all_goals cases h; exact source_same (es := []) hS (by simp [setPc]) (by simp) (hset _ (by simp))

theorem areach_source {dev : Device} {fl : Str → Option PyFloat} {ok : AW → Action → Prop} {s : AW} (h : AReach dev fl ok s) : SourceInv dev fl ok s := by
  induction h with
  | init a o h => exact ⟨by simp, by simp⟩
  | step s a s' h _ hs ih =>
    have hI := areach_inv h
    have hlog := step_log hs
    have hh := hs
    unfold step at hs
    cases a with
    | call op =>
      simp only at hs
      cases hc : s.caller with
      | busy o p => rw [hc] at hs; cases hs
      | idle => rw [hc] at hs; cases hs; exact source_same (es := [.call op]) ih rfl (by simp) (fun t it c r h => h)
    | caller =>
      simp only at hs
      cases hc : s.caller with
      | idle => rw [hc] at hs; cases hs
      | busy op pc =>
        rw [hc] at hs
        obtain ⟨pre, fin, h1, h2, h3⟩ := callerStep_log hs
        refine source_same ih h1 ?_ ?_
        · intro c r hm
          rcases List.mem_append.mp hm with hm | hm
          · exact absurd (h2 _ hm) (by simp [Mid])
          · rcases h3 with ⟨rfl, -⟩ | ⟨-, rfl | ⟨y, rfl, -⟩⟩ <;> simp at hm
        · intro t it c r ht
          rcases callerStep_threads hs with ⟨h4, -⟩ | ⟨-, h4, -⟩ | ⟨-, t', -, h4, -⟩
          · rw [← h4]; exact ht
          · rw [h4] at ht
            rcases append_get ht with ht | ⟨-, ht⟩
            · exact ht
            · cases ht
          · rw [h4] at ht
            rcases set_get ht with ⟨-, ht⟩ | ⟨-, ht⟩
            · cases ht
            · exact ht
    | daemon t =>
      simp only at hs
      cases hq : s.threads[t]? with
      | none => rw [hq] at hs; cases hs
      | some pc => rw [hq] at hs; exact daemon_source h ih hq hs
    | cb t o =>
      simp only at hs
      split at hs
      · next it r rest hq =>
        obtain ⟨es, h1, h2⟩ := cbCall_log hs
        obtain ⟨-, h3, -, -⟩ := cbCall_ctl (hI.act t _ hq rfl) hs
        refine source_same ih h1 ?_ (by rw [h3]; exact fun _ _ _ _ h => h)
        intro c r hm; exact absurd (h2 _ hm) (by simp [FromCb])
      · cases hs
    | cbEnd t ok =>
      simp only at hs
      split at hs
      · next it r rest hq =>
        have hset : ∀ (pc' : Pc), (∀ it c r, pc' ≠ .store it c r) → ∀ (t' : Nat) it c r, (s.threads.set t pc')[t']? = some (.store it c r) →
            s.threads[t']? = some (.store it c r) := by
          intro pc' hne t' it c r h
          rcases set_get h with ⟨-, h⟩ | ⟨-, h⟩
          · exact absurd h.symm (hne it c r)
          · exact h
        split at hs <;> cases hs
        · exact source_same (es := []) ih (by simp [setPc]) (by simp) (hset _ (by simp))
        · exact source_same (es := [.ended .callback]) ih rfl (by simp) (hset _ (by simp))
      · cases hs
    | reorder t rest =>
      obtain ⟨it, it', h1, -, -, rfl, -⟩ := reorder_eq hh
      refine source_same (es := []) ih (by simp [setPc]) (by simp) ?_
      intro t' it c r h
      rcases set_get h with ⟨-, h⟩ | ⟨-, h⟩
      · cases h
      · exact h

/-! ## playing a schedule -/

/-- The state after a schedule, if all its actions are possible. -/
def play (dev : Device) (fl : Str → Option PyFloat) : AW → List Action → Option AW
  | s, [] => some s
  | s, a :: as => match s.step dev fl a with
    | none => none
    | some s' => play dev fl s' as

/-- No action of a callback. -/
def noCb : List Action → Bool
  | [] => true
  | .cb .. :: _ => false
  | _ :: as => noCb as

theorem polite_of_noCb {s : AW} {a : Action} (h : noCb [a] = true) : politeCallback s a := by
  cases a <;> first | trivial | (cases h; done)

theorem arun_cons {dev : Device} {fl : Str → Option PyFloat} {ok : AW → Action → Prop} {s s1 s' : AW} {a : Action} {as : List Action} (hok : ok s a)
    (hs : s.step dev fl a = some s1) (h : ARun dev fl ok s1 as s') : ARun dev fl ok s (a :: as) s' := by
  induction h with
  | nil => exact ARun.snoc _ [] _ a _ (.nil _) hok hs
  | snoc as s2 a2 s3 _ hok2 hs2 ih => exact ARun.snoc _ (a :: as) s2 a2 s3 ih hok2 hs2

theorem play_run {dev : Device} {fl : Str → Option PyFloat} {ok : AW → Action → Prop} {s s' : AW} {as : List Action}
    (hok : ∀ a ∈ as, ∀ x, ok x a) (h : play dev fl s as = some s') : ARun dev fl ok s as s' := by
  induction as generalizing s with
  | nil => cases h; exact .nil _
  | cons a as ih =>
    simp only [play] at h
    cases hs : s.step dev fl a with
    | none => rw [hs] at h; cases h
    | some s1 =>
      rw [hs] at h
      exact arun_cons (hok a (by simp) s) hs (ih (fun b hb => hok b (by simp [hb])) h)

theorem noCb_mem {as : List Action} (h : noCb as = true) : ∀ a ∈ as, ∀ x, politeCallback x a := by
  induction as with
  | nil => simp
  | cons b as ih =>
    have h2 : noCb as = true ∧ noCb [b] = true := by
      cases b <;> first | exact ⟨h, rfl⟩ | (cases h; done)
    intro a ha x
    rcases List.mem_cons.mp ha with rfl | ha
    · exact polite_of_noCb h2.2
    · exact ih h2.1 a ha x

theorem play_polite {dev : Device} {fl : Str → Option PyFloat} {s s' : AW} {as : List Action} (hn : noCb as = true) (h : play dev fl s as = some s') :
    ARun dev fl politeCallback s as s' := play_run (noCb_mem hn) h

theorem play_any {dev : Device} {fl : Str → Option PyFloat} {s s' : AW} {as : List Action} (h : play dev fl s as = some s') :
    ARun dev fl anyCallback s as s' := play_run (fun _ _ _ => trivial) h

theorem play_append {dev : Device} {fl : Str → Option PyFloat} {s : AW} {as bs : List Action} :
    play dev fl s (as ++ bs) = (play dev fl s as).bind (fun x => play dev fl x bs) := by
  induction as generalizing s with
  | nil => rfl
  | cons a as ih =>
    simp only [List.cons_append, play]
    cases s.step dev fl a with
    | none => rfl
    | some s1 => exact ih

/-! ## fair runs exist -/

/-- Every schedule that ends between two calls with no thread at work is the beginning of a fair run. -/
theorem fair_exists {dev : Device} {fl : Str → Option PyFloat} {s s' : AW} {as : List Action} (hR : AReach dev fl politeCallback s) (hn : noCb as = true)
    (h : play dev fl s as = some s') (hi : s'.caller = .idle) (hq : s'.thread = none) :
    ∃ run act, FairRun dev fl run act ∧ run 0 = s ∧ ∀ i (hi : i < as.length), act i = as[i] := by
  let q : AOp := .query { name := "", desc := "", command := [], bytes := 0, decode := .drop }
  -- the schedule, then one query after the other
  let act : Nat → Action := fun n => if hl : n < as.length then as[n] else if (n - as.length) % 2 = 0 then .call q else .caller
  let run : Nat → AW := fun n => Nat.rec s (fun n x => (x.step dev fl (act n)).getD x) n
  have hrun : ∀ n, run (n + 1) = ((run n).step dev fl (act n)).getD (run n) := fun n => rfl
  -- the beginning
  have hpre : ∀ n, n ≤ as.length → play dev fl s (as.take n) = some (run n) ∧ (∀ i < n, (run i).step dev fl (act i) = some (run (i + 1))) := by
    intro n
    induction n with
    | zero => intro _; exact ⟨rfl, by simp⟩
    | succ n ih =>
      intro hl
      obtain ⟨h1, h2⟩ := ih (by omega)
      have ha : act n = as[n] := by simp only [act]; rw [dif_pos (by omega)]
      have h3 : as.take (n + 1) = as.take n ++ [as[n]] := by rw [List.take_add_one]; simp [List.getElem?_eq_getElem (show n < as.length by omega)]
      have h4 : ∃ x, (run n).step dev fl as[n] = some x := by
        have h5 : as = as.take n ++ (as[n] :: as.drop (n + 1)) := by
          rw [List.getElem_cons_drop]; exact (List.take_append_drop n as).symm
        rw [h5, play_append, h1] at h
        simp only [Option.bind_some, play] at h
        cases hx : (run n).step dev fl as[n] with
        | none => rw [hx] at h; cases h
        | some x => exact ⟨x, rfl⟩
      obtain ⟨x, h4⟩ := h4
      have h5 : run (n + 1) = x := by rw [hrun, ha, h4]; rfl
      refine ⟨?_, ?_⟩
      · rw [h3, play_append, h1]
        simp only [Option.bind_some, play, h4, h5]
      · intro i hi'
        rcases Nat.lt_or_ge i n with h6 | h6
        · exact h2 i h6
        · have : i = n := by omega
          subst this
          rw [ha, h4, h5]
  have hend : run as.length = s' := by
    have := (hpre as.length (Nat.le_refl _)).1
    rw [List.take_length, h] at this
    cases this; rfl
  -- the rest
  have hpost : ∀ k, ((run (as.length + 2 * k)).caller = .idle ∧ (run (as.length + 2 * k)).thread = none) ∧
      (run (as.length + 2 * k)).step dev fl (act (as.length + 2 * k)) = some (run (as.length + 2 * k + 1)) ∧
      (run (as.length + 2 * k + 1)).step dev fl (act (as.length + 2 * k + 1)) = some (run (as.length + 2 * k + 2)) ∧
      (run (as.length + 2 * k + 1)).thread = none ∧ ((run (as.length + 2 * k + 2)).caller = .idle ∧ (run (as.length + 2 * k + 2)).thread = none) := by
    have key : ∀ k, (run (as.length + 2 * k)).caller = .idle ∧ (run (as.length + 2 * k)).thread = none →
        (run (as.length + 2 * k)).step dev fl (act (as.length + 2 * k)) = some (run (as.length + 2 * k + 1)) ∧
        (run (as.length + 2 * k + 1)).step dev fl (act (as.length + 2 * k + 1)) = some (run (as.length + 2 * k + 2)) ∧
        (run (as.length + 2 * k + 1)).thread = none ∧ ((run (as.length + 2 * k + 2)).caller = .idle ∧ (run (as.length + 2 * k + 2)).thread = none) := by
      intro k ⟨h1, h2⟩
      have a1 : act (as.length + 2 * k) = .call q := by
        simp only [act]; rw [dif_neg (by omega), if_pos (by omega)]
      have a2 : act (as.length + 2 * k + 1) = .caller := by
        simp only [act]; rw [dif_neg (by omega), if_neg (by omega)]
      have s1 : (run (as.length + 2 * k)).step dev fl (.call q) = some (((run (as.length + 2 * k)).goto q .ask).emit (.call q)) := by
        unfold step; simp only [h1]; rfl
      have r1 : run (as.length + 2 * k + 1) = ((run (as.length + 2 * k)).goto q .ask).emit (.call q) := by
        rw [hrun, a1, s1]; rfl
      obtain ⟨y, s2, hy1, hy2⟩ : ∃ y, (run (as.length + 2 * k + 1)).step dev fl .caller = some y ∧ y.caller = .idle ∧ y.thread = none := by
        rw [r1]; exact ⟨_, rfl, rfl, h2⟩
      have r2 : run (as.length + 2 * k + 2) = y := by
        rw [hrun (as.length + 2 * k + 1), a2, s2]; rfl
      refine ⟨by rw [a1, s1, r1], by rw [a2, s2, r2], by rw [r1]; exact h2, ?_⟩
      rw [r2]; exact ⟨hy1, hy2⟩
    intro k
    have hk : (run (as.length + 2 * k)).caller = .idle ∧ (run (as.length + 2 * k)).thread = none := by
      induction k with
      | zero => rw [Nat.mul_zero, Nat.add_zero, hend]; exact ⟨hi, hq⟩
      | succ k ih => exact (key k ih).2.2.2
    exact ⟨hk, key k hk⟩
  have hstep : ∀ n, (run n).step dev fl (act n) = some (run (n + 1)) := by
    intro n
    rcases Nat.lt_or_ge n as.length with h1 | h1
    · exact (hpre as.length (Nat.le_refl _)).2 n h1
    · obtain ⟨d, rfl⟩ := Nat.exists_eq_add_of_le h1
      have hd : d = 2 * (d / 2) ∨ d = 2 * (d / 2) + 1 := by omega
      rcases hd with hd | hd
      · rw [hd]; exact (hpost (d / 2)).2.1
      · rw [hd]; exact (hpost (d / 2)).2.2.1
  have hpol : ∀ n, politeCallback (run n) (act n) := by
    intro n
    simp only [act]
    split
    · exact noCb_mem hn _ (List.getElem_mem _) _
    · split <;> trivial
  have hreach : ∀ n, AReach dev fl politeCallback (run n) := by
    intro n
    induction n with
    | zero => exact hR
    | succ n ih => exact .step _ _ _ ih (hpol n) (hstep n)
  refine ⟨run, act, ⟨hR, hpol, hstep, ?_, ?_⟩, rfl, ?_⟩
  · intro n _
    refine ⟨as.length + 2 * n + 1, by omega, ?_⟩
    simp only [act]; rw [dif_neg (by omega), if_neg (by omega)]
  · intro t n hA
    exfalso
    obtain ⟨pc, h1, h2⟩ := hA (as.length + 2 * n) (by omega)
    have := noactive (areach_inv (hreach _)) (hpost n).1.2 t pc h1
    rw [this] at h2; cases h2
  · intro i hi
    simp only [act]; rw [dif_pos hi]

end AW
end Model
