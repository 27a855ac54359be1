import Verif.Lemmas.AsyncHist
/-!
# Calls end under fair schedules
-/
namespace Model
open Py Spec
namespace AW

/-- Steps left in a method. -/
def rank : CPc → Nat
  | .enter => 9
  | .stopNone => 8
  | .stopRun => 7
  | .stopRead => 6
  | .join _ => 5
  | .stopEnd => 4
  | .closeObd => 3
  | .exit => 9
  | .startConn => 8
  | .startLen => 7
  | .startNone => 6
  | .startRun => 5
  | .startNew => 4
  | .startGo => 3
  | .gate => 2
  | .modify => 1
  | .ask => 1
  | .power => 1

theorem callerStep_rank {dev : Device} {op : AOp} {pc : CPc} {s s' : AW} (h : s.callerStep dev op pc = some s') :
    s'.caller = .idle ∨ ∃ pc', s'.caller = .busy op pc' ∧ rank pc' < rank pc := by
  have hafter : ∀ (x : AW), (x.afterStop op).caller = .idle ∨ (x.afterStop op).caller = .busy op .closeObd := fun x => (afterStop_caller op x).1
  cases pc <;> simp only [callerStep] at h
  case stopNone =>
    cases h; split
    · rcases hafter s with h | h
      · exact Or.inl h
      · exact Or.inr ⟨_, h, by decide⟩
    · exact Or.inr ⟨_, rfl, by decide⟩
  case stopEnd =>
    cases h
    rcases hafter { s with thread := none } with h | h
    · exact Or.inl h
    · exact Or.inr ⟨_, h, by decide⟩
  all_goals repeat' split at h
  all_goals first
    | (cases h; done)
    | (cases h; exact Or.inl rfl)
    | (cases h; exact Or.inr ⟨_, rfl, by decide⟩)
    | (cases h; exact Or.inr ⟨_, rfl, by simp [rank]⟩)
    | (cases h; split <;> first | exact Or.inl rfl | exact Or.inr ⟨_, rfl, by decide⟩)

theorem callerStep_enabled (dev : Device) (op : AOp) (pc : CPc) (s : AW) (h : ∀ t, pc = .join t → s.over t = true) : s.callerStep dev op pc ≠ none := by
  cases pc <;> simp only [callerStep]
  case join t => rw [if_pos (h t rfl)]; simp
  case startGo => split <;> simp
  case stopRead => split <;> simp
  case closeObd => split <;> simp
  case modify => split <;> simp
  case ask => split <;> simp
  case power => split <;> simp
  all_goals simp

/-- A bound for the lengths of the callback lists. -/
theorem callbacks_bound (s : AW) : ∃ K, ∀ i, (s.list i).length ≤ K := by
  suffices h : ∀ d : List (List Nat), ∃ K, ∀ i, (d.getD i []).length ≤ K from h _
  intro d
  induction d with
  | nil => exact ⟨0, by simp⟩
  | cons e d ih =>
    obtain ⟨K, hK⟩ := ih
    refine ⟨max K e.length, ?_⟩
    intro i
    cases i with
    | zero => exact Nat.le_max_right _ _
    | succ i => exact Nat.le_trans (hK i) (Nat.le_max_left _ _)

/-- Steps left for an update thread once it has been told to stop; `n` commands are watched
and no list of callbacks is longer than `K`. -/
def fuel (K n : Nat) : Pc → Nat
  | .notStarted => 0
  | .finished _ => 0
  | .test => 1
  | .sleep => 2
  | .drop1 => 2
  | .drop2 => 1
  | .size => 5 + (6 + 2 * K) * n
  | .iter => 4 + (6 + 2 * K) * n
  | .next it => 3 + (6 + 2 * K) * it.rest.length
  | .conn it _ => 8 + 2 * K + (6 + 2 * K) * it.rest.length
  | .query it _ => 7 + 2 * K + (6 + 2 * K) * it.rest.length
  | .store it _ _ => 6 + 2 * K + (6 + 2 * K) * it.rest.length
  | .subs it _ _ => 5 + 2 * K + (6 + 2 * K) * it.rest.length
  | .fire it _ _ i => 4 + 2 * (K - i) + (6 + 2 * K) * it.rest.length
  | .inside it _ _ i => 5 + 2 * (K - i) + (6 + 2 * K) * it.rest.length

theorem daemonStep_fuel {dev : Device} {fl : ElmM.FloatFn} {t : Nat} {pc : Pc} {s s' : AW} {K : Nat} (hK : ∀ i, (s.list i).length ≤ K)
    (hr : s.running = false) (h : s.daemonStep dev fl t pc = some s') :
    ∃ pc', s'.threads = s.threads.set t pc' ∧ fuel K s.commands.length pc' < fuel K s.commands.length pc := by
  have two : ∀ a b : Nat, 3 ≤ 3 + a * b := fun a b => Nat.le_add_right _ _
  cases pc <;> simp only [daemonStep] at h
  case notStarted => cases h
  case finished => cases h
  case inside => cases h
  case test => rw [if_neg (by simp [hr])] at h; cases h; exact ⟨_, rfl, by simp [fuel]⟩
  case size => split at h <;> cases h <;> exact ⟨_, rfl, by simp only [fuel]; omega⟩
  case iter => cases h; exact ⟨_, rfl, by simp only [fuel, List.length_map]; omega⟩
  case next it =>
    split at h
    · cases h; exact ⟨_, rfl, by simp only [fuel]; omega⟩
    · cases hrest : it.rest with
      | nil => rw [hrest] at h; cases h; exact ⟨_, rfl, by simp only [fuel, hrest]; simp⟩
      | cons c rest =>
        rw [hrest] at h; cases h
        refine ⟨_, rfl, ?_⟩
        simp only [fuel, hrest, List.length_cons, Nat.mul_succ]; omega
  case conn it c => split at h <;> cases h <;> exact ⟨_, rfl, by simp only [fuel]; omega⟩
  case drop1 => cases h; exact ⟨_, rfl, by simp [fuel]⟩
  case drop2 => cases h; exact ⟨_, rfl, by simp [fuel]⟩
  case query it c => split at h <;> cases h <;> exact ⟨_, rfl, by simp only [fuel]; omega⟩
  case store it c r => cases h; exact ⟨_, rfl, by simp only [fuel]; omega⟩
  case subs it c r =>
    cases hg : s.cbs.get? c.key with
    | none => rw [hg] at h; cases h; exact ⟨_, rfl, by simp only [fuel]; omega⟩
    | some l =>
      rw [hg] at h; cases h
      exact ⟨_, rfl, by simp only [fuel]; omega⟩
  case fire it r l i =>
    cases hx : (s.list l)[i]? with
    | none => rw [hx] at h; cases h; exact ⟨_, rfl, by simp only [fuel]; omega⟩
    | some k =>
      rw [hx] at h; cases h
      have h1 := (List.getElem?_eq_some_iff.mp hx).1
      have h2 := hK l
      exact ⟨_, rfl, by simp only [fuel]; omega⟩
  case sleep => cases h; exact ⟨_, rfl, by simp [fuel]⟩

theorem keys_length {s s' : AW} (h : Dict.keys s'.commands = Dict.keys s.commands) : s'.commands.length = s.commands.length := by
  have := congrArg List.length h
  simpa [Dict.keys] using this

/-- While the user waits in `join`, whatever other threads do keeps the tables and lowers the
measure. -/
theorem join_step {dev : Device} {fl : ElmM.FloatFn} {s s' : AW} {a : Action} {op : AOp} {t : Nat} {K : Nat} (hI : Inv s) (hA : AnyInv s) (hB : PoliteInv s)
    (hc : s.caller = .busy op (.join t)) (hp : politeCallback s a) (hK : ∀ i, (s.list i).length ≤ K)
    (hpc : ∃ pc, s.threads[t]? = some pc ∧ Pc.active pc = true) (ha : a ≠ .caller) (h : s.step dev fl a = some s') :
    s'.caller = s.caller ∧ s'.cbl = s.cbl ∧ s'.commands.length = s.commands.length ∧
    ∀ pc, s.threads[t]? = some pc → ∃ pc', s'.threads[t]? = some pc' ∧
      (fuel K s.commands.length pc' < fuel K s.commands.length pc ∨ (pc' = pc ∧ a ≠ .daemon t ∧ ∀ ok, a ≠ .cbEnd t ok)) := by
  have hCI := hI.caller
  unfold CallerInv at hCI
  rw [hc] at hCI
  simp only at hCI
  obtain ⟨pc0, hp0, hact0⟩ := hpc
  have hlt : t < s.threads.length := hCI.2.2
  have hst : s.thread = some t := hI.act t pc0 hp0 hact0
  -- the only thread that can move is `t`
  have honly : ∀ (t' : Nat) (pc : Pc), s.threads[t']? = some pc → Pc.active pc = true → t' = t := by
    intro t' pc h1 h2
    have := hI.act t' pc h1 h2
    rw [hst] at this; cases this; rfl
  have hh := h
  unfold step at h
  cases a with
  | call o => simp only [hc] at h; cases h
  | caller => exact absurd rfl ha
  | daemon t' =>
    simp only at h
    cases hq : s.threads[t']? with
    | none => rw [hq] at h; cases h
    | some pc =>
      rw [hq] at h
      have hctl := daemonStep_ctl h
      obtain rfl := honly t' pc hq hctl.2.2.1
      obtain ⟨pc', h1, h2⟩ := daemonStep_fuel (K := K) hK hCI.1 h
      obtain ⟨pc'', h3, -, h5, h6, h7, -⟩ := daemonStep_ok hA.tables (hB.ok _ _ hq) h
      refine ⟨hctl.1, h7, keys_length h6, ?_⟩
      intro pc1 h8
      rw [hq] at h8; cases h8
      exact ⟨pc', by rw [h1, List.getElem?_set, if_pos rfl, if_pos hlt], Or.inl h2⟩
  | cb t' o =>
    simp only at h
    split at h
    · next it r rest hq =>
      obtain rfl := honly t' _ hq rfl
      obtain ⟨h1, h2, -, -⟩ := cbCall_ctl hst h
      obtain ⟨h3, h4, -, -⟩ := cbCall_polite hst hp h
      refine ⟨h1, h4, by rw [h3], ?_⟩
      intro pc h5
      exact ⟨pc, by rw [h2]; exact h5, Or.inr ⟨rfl, by simp, by simp⟩⟩
    · cases h
  | cbEnd t' ok =>
    simp only at h
    split at h
    · next it r l i hq =>
      obtain rfl := honly t' _ hq rfl
      split at h <;> cases h
      · refine ⟨rfl, rfl, rfl, ?_⟩
        intro pc h5
        rw [hq] at h5; cases h5
        refine ⟨.fire it r l i, ?_, Or.inl (by simp only [fuel]; omega)⟩
        show (s.threads.set t' _)[t']? = _
        rw [List.getElem?_set, if_pos rfl, if_pos hlt]
      · refine ⟨rfl, rfl, rfl, ?_⟩
        intro pc h5
        rw [hq] at h5; cases h5
        refine ⟨.finished .callback, ?_, Or.inl (by simp only [fuel]; omega)⟩
        show (s.threads.set t' _)[t']? = _
        rw [List.getElem?_set, if_pos rfl, if_pos hlt]
    · cases h
  | reorder t' rest =>
    obtain ⟨it, it', h1, -, h2, -⟩ := reorder_eq hh
    exact absurd (hB.ok t' _ h1).keys h2

/-- In `join`, the thread is at work or has ended. -/
theorem join_cases {s : AW} {op : AOp} {t : Nat} (hI : Inv s) (hc : s.caller = .busy op (.join t)) :
    s.over t = true ∨ ∃ pc, s.threads[t]? = some pc ∧ Pc.active pc = true := by
  have hCI := hI.caller
  unfold CallerInv at hCI
  rw [hc] at hCI
  simp only at hCI
  obtain ⟨pc, hpc⟩ : ∃ pc, s.threads[t]? = some pc := ⟨_, List.getElem?_eq_getElem hCI.2.2⟩
  cases ha : Pc.active pc with
  | true => exact Or.inr ⟨pc, hpc, ha⟩
  | false =>
    left
    cases pc <;> first | (cases ha; done) | skip
    · obtain ⟨-, o, h⟩ := hI.fresh t hpc
      rw [hc] at h; cases h
    · unfold over; rw [hpc]

/-- A thread that has ended stays so. -/
theorem over_step {dev : Device} {fl : ElmM.FloatFn} {s s' : AW} {a : Action} {op : AOp} {t : Nat} (hI : Inv s)
    (hc : s.caller = .busy op (.join t)) (ho : s.over t = true) (ha : a ≠ .caller) (h : s.step dev fl a = some s') :
    s'.caller = s.caller ∧ s'.over t = true := by
  have hq : ∃ e, s.threads[t]? = some (.finished e) := by
    unfold over at ho
    split at ho
    · next e h => exact ⟨e, h⟩
    · cases ho
  obtain ⟨e, hq⟩ := hq
  have hkeep : ∀ x : List Pc, x[t]? = s.threads[t]? → ∀ s' : AW, s'.threads = x → s'.over t = true := by
    intro x hx s' hs; unfold over; rw [hs, hx, hq]
  have hset : ∀ (t' : Nat) (pc pc' : Pc), s.threads[t']? = some pc → Pc.active pc = true → (s.threads.set t' pc')[t]? = s.threads[t]? := by
    intro t' pc pc' h1 h2
    rw [List.getElem?_set, if_neg]
    rintro rfl
    rw [hq] at h1; cases h1; cases h2
  have hh := h
  unfold step at h
  cases a with
  | call o => simp only [hc] at h; cases h
  | caller => exact absurd rfl ha
  | daemon t' =>
    simp only at h
    cases hq' : s.threads[t']? with
    | none => rw [hq'] at h; cases h
    | some pc =>
      rw [hq'] at h
      obtain ⟨h1, -, h3, pc', h4, -⟩ := daemonStep_ctl h
      exact ⟨h1, hkeep _ (hset t' pc pc' hq' h3) s' h4⟩
  | cb t' o =>
    simp only at h
    split at h
    · next it r rest hq' =>
      obtain ⟨h1, h2, -, -⟩ := cbCall_ctl (hI.act t' _ hq' rfl) h
      exact ⟨h1, hkeep _ rfl s' h2⟩
    · cases h
  | cbEnd t' ok =>
    simp only at h
    split at h
    · next it r rest hq' =>
      split at h <;> cases h
      · exact ⟨rfl, hkeep _ (hset t' _ _ hq' rfl) _ rfl⟩
      · exact ⟨rfl, hkeep _ (hset t' _ _ hq' rfl) _ rfl⟩
    · cases h
  | reorder t' rest =>
    obtain ⟨it, it', h1, -, -, rfl, -⟩ := reorder_eq hh
    exact ⟨rfl, hkeep _ (hset t' _ _ h1 rfl) _ rfl⟩

/-- Steps that are not the user's leave the user where she is. -/
theorem step_caller {dev : Device} {fl : ElmM.FloatFn} {s s' : AW} {a : Action} {op : AOp} {pc : CPc} (hI : Inv s)
    (hc : s.caller = .busy op pc) (ha : a ≠ .caller) (h : s.step dev fl a = some s') : s'.caller = s.caller := by
  have hh := h
  unfold step at h
  cases a with
  | call o => simp only [hc] at h; cases h
  | caller => exact absurd rfl ha
  | daemon t' =>
    simp only at h
    cases hq' : s.threads[t']? with
    | none => rw [hq'] at h; cases h
    | some pc => rw [hq'] at h; exact (daemonStep_ctl h).1
  | cb t' o =>
    simp only at h
    split at h
    · next it r rest hq' => exact (cbCall_ctl (hI.act t' _ hq' rfl) h).1
    · cases h
  | cbEnd t' ok =>
    simp only at h
    split at h
    · split at h <;> cases h <;> rfl
    · cases h
  | reorder t' rest =>
    obtain ⟨it, it', h1, -, -, rfl, -⟩ := reorder_eq hh
    rfl

section fair
variable {dev : Device} {fl : Str → Option PyFloat} {run : Nat → AW} {act : Nat → Action}

theorem _root_.Spec.FairRun.reach (hF : FairRun dev fl run act) (n : Nat) : AReach dev fl politeCallback (run n) := by
  induction n with
  | zero => exact hF.start
  | succ n ih => exact .step _ _ _ ih (hF.polite n) (hF.step n)

theorem not_stuck (hF : FairRun dev fl run act) (op : AOp) (pc : CPc) (n : Nat) (hc : ∀ m ≥ n, (run m).caller = .busy op pc)
    (hno : ∀ m ≥ n, act m ≠ .caller) : False := by
  have hI := fun m => areach_inv (hF.reach m)
  have hA := fun m => areach_any (hF.reach m)
  have hB := fun m => areach_polite (hF.reach m)
  -- the user could go on forever, hence does
  have key : ∀ k, n ≤ k → (∀ m ≥ k, (run m).callerStep dev op pc ≠ none) → False := by
    intro k hk h
    obtain ⟨m, hm, h1⟩ := hF.user k (by
      intro m hm
      unfold step
      simp only [hc m (by omega)]
      exact h m hm)
    exact hno m (by omega) h1
  by_cases hj : ∃ t, pc = .join t
  · obtain ⟨t, rfl⟩ := hj
    have hover : ∀ k, n ≤ k → (run k).over t = true → False := by
      intro k hk h
      have h2 : ∀ d, (run (k + d)).over t = true := by
        intro d
        induction d with
        | zero => exact h
        | succ d ih => exact (over_step (hI _) (hc _ (by omega)) ih (hno _ (by omega)) (hF.step (k + d))).2
      refine key k hk ?_
      intro m hm
      refine callerStep_enabled dev op _ _ ?_
      intro t' ht; cases ht
      obtain ⟨d, rfl⟩ := Nat.exists_eq_add_of_le hm
      exact h2 d
    have hact : ∀ m, n ≤ m → ∃ pc, (run m).threads[t]? = some pc ∧ Pc.active pc = true := by
      intro m hm
      rcases join_cases (hI m) (hc m hm) with h | h
      · exact absurd h (fun h => hover m hm h)
      · exact h
    obtain ⟨K, hK⟩ := callbacks_bound (run n)
    -- the tables stay
    have htab : ∀ d, (run (n + d)).cbl = (run n).cbl ∧ (run (n + d)).commands.length = (run n).commands.length := by
      intro d
      induction d with
      | zero => exact ⟨rfl, rfl⟩
      | succ d ih =>
        obtain ⟨-, h1, h2, -⟩ := join_step (K := K) (hI (n + d)) (hA _) (hB _) (hc _ (by omega)) (hF.polite (n + d)) (fun i => by rw [list_of ih.1]; exact hK i)
          (hact _ (by omega)) (hno _ (by omega)) (hF.step (n + d))
        exact ⟨h1.trans ih.1, h2.trans ih.2⟩
    have hone : ∀ m, n ≤ m → ∀ pc, (run m).threads[t]? = some pc → ∃ pc', (run (m + 1)).threads[t]? = some pc' ∧
        (fuel K (run n).commands.length pc' < fuel K (run n).commands.length pc ∨ (pc' = pc ∧ act m ≠ .daemon t ∧ ∀ ok, act m ≠ .cbEnd t ok)) := by
      intro m hm pc hpc
      obtain ⟨d, rfl⟩ := Nat.exists_eq_add_of_le hm
      obtain ⟨-, -, -, h3⟩ := join_step (K := K) (hI (n + d)) (hA _) (hB _) (hc _ (by omega)) (hF.polite (n + d)) (fun i => by rw [list_of (htab d).1]; exact hK i)
        (hact _ (by omega)) (hno _ (by omega)) (hF.step (n + d))
      rw [(htab d).2] at h3
      exact h3 pc hpc
    -- the measure cannot fall forever
    have hfall : ∀ f m, n ≤ m → ∀ pc, (run m).threads[t]? = some pc → fuel K (run n).commands.length pc = f → False := by
      intro f
      induction f using Nat.strongRecOn with
      | _ f ih =>
        intro m hm pc hpc hf
        obtain ⟨k, hk, hk2⟩ := hF.thread t m (fun k hk => hact k (by omega))
        -- the first step of the thread after `m`
        have hwalk : ∀ d, m + d ≤ k → (∃ i pc', n ≤ i ∧ (run i).threads[t]? = some pc' ∧ fuel K (run n).commands.length pc' < f) ∨
            (run (m + d)).threads[t]? = some pc := by
          intro d
          induction d with
          | zero => intro _; exact Or.inr hpc
          | succ d ihd =>
            intro hd
            rcases ihd (by omega) with h | h
            · exact Or.inl h
            · obtain ⟨pc', h1, h2⟩ := hone (m + d) (by omega) pc h
              rcases h2 with h2 | ⟨rfl, -⟩
              · exact Or.inl ⟨m + d + 1, pc', by omega, h1, by omega⟩
              · exact Or.inr h1
        obtain ⟨d, rfl⟩ := Nat.exists_eq_add_of_le hk
        rcases hwalk d (Nat.le_refl _) with ⟨i, pc', h1, h2, h3⟩ | h
        · exact ih _ h3 i h1 pc' h2 rfl
        · obtain ⟨pc', h1, h2⟩ := hone (m + d) (by omega) pc h
          rcases h2 with h2 | ⟨-, h3, h4⟩
          · exact ih _ (by omega) (m + d + 1) (by omega) pc' h1 rfl
          · rcases hk2 with hk2 | ⟨ok, hk2⟩
            · exact h3 hk2
            · exact h4 ok hk2
    obtain ⟨pc, hpc, -⟩ := hact n (Nat.le_refl _)
    exact hfall _ n (Nat.le_refl _) pc hpc rfl
  · refine key n (Nat.le_refl _) ?_
    intro m _
    refine callerStep_enabled dev op pc _ ?_
    intro t ht; exact absurd ⟨t, ht⟩ hj

/-- In a fair run every call ends, at a step of the user's thread in that call. -/
theorem call_ends (hF : FairRun dev fl run act) (op : AOp) (pc : CPc) (n : Nat) (hc : (run n).caller = .busy op pc) :
    ∃ m ≥ n, (∃ pc', (run m).caller = .busy op pc') ∧ act m = .caller ∧ (run (m + 1)).caller = .idle := by
  generalize hr : rank pc = r
  induction r using Nat.strongRecOn generalizing pc n with
  | _ r ih =>
    by_cases hno : ∃ m ≥ n, act m = .caller
    · -- the first step of the user
      obtain ⟨m, hm, h1⟩ := hno
      have hfirst : ∀ d, n + d ≤ m → (run (n + d)).caller = .busy op pc ∨ ∃ k ≥ n, act k = .caller ∧ (run k).caller = .busy op pc := by
        intro d
        induction d with
        | zero => intro _; exact Or.inl hc
        | succ d ihd =>
          intro hd
          rcases ihd (by omega) with h | h
          · by_cases he : act (n + d) = .caller
            · exact Or.inr ⟨n + d, by omega, he, h⟩
            · left; rw [← h]; exact step_caller (areach_inv (hF.reach (n + d))) h he (hF.step (n + d))
          · exact Or.inr h
      have : ∃ k ≥ n, act k = .caller ∧ (run k).caller = .busy op pc := by
        obtain ⟨d, rfl⟩ := Nat.exists_eq_add_of_le hm
        rcases hfirst d (Nat.le_refl _) with h | h
        · exact ⟨n + d, by omega, h1, h⟩
        · exact h
      obtain ⟨k, hk, h2, h3⟩ := this
      have hs := hF.step k
      rw [h2] at hs
      have hh := hs
      unfold step at hs
      simp only [h3] at hs
      rcases callerStep_rank hs with h4 | ⟨pc', h4, h5⟩
      · exact ⟨k, hk, ⟨pc, h3⟩, h2, h4⟩
      · obtain ⟨m', h6, h7⟩ := ih (rank pc') (by omega) pc' (k + 1) h4 rfl
        exact ⟨m', by omega, h7⟩
    · exfalso
      have hno : ∀ m ≥ n, act m ≠ .caller := by
        intro m hm h; exact hno ⟨m, hm, h⟩
      refine not_stuck hF op pc n ?_ hno
      intro m hm
      obtain ⟨d, rfl⟩ := Nat.exists_eq_add_of_le hm
      clear hm
      induction d with
      | zero => exact hc
      | succ d ihd => rw [← ihd]; exact step_caller (areach_inv (hF.reach (n + d))) ihd (hno _ (by omega)) (hF.step (n + d))

end fair

end AW
end Model
