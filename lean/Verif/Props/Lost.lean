import Verif.Lemmas.AsyncLost
import Verif.Props.Async
/-!
# A lost connection ends the update loop (C104)
-/
namespace Props
open Py Model Spec AW ObdM

/-- Once `is_connected()` is False it stays so, and whatever the user and callbacks do the loop makes at most one further query (the one it was about to
make) and stores at most one further response. -/
theorem C104_quiet (dev : Device) (fl : Str → Option PyFloat) (s s' : AW) (as : List Action) (h : AReach dev fl anyCallback s)
    (hc : isConnected s.obd = false) (hr : ARun dev fl anyCallback s as s') :
    isConnected s'.obd = false ∧ ∃ new, s'.log = s.log ++ new ∧ queries new ≤ 1 ∧ responses new ≤ 1 := by
  obtain ⟨h1, new, h2, h3, h4, -⟩ := lost_run h hc hr
  refine ⟨h1, new, h2, ?_, ?_⟩
  · refine Nat.le_trans (Nat.le_of_eq ?_) h3
    exact List.countP_congr (fun e _ => by cases e <;> simp [isQueried])
  · refine Nat.le_trans (Nat.le_of_eq ?_) h4
    exact List.countP_congr (fun e _ => by cases e <;> simp [isStored])

/-- Once the line is lost nothing is done with the port any more, by the loop, the user or a callback. -/
theorem C104_silent (dev : Device) (fl : Str → Option PyFloat) (s s' : AW) (as : List Action) (h : AReach dev fl anyCallback s)
    (hc : status s.obd = .notConnected) (hr : ARun dev fl anyCallback s as s') : s'.obd.hist = s.obd.hist :=
  (silent_run h hc hr).1

/-- In every fair run with polite callbacks the loop ends after the connection was lost, and is not started again; it does not count as running any
more, unless it ended with an exception of a query or a callback. -/
theorem C104_ends (dev : Device) (fl : Str → Option PyFloat) (run : Nat → AW) (act : Nat → Action) (h : FairRun dev fl run act) (n : Nat)
    (hc : isConnected (run n).obd = false) :
    ∃ m ≥ n, ∀ k ≥ m, (∀ t, ¬ Active (run k) t) ∧
      ((run k).running = false ∨ lastEnd (run k).log = some .callback ∨ ∃ x, lastEnd (run k).log = some (.query x)) := by
  obtain ⟨m, hm, h1⟩ := lost_ends h hc
  refine ⟨m, hm, fun k hk => ⟨(h1 k hk).2, ?_⟩⟩
  obtain ⟨h2, h3⟩ := h1 k hk
  cases hr : (run k).running with
  | false => exact Or.inl rfl
  | true =>
    right
    rcases areach_runs (h.reach k) hr with ⟨t, ht⟩ | ⟨op, ho | ho⟩ | ⟨e, he, hl⟩
    · exact absurd ht (h3 t)
    · have := h2 _ _ ho; cases this
    · have := h2 _ _ ho; cases this
    · have hm := lastEnd_mem hl
      have hf := (areach_polite (h.reach k)).fine
      cases e with
      | returned => exact absurd rfl he
      | listChanged => exact absurd hm hf.1
      | missing => exact absurd hm hf.2
      | query x => exact Or.inr ⟨x, hl⟩
      | callback => exact Or.inl hl

/-- The adapter is unplugged while the loop runs, and the loop notices. -/
def unplugging : List Action := (.call (.watch rpmCommand none true) :: user 2) ++ startUp ++ loop 29

theorem laterAsync_reach (ok : AW → Action → Prop) : AReach unpluggedLater fl0 ok laterAsync := .init _ _ later_constructed

/-- A run in which the line is lost while the loop is at work, and one more response (a null response) is stored. -/
example : ∃ s s' as, AReach unpluggedLater fl0 anyCallback s ∧ isConnected s.obd = false ∧ status s.obd = .notConnected ∧ Active s 0 ∧
    ARun unpluggedLater fl0 anyCallback s as s' ∧ responses s'.log = responses s.log + 1 := by
  have h1 : (match play unpluggedLater fl0 laterAsync (unplugging.take 27) with
    | some s => (!isConnected s.obd && decide (status s.obd = .notConnected) && (match s.threads[0]? with | some pc => Pc.active pc | none => false) &&
        (match play unpluggedLater fl0 s (unplugging.drop 27) with
          | some s' => decide (responses s'.log = responses s.log + 1)
          | none => false))
    | none => false) = true := by decide +kernel
  split at h1
  · next s hs =>
    simp only [Bool.and_eq_true, Bool.not_eq_true', decide_eq_true_eq] at h1
    obtain ⟨⟨⟨a1, a2⟩, a3⟩, a4⟩ := h1
    split at a4
    · next s' hs' =>
      refine ⟨s, s', _, arun_reach (laterAsync_reach _) (play_any hs), a1, a2, ?_, play_any hs', by simpa using a4⟩
      split at a3
      · next pc hp => exact ⟨pc, hp, a3⟩
      · cases a3
    · cases a4
  · cases h1

/-- A fair run in which the line is lost while the loop is at work. -/
example : ∃ run act n, FairRun unpluggedLater fl0 run act ∧ isConnected (run n).obd = false ∧ Active (run n) 0 := by
  have hp : (match play unpluggedLater fl0 laterAsync unplugging with
      | some s => (match s.caller with | .idle => s.thread.isNone | _ => false)
      | none => false) = true := by decide +kernel
  split at hp
  · next s' hs =>
    split at hp
    · next hi =>
      obtain ⟨run, act, hF, h0, ha⟩ := fair_exists (laterAsync_reach politeCallback) (as := unplugging) (by decide) hs hi (Option.isNone_iff_eq_none.mp hp)
      have hstep : ∀ k, k ≤ unplugging.length → play unpluggedLater fl0 laterAsync (unplugging.take k) = some (run k) := by
        intro k
        induction k with
        | zero => intro _; rw [h0]; rfl
        | succ k ih =>
          intro hk
          have h3 : unplugging.take (k + 1) = unplugging.take k ++ [unplugging[k]] := by
            rw [List.take_add_one]; simp [List.getElem?_eq_getElem (show k < unplugging.length by omega)]
          rw [h3, play_append, ih (by omega)]
          have := hF.step k
          rw [ha k (by omega)] at this
          simp only [Option.bind_some, play, this]
      have h4 := hstep 27 (by decide)
      have h5 : ((play unpluggedLater fl0 laterAsync (unplugging.take 27)).map (fun s => !isConnected s.obd &&
          (match s.threads[0]? with | some pc => Pc.active pc | none => false))) = some true := by decide +kernel
      rw [h4] at h5
      simp only [Option.map_some, Option.some.injEq, Bool.and_eq_true, Bool.not_eq_true'] at h5
      refine ⟨run, act, 27, hF, h5.1, ?_⟩
      have h6 := h5.2
      split at h6
      · next pc hpc => exact ⟨pc, hpc, h6⟩
      · cases h6
    · cases hp
  · cases hp

end Props
