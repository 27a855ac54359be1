import Verif.Lemmas.AsyncRefine
import Verif.Props.EndToEnd
/-!
# C85: an asynchronous connection is a synchronous one
-/
namespace Props
open Py Model Spec AW

/-- C85: in every run of an `Async` object, whatever the threads and the callbacks do, the connection is in the state that some
sequence of synchronous calls leads to: the forced queries of the loop in the order in which it made them, the power calls of
the user or of callbacks, and `close()` only if the user called it.  The responses stored are those that these queries return,
in order, none is missing but possibly the last one, which the loop is about to store. -/
theorem C85_refines (dev : Device) (fl : Str → Option PyFloat) (a : Args) (o : OW) (hc : Constructed dev fl a o) (as : List Action) (s : AW)
    (h : ARun dev fl anyCallback { obd := o } as s) :
    ∃ calls last, s.obd = session dev fl calls o ∧ asked calls = loopAsked s.log ∧ answers dev fl calls o = loopStored s.log ++ last ∧
      last.length ≤ 1 ∧ ∀ k ∈ calls, Causes as k := by
  obtain ⟨-, calls, hD⟩ := arun_driven hc h rfl
  exact ⟨calls, s.unsaved, hD.obd, hD.asked, hD.answers, unsaved_one (areach_inv (arun_reach (.init a o hc) h)), hD.cause⟩

/-! ## what is delivered was stored -/

/-- The response a thread is delivering. -/
def delivering : Pc → Option Response
  | .subs _ _ r => some r
  | .fire _ r _ _ => some r
  | .inside _ r _ _ => some r
  | _ => none

structure FireInv (s : AW) : Prop where
  pc : ∀ (t : Nat) pc r, s.threads[t]? = some pc → delivering pc = some r → ∃ c, .stored c r ∈ s.log
  log : ∀ j r, .fired j r ∈ s.log → ∃ c, .stored c r ∈ s.log

theorem fire_same {s s' : AW} {es : List Ev} (h : FireInv s) (hl : s'.log = s.log ++ es) (he : ∀ j r, .fired j r ∉ es)
    (ht : ∀ (t : Nat) pc r, s'.threads[t]? = some pc → delivering pc = some r → ∃ (t' : Nat) (pc' : Pc), s.threads[t']? = some pc' ∧ delivering pc' = some r) : FireInv s' where
  pc := by
    intro t pc r h1 h2
    obtain ⟨t', pc', h3, h4⟩ := ht t pc r h1 h2
    obtain ⟨c, hc⟩ := h.pc t' pc' r h3 h4
    exact ⟨c, by rw [hl]; exact List.mem_append_left _ hc⟩
  log := by
    intro j r h1
    rw [hl] at h1
    rcases List.mem_append.1 h1 with h1 | h1
    · obtain ⟨c, hc⟩ := h.log j r h1
      exact ⟨c, by rw [hl]; exact List.mem_append_left _ hc⟩
    · exact absurd h1 (he j r)

theorem fire_daemon {dev : Device} {fl : Str → Option PyFloat} {s s' : AW} {t : Nat} {pc : Pc}
    (h : FireInv s) (hq : s.threads[t]? = some pc) (hs : s.daemonStep dev fl t pc = some s') : FireInv s' := by
  have hset : ∀ (pc' : Pc), (∀ r, delivering pc' = some r → delivering pc = some r) → ∀ (t' : Nat) q r, (s.threads.set t pc')[t']? = some q → delivering q = some r →
      ∃ (t' : Nat) (pc' : Pc), s.threads[t']? = some pc' ∧ delivering pc' = some r := by
    intro pc' hne t' q r h1 h2
    rcases set_get h1 with ⟨-, h3⟩ | ⟨-, h3⟩
    · subst h3; exact ⟨t, pc, hq, hne r h2⟩
    · exact ⟨t', q, h3, h2⟩
  cases pc <;> simp only [daemonStep] at hs
  case notStarted => cases hs
  case finished => cases hs
  case inside => cases hs
  case query it c =>
    split at hs
    · cases hs; exact fire_same (es := [.queried c]) h rfl (by simp) (hset _ (by simp [delivering]))
    · next x o hqr => cases hs; exact fire_same (es := [.queried c, .ended (.query x)]) h (by simp [emit, setPc]) (by simp) (hset _ (by simp [delivering]))
  case store it c r =>
    cases hs
    constructor
    · intro t' q r' h1 h2
      rcases set_get h1 with ⟨-, h3⟩ | ⟨-, h3⟩
      · subst h3; cases h2; exact ⟨c, by simp [emit]⟩
      · obtain ⟨c', hc'⟩ := h.pc t' q r' h3 h2
        exact ⟨c', List.mem_append_left _ hc'⟩
    · intro j r' h1
      have h1 : Ev.fired j r' ∈ s.log ++ [.stored c r] := h1
      obtain ⟨c', hc'⟩ := h.log j r' (by simpa using h1)
      exact ⟨c', List.mem_append_left _ hc'⟩
  case fire it r l i =>
    split at hs
    · cases hs; exact fire_same (es := []) h (by simp [setPc]) (by simp) (hset _ (by simp [delivering]))
    · next k hk =>
      cases hs
      obtain ⟨c, hc⟩ := h.pc t _ r hq rfl
      constructor
      · intro t' q r' h1 h2
        rcases set_get h1 with ⟨-, h3⟩ | ⟨-, h3⟩
        · subst h3; cases h2; exact ⟨c, List.mem_append_left _ hc⟩
        · obtain ⟨c', hc'⟩ := h.pc t' q r' h3 h2
          exact ⟨c', List.mem_append_left _ hc'⟩
      · intro j r' h1
        have h1 : Ev.fired j r' ∈ s.log ++ [.fired k r] := h1
        rcases List.mem_append.1 h1 with h1 | h1
        · obtain ⟨c', hc'⟩ := h.log j r' h1
          exact ⟨c', List.mem_append_left _ hc'⟩
        · simp at h1; obtain ⟨rfl, rfl⟩ := h1; exact ⟨c, List.mem_append_left _ hc⟩
  case next it =>
    split at hs
    · cases hs; exact fire_same (es := [.ended .listChanged]) h rfl (by simp) (hset _ (by simp [delivering]))
    · split at hs <;> cases hs
      · exact fire_same (es := [.slept]) h rfl (by simp) (hset _ (by simp [delivering]))
      · exact fire_same (es := []) h (by simp [setPc]) (by simp) (hset _ (by simp [delivering]))
  case test => split at hs <;> cases hs; exacts [fire_same (es := []) h (by simp [setPc]) (by simp) (hset _ (by simp [delivering])), fire_same (es := [.ended .returned]) h rfl (by simp) (hset _ (by simp [delivering]))]
  case size => split at hs <;> cases hs; exacts [fire_same (es := []) h (by simp [setPc]) (by simp) (hset _ (by simp [delivering])), fire_same (es := [.slept]) h rfl (by simp) (hset _ (by simp [delivering]))]
  case conn => split at hs <;> cases hs; exacts [fire_same (es := []) h (by simp [setPc]) (by simp) (hset _ (by simp [delivering])), fire_same (es := []) h (by simp [setPc]) (by simp) (hset _ (by simp [delivering]))]
  case subs => split at hs <;> cases hs; exacts [fire_same (es := [.ended .missing]) h rfl (by simp) (hset _ (by simp [delivering])), fire_same (es := []) h (by simp [setPc]) (by simp) (hset _ (by simp [delivering]))]
  case drop2 => cases hs; exact fire_same (es := [.ended .returned]) h rfl (by simp) (hset _ (by simp [delivering]))
  all_goals cases hs; exact fire_same (es := []) h (by simp [setPc]) (by simp) (hset _ (by simp [delivering]))

theorem areach_fire {dev : Device} {fl : Str → Option PyFloat} {ok : AW → Action → Prop} {s : AW} (h : AReach dev fl ok s) : FireInv s := by
  induction h with
  | init a o h => exact ⟨by simp, by simp⟩
  | step s a s' h _ hs ih =>
    have hI := areach_inv h
    have hh := hs
    unfold step at hs
    cases a with
    | call op =>
      simp only at hs
      cases hc : s.caller with
      | busy o p => rw [hc] at hs; cases hs
      | idle => rw [hc] at hs; cases hs; exact fire_same (es := [.call op]) ih rfl (by simp) (fun t q r h1 h2 => ⟨t, q, h1, h2⟩)
    | caller =>
      simp only at hs
      cases hc : s.caller with
      | idle => rw [hc] at hs; cases hs
      | busy op pc =>
        rw [hc] at hs
        obtain ⟨pre, fin, h1, h2, h3⟩ := callerStep_log hs
        refine fire_same ih h1 ?_ ?_
        · intro c r hm
          rcases List.mem_append.mp hm with hm | hm
          · exact absurd (h2 _ hm) (by simp [Mid])
          · rcases h3 with ⟨rfl, -⟩ | ⟨-, rfl | ⟨y, rfl, -⟩⟩ <;> simp at hm
        · intro t q r ht hd
          rcases callerStep_threads hs with ⟨h4, -⟩ | ⟨-, h4, -⟩ | ⟨-, t', -, h4, -⟩
          · exact ⟨t, q, by rw [← h4]; exact ht, hd⟩
          · rw [h4] at ht
            rcases append_get ht with ht | ⟨-, ht⟩
            · exact ⟨t, q, ht, hd⟩
            · subst ht; cases hd
          · rw [h4] at ht
            rcases set_get ht with ⟨-, ht⟩ | ⟨-, ht⟩
            · subst ht; cases hd
            · exact ⟨t, q, ht, hd⟩
    | daemon t =>
      simp only at hs
      cases hq : s.threads[t]? with
      | none => rw [hq] at hs; cases hs
      | some pc => rw [hq] at hs; exact fire_daemon ih hq hs
    | cb t o =>
      simp only at hs
      split at hs
      · next it r rest hq =>
        obtain ⟨es, h1, h2⟩ := cbCall_log hs
        obtain ⟨-, h3, -, -⟩ := cbCall_ctl (hI.act t _ hq rfl) hs
        refine fire_same ih h1 ?_ (by rw [h3]; exact fun t q r h1 h2 => ⟨t, q, h1, h2⟩)
        intro c r hm; exact absurd (h2 _ hm) (by simp [FromCb])
      · cases hs
    | cbEnd t ok =>
      simp only at hs
      split at hs
      · next it r l i hq =>
        have hset : ∀ (pc' : Pc), (∀ x, delivering pc' = some x → x = r) → ∀ (t' : Nat) q x, (s.threads.set t pc')[t']? = some q → delivering q = some x →
            ∃ (t' : Nat) (pc' : Pc), s.threads[t']? = some pc' ∧ delivering pc' = some x := by
          intro pc' hne t' q x h1 h2
          rcases set_get h1 with ⟨-, h3⟩ | ⟨-, h3⟩
          · subst h3; exact ⟨t, _, hq, by rw [hne x h2]; rfl⟩
          · exact ⟨t', q, h3, h2⟩
        split at hs <;> cases hs
        · exact fire_same (es := []) ih (by simp [setPc]) (by simp) (hset _ (by simp [delivering]))
        · exact fire_same (es := [.ended .callback]) ih rfl (by simp) (hset _ (by simp [delivering]))
      · cases hs
    | reorder t rest =>
      obtain ⟨it, it', hq, -, -, rfl, -⟩ := reorder_eq hh
      refine fire_same (es := []) ih (by simp [setPc]) (by simp) ?_
      intro t' q x h1 h2
      rcases set_get h1 with ⟨-, h3⟩ | ⟨-, h3⟩
      · subst h3; cases h2
      · exact ⟨t', q, h3, h2⟩

theorem mem_answers {dev : Device} {fl : Str → Option PyFloat} {c : OBDCommand} {r : Response} : ∀ {calls : List Call} {o : OW}, (∀ c f, Call.query c f ∈ calls → f = true) →
    (c, r) ∈ answers dev fl calls o →
    ∃ pre post, calls = pre ++ .query c true :: post ∧ (ObdM.query dev fl c true (session dev fl pre o)).1 = .ok r
  | [], _, _, h => by cases h
  | k :: rest, o, hf, h => by
    have ih := fun o' (h : (c, r) ∈ answers dev fl rest o') => mem_answers (fun c f hm => hf c f (List.mem_cons_of_mem _ hm)) h
    have later : (c, r) ∈ answers dev fl rest (k.after dev fl o) → ∃ pre post, k :: rest = pre ++ .query c true :: post ∧ (ObdM.query dev fl c true (session dev fl pre o)).1 = .ok r := by
      intro h
      obtain ⟨pre, post, h1, h2⟩ := ih _ h
      exact ⟨k :: pre, post, by rw [h1]; rfl, h2⟩
    cases k with
    | query c' f =>
      have := hf c' f (by simp); subst this
      simp only [answers] at h
      split at h
      · next r' s' hq =>
        rcases List.mem_cons.1 h with h | h
        · cases h; exact ⟨[], rest, rfl, by show (ObdM.query dev fl c true o).1 = _; rw [hq]⟩
        · exact later (by show _ ∈ answers dev fl rest (ObdM.query dev fl c' true o).2; rw [hq]; exact h)
      · next x s' hq => exact later (by show _ ∈ answers dev fl rest (ObdM.query dev fl c' true o).2; rw [hq]; exact h)
    | lowPower => exact later h
    | normalPower => exact later h
    | close => exact later h

/-- C85: every response given to a callback is one that was stored, and every response stored is what a synchronous forced
query of that command returns after some sequence of calls; the traffic of that query is part of what the adapter saw. -/
theorem C85_delivered (dev : Device) (fl : Str → Option PyFloat) (a : Args) (o : OW) (hc : Constructed dev fl a o) (as : List Action) (s : AW)
    (h : ARun dev fl anyCallback { obd := o } as s) :
    (∀ j r, .fired j r ∈ s.log → ∃ c, .stored c r ∈ s.log) ∧
    ∀ c r, .stored c r ∈ s.log → ∃ calls evs later,
      (ObdM.query dev fl c true (session dev fl calls o)).1 = .ok r ∧
      (ObdM.query dev fl c true (session dev fl calls o)).2.hist = (session dev fl calls o).hist ++ evs ∧
      s.obd.hist = (session dev fl calls o).hist ++ evs ++ later := by
  refine ⟨(areach_fire (arun_reach (.init a o hc) h)).log, ?_⟩
  intro c r hm
  obtain ⟨calls, last, h1, h2, h3, h4, h5⟩ := C85_refines dev fl a o hc as s h
  have hin : (c, r) ∈ answers dev fl calls o := by
    rw [h3]
    refine List.mem_append_left _ ?_
    unfold loopStored
    exact List.mem_filterMap.2 ⟨_, hm, rfl⟩
  obtain ⟨pre, post, h6, h7⟩ := mem_answers (fun c f hm => h5 _ hm) hin
  obtain ⟨evs, h8, -⟩ := ObdM.ext_call dev fl (.query c true) (session dev fl pre o)
  obtain ⟨later, h9, -⟩ := ObdM.ext_session dev fl post (ObdM.query dev fl c true (session dev fl pre o)).2
  refine ⟨pre, evs, later, h7, h8, ?_⟩
  have : s.obd = session dev fl post (ObdM.query dev fl c true (session dev fl pre o)).2 := by
    rw [h1, h6]
    unfold session
    rw [List.foldl_append]
    rfl
  rw [this, h9]
  have h8' : (ObdM.query dev fl c true (session dev fl pre o)).2.hist = (session dev fl pre o).hist ++ evs := h8
  rw [h8']

/-- C85: hence what is known of synchronous queries holds of what callbacks get: if the engine says 41 0C A B in the reply, the
engine speed stored for RPM is (256 A + B) / 4.  (The conditions on the reply are those of C61.) -/
theorem C85_rpm (dev : Device) (fl : Str → Option PyFloat) (a : Args) (o : OW) (hc : Constructed dev fl a o) (hs : ObdM.status o = .carConnected) :
    ∃ (p : Proto) (r : List Str) (t : Nat), ConnectedTo fl a o p r ∧ EngineFor p r t ∧
      ∀ (as : List Action) (s : AW) (c : OBDCommand) (res : Response), ARun dev fl anyCallback { obd := o } as s → byName "RPM" = some c → .stored c res ∈ s.log →
        ∃ before evs later, s.obd.hist = before ++ evs ++ later ∧
          ∀ (cmd : Bytes) (lines : List Str) (A B : UInt8), Ends evs cmd lines → (cmd = [] ∨ CommandString c cmd) → ¬ Trips p lines → NoImpostor p t lines →
            Says p t [0x41, 0x0C, A, B] lines → res.value = .qty ((256 * A.toNat + B.toNat : ℚ) / 4) "rpm" := by
  obtain ⟨p, r, t, h1, h2, h3⟩ := C61_rpm_partial dev fl a o hc hs
  refine ⟨p, r, t, h1, h2, ?_⟩
  intro as s c res hrun hrpm hst
  obtain ⟨calls, evs, later, h4, h5, h6⟩ := (C85_delivered dev fl a o hc as s hrun).2 c res hst
  refine ⟨_, evs, later, h6, ?_⟩
  intro cmd lines A B g1 g2 g3 g4 g5
  obtain ⟨res', k1, k2⟩ := h3 calls c true (ObdM.query dev fl c true (session dev fl calls o)).1 (ObdM.query dev fl c true (session dev fl calls o)).2 evs cmd lines A B
    hrpm rfl h5 g1 g2 g3 g4 g5
  rw [h4] at k1
  cases k1
  exact k2

/-- The demo car, RPM watched by callback 1: one query of the loop, stored and given to the callback. -/
example : ARun (demo table) fl0 anyCallback { obd := demoObd true } (watchRpm ++ startUp ++ loop 9) (after (watchRpm ++ startUp ++ loop 9)) ∧
    (loopAsked (after (watchRpm ++ startUp ++ loop 9)).log).length = 1 ∧
    (loopStored (after (watchRpm ++ startUp ++ loop 9)).log).map (fun x => x.2.value) = [.qty 1726 "rpm"] ∧
    fires (after (watchRpm ++ startUp ++ loop 9)).log = [1] :=
  ⟨play_any (after_play (by decide +kernel)), by decide +kernel, by decide +kernel, by decide +kernel⟩

end Props
