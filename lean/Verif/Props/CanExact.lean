import Verif.Props.Lines
import Verif.Lemmas.CanExact
/-!
# C10 and C14, exactly: which lines of an ECU on CAN are put together, and to what

`Spec.Assembles` (in `Spec/Tracking.lean`) says for arbitrary frames of one ECU what they are put together to, if anything.
-/
namespace Props
open Py Model Spec

theorem call_mem_iff {p : Proto} {n : Nat} (hp : p.family = .can n) (map : Dict (Option Nat) Nat) (lines : List Str)
    (ms : List Message) (h : p.call map lines = .ok ms) (t : Nat) (data : Bytes) :
    (∃ m ∈ ms, m.txId = some t ∧ m.data = data) ↔ ∃ d, Assembles (framesBy p t lines) d ∧ data = dtcCut d := by
  have hne : p ≠ .unknown := by rintro rfl; simp [Proto.family] at hp
  have hg := goodFrames_can hp lines (some t)
  have hf := call_filter p map lines ms h t
  obtain ⟨hall, -⟩ := (call_ok_iff p map lines ms).1 h
  constructor
  · rintro ⟨m, hm, ht, rfl⟩
    have hmem : m ∈ oneMessage p map (framesOf p lines) (some t) := by
      rw [← hf, List.mem_filter]; exact ⟨hm, by simp [ht]⟩
    obtain ⟨h1, -, -⟩ := oneMessage_mem hmem
    rw [parseMessage_can hp, canParseMessage_eq] at h1
    split at h1
    · simp at h1
    · next d hd =>
      rw [rawData_exact _ hg, ← framesBy_eq p hne] at hd
      cases hc : canTrimDtc d with
      | error e => rw [hc] at h1; simp [Except.map] at h1
      | ok r =>
        rw [hc] at h1
        simp only [Except.map, Except.ok.injEq, Option.some.injEq] at h1
        exact ⟨d, hd, by rw [← h1]; exact (canTrimDtc_ok hc).1⟩
  · rintro ⟨d, hd, rfl⟩
    rw [framesBy_eq p hne, ← rawData_exact _ hg] at hd
    have hnn : fromTx (framesOf p lines) (some t) ≠ [] := by
      intro h0; rw [h0] at hd; simp [rawData, canMulti] at hd
    have hmem : some t ∈ txs (framesOf p lines) := by
      apply Classical.not_not.1
      intro h'; exact hnn (fromTx_empty.2 h')
    obtain ⟨r, hr⟩ := hall _ hmem
    have hr' := hr
    rw [parseMessage_can hp, canParseMessage_eq, hd] at hr
    simp only at hr
    cases hc : canTrimDtc d with
    | error e => rw [hc] at hr; simp [Except.map] at hr
    | ok r' =>
      rw [hc] at hr
      simp only [Except.map, Except.ok.injEq] at hr
      subst hr
      have := (canTrimDtc_ok hc).1
      subst this
      have hm : ecuMessage map (framesOf p lines) (some t) (dtcCut d) ∈ ms.filter (fun m => m.txId == some t) := by
        rw [hf, oneMessage, if_neg hnn, hr']
        exact List.mem_cons_self ..
      rw [List.mem_filter] at hm
      exact ⟨_, hm.1, by simpa using hm.2, rfl⟩

/-- C10: whatever lines are received, an ECU gets a message exactly if its frames can be put together (`Assembles`), and the data
of the message is what they are put together to, up to the mode 03 cut of C15. -/
theorem C10_exact (p : Proto) (n : Nat) (hp : p.family = .can n) (map : Dict (Option Nat) Nat) (lines : List Str)
    (ms : List Message) (h : p.call map lines = .ok ms) (t : Nat) (data : Bytes) :
    (∃ m ∈ ms, m.txId = some t ∧ m.data = data) ↔ ∃ d, Assembles (framesBy p t lines) d ∧ data = dtcCut d :=
  call_mem_iff hp map lines ms h t data

/-- C10: there is only one thing that given frames can be put together to. -/
theorem C10_unique (own : List Bytes) (d d' : Bytes) (h : Assembles own d) (h' : Assembles own d') : d = d' :=
  assembles_unique h h'

/-- C14 (CAN), exactly: parsing raises if and only if the frames of some ECU are put together to the lone byte 43, and then IndexError. -/
theorem C14_can_exact (p : Proto) (n : Nat) (hp : p.family = .can n) (map : Dict (Option Nat) Nat) (lines : List Str) :
    ((∃ e, p.call map lines = .error e) ↔ ∃ t, Assembles (framesBy p t lines) [0x43]) ∧
    ∀ e, p.call map lines = .error e → e = .indexError := by
  have hne : p ≠ .unknown := by rintro rfl; simp [Proto.family] at hp
  refine ⟨⟨?_, ?_⟩, fun e h => (C14_can_partial p n hp map lines e h).1⟩
  · rintro ⟨e, h⟩
    obtain ⟨t, ht, he⟩ := call_error p map lines e h
    obtain ⟨f, hf, htx⟩ := (mem_txs _ _).1 ht
    obtain ⟨_, t', ht'⟩ := framesOf_good p hne lines f hf
    rw [ht'] at htx; subst htx
    rw [parseMessage_can hp, canParseMessage_eq] at he
    split at he
    · simp at he
    · next d hd =>
      obtain ⟨-, hne'⟩ := rawData_sound _ (goodFrames_can hp lines (some t')) d hd
      cases hc : canTrimDtc d with
      | ok r => rw [hc] at he; simp [Except.map] at he
      | error e' =>
        obtain ⟨-, h2⟩ := canTrimDtc_err hc
        rcases h2 with h2 | h2
        · exact absurd h2 hne'
        · refine ⟨t', ?_⟩
          rw [framesBy_eq p hne, ← h2, ← rawData_exact _ (goodFrames_can hp lines _)]; exact hd
  · rintro ⟨t, ha⟩
    cases hc : p.call map lines with
    | error e => exact ⟨e, rfl⟩
    | ok ms =>
      exfalso
      obtain ⟨hall, -⟩ := (call_ok_iff p map lines ms).1 hc
      rw [framesBy_eq p hne, ← rawData_exact _ (goodFrames_can hp lines _)] at ha
      have hmem : some t ∈ txs (framesOf p lines) := by
        apply Classical.not_not.1
        intro h'
        rw [fromTx_empty.2 h'] at ha
        simp [rawData, canMulti] at ha
      obtain ⟨r, hr⟩ := hall _ hmem
      rw [parseMessage_can hp, canParseMessage_eq, ha] at hr
      simp [canTrimDtc, idx, bind, Except.bind, Except.map] at hr

/-- Frames out of order, the numbers of which start at 1 (and a pad byte cut off): put together. -/
def shuffled : List Str := ["7E8 10 0E 49 04 01 35 36 30".toList, "7E8 22 36 35 34 33 00 00 00".toList, "7E8 21 32 38 39 34 39 41 43".toList]

theorem shuffled_assembles : Assembles (framesBy .can11_500 0 shuffled)
    [0x49, 0x04, 0x01, 0x35, 0x36, 0x30, 0x32, 0x38, 0x39, 0x34, 0x39, 0x41, 0x43, 0x36] := by
  have hb : framesBy .can11_500 0 shuffled = [[0x10, 0x0E, 0x49, 0x04, 0x01, 0x35, 0x36, 0x30],
      [0x22, 0x36, 0x35, 0x34, 0x33, 0, 0, 0], [0x21, 0x32, 0x38, 0x39, 0x34, 0x39, 0x41, 0x43]] := by decide +kernel
  rw [hb]
  refine .segmented [0x10, 0x0E, 0x49, 0x04, 0x01, 0x35, 0x36, 0x30] [2, 1]
    [[0x21, 0x32, 0x38, 0x39, 0x34, 0x39, 0x41, 0x43], [0x22, 0x36, 0x35, 0x34, 0x33, 0, 0, 0]] (by decide) ?_ (by decide) rfl ?_ (by decide)
  · exact ⟨by decide, by decide, by unfold InWindow; decide, trivial⟩
  · exact List.Perm.swap _ _ _

example : ∃ ms, Proto.can11_500.call [] shuffled = .ok ms ∧ ∃ m ∈ ms, m.txId = some 0 ∧
    m.data = [0x49, 0x04, 0x01, 0x35, 0x36, 0x30, 0x32, 0x38, 0x39, 0x34, 0x39, 0x41, 0x43, 0x36] := by
  have h1 : (Proto.can11_500.call [] shuffled).isOk = true := by decide +kernel
  cases h : Proto.can11_500.call [] shuffled with
  | error e => rw [h] at h1; cases h1
  | ok ms => exact ⟨ms, rfl, (C10_exact .can11_500 _ rfl [] _ ms h 0 _).2 ⟨_, shuffled_assembles, by decide⟩⟩

/-- A gap in the numbers: not put together to anything, so there is no message of this ECU. -/
example : ∃ ms, Proto.can11_500.call [] [shuffled[0], shuffled[1]] = .ok ms ∧ ¬ ∃ m ∈ ms, m.txId = some 0 := by
  have h1 : (match Proto.can11_500.call [] [shuffled[0], shuffled[1]] with | .ok ms => ms.isEmpty | _ => false) = true := by decide +kernel
  cases h : Proto.can11_500.call [] [shuffled[0], shuffled[1]] with
  | error e => rw [h] at h1; cases h1
  | ok ms =>
    rw [h] at h1
    refine ⟨ms, rfl, ?_⟩
    rintro ⟨m, hm, -⟩
    rw [List.isEmpty_iff.1 h1] at hm; cases hm

/-- Both sides of C14_can_exact, once true and once false. -/
example : (∃ t, Assembles (framesBy .can11_500 t ["7E8 01 43".toList]) [0x43]) ∧
    ¬ ∃ t, Assembles (framesBy .can11_500 t ["7E8 02 43 00".toList]) [0x43] := by
  refine ⟨((C14_can_exact .can11_500 _ rfl [] _).1).1 ⟨.indexError, by decide +kernel⟩, ?_⟩
  intro h
  obtain ⟨e, he⟩ := ((C14_can_exact .can11_500 _ rfl [] _).1).2 h
  have h1 : (Proto.can11_500.call [] ["7E8 02 43 00".toList]).isOk = true := by decide +kernel
  rw [he] at h1; cases h1

end Props
