import Verif.Lemmas.AsyncLive
import Verif.Props.Async
import Mathlib.Data.List.Induction
/-!
# The rounds of the update loop (C95, C96)
-/
namespace Props
open Py Model Spec AW ObdM

/-! ## C95 -/

/-- The loop goes through the watched commands in the order in which they were subscribed, asking for each once and storing its response before the
next, and sleeps only after the last. -/
theorem C95_rounds (dev : Device) (fl : Str → Option PyFloat) (s : AW) (h : AReach dev fl politeCallback s) :
    (∀ a c b, s.log = a ++ .queried c :: b → ∃ later, watched a = askedFor a ++ c.key :: later) ∧
    (∀ a c r b, s.log = a ++ .stored c r :: b → ∃ later, watched a = got a ++ c.key :: later ∧ askedFor a = got a ++ [c.key]) ∧
    (∀ a b, s.log = a ++ .slept :: b → askedFor a = watched a ∧ got a = watched a) :=
  ⟨fun a _ b hl => (areach_round h).round a _ b hl, fun a _ _ b hl => (areach_round h).round a _ b hl, fun a b hl => (areach_round h).round a _ b hl⟩

/-- No command is in the watch list twice. -/
theorem C95_once (dev : Device) (fl : Str → Option PyFloat) (s : AW) (h : AReach dev fl politeCallback s) : (watched s.log).Nodup := by
  rw [(areach_round h).watched]; exact (areach_any h).tables.nodupC

/-- What is in the watch list is what is subscribed, without repetition: a fact about the two specifications. -/
theorem C95_subscribed (log : List Ev) : (watched log).Nodup ∧ ∀ k, k ∈ watched log ↔ (subA k log).isSome = true := by
  induction log using List.reverseRecOn with
  | nil => simp [watched, watchedAux, subA]
  | append_singleton l e ih =>
    obtain ⟨hn, hk⟩ := ih
    rw [watched_snoc]
    have same : watchedNext l (watched l) e = watched l → (∀ k, (subA k (l ++ [e])).isSome = (subA k l).isSome) →
        (watchedNext l (watched l) e).Nodup ∧ ∀ k, k ∈ watchedNext l (watched l) e ↔ (subA k (l ++ [e])).isSome = true := by
      intro h1 h2
      rw [h1]; exact ⟨hn, fun k => by rw [h2]; exact hk k⟩
    cases e with
    | did op =>
      cases op with
      | watch c cb force =>
        have h2 : ∀ k, (subA k (l ++ [.did (.watch c cb force)])).isSome = (decide (c.key = k) || (subA k l).isSome) := by
          intro k
          rw [sub_appendA]
          simp only [List.foldl_cons, List.foldl_nil, Sub.nextA, Sub.next]
          by_cases hc : c.key = k
          · rw [if_pos hc]
            cases subA k l <;> cases cb <;> simp [hc]
          · simp [hc]
        simp only [watchedNext]
        constructor
        · split
          · exact hn
          · next hc => rw [List.nodup_append]; exact ⟨hn, by simp, by intro a ha b hb; simp at hb; subst hb; intro hab; subst hab; exact hc ha⟩
        · intro k
          rw [h2, Bool.or_eq_true, decide_eq_true_eq, ← hk k]
          split
          · next hc => constructor
                       · intro h; exact Or.inr h
                       · rintro (rfl | h) <;> assumption
          · rw [List.mem_append, List.mem_singleton]; constructor
            · rintro (h | h)
              · exact Or.inr h
              · exact Or.inl h.symm
            · rintro (h | h)
              · exact Or.inr h.symm
              · exact Or.inl h
      | unwatch c cb =>
        have h2 : ∀ k, c.key ≠ k → subA k (l ++ [.did (.unwatch c cb)]) = subA k l := by
          intro k hc
          rw [sub_appendA]
          cases cb <;> simp only [List.foldl_cons, List.foldl_nil, Sub.nextA, Sub.next, if_neg hc]
        have h3 : (subA c.key (l ++ [.did (.unwatch c cb)])).isSome = true → (subA c.key l).isSome = true := by
          rw [sub_appendA]
          cases cb <;> cases subA c.key l <;> simp [Sub.nextA, Sub.next]
        simp only [watchedNext]
        split
        · next hs =>
          refine ⟨hn, fun k => ?_⟩
          by_cases hc : c.key = k
          · subst hc; exact ⟨fun _ => hs, fun _ => (hk _).mpr (h3 hs)⟩
          · rw [h2 k hc]; exact hk k
        · next hs =>
          refine ⟨hn.erase _, fun k => ?_⟩
          rw [hn.mem_erase_iff]
          by_cases hc : c.key = k
          · subst hc; simp [hs]
          · rw [h2 k hc, ← hk k]; simp [Ne.symm hc]
      | unwatchAll =>
        refine ⟨by simp [watchedNext], fun k => ?_⟩
        rw [sub_appendA]; simp [watchedNext, Sub.nextA, Sub.next]
      | _ => exact same rfl (fun k => by rw [sub_appendA]; rfl)
    | stored c r =>
      refine same rfl (fun k => ?_)
      rw [sub_appendA]
      simp only [List.foldl_cons, List.foldl_nil, Sub.nextA, Sub.next]
      split <;> simp
    | _ => exact same rfl (fun k => by rw [sub_appendA]; rfl)

/-- Two commands are watched; one round, and the first command of the next. -/
def rounds : List Action := watchRpm ++ watchPids ++ startUp ++ loop 9 ++ [.cbEnd 0 true] ++ loop 17

def isSlept : Ev → Bool
  | .slept => true
  | _ => false

theorem span_slept {l : List Ev} (h : l.any isSlept = true) :
    l = l.takeWhile (fun e => !isSlept e) ++ .slept :: (l.dropWhile (fun e => !isSlept e)).tail := by
  induction l with
  | nil => cases h
  | cons e l ih =>
    cases he : isSlept e with
    | true => cases e <;> cases he; simp [isSlept]
    | false =>
      simp only [List.any_cons, he, Bool.false_or] at h
      rw [List.takeWhile_cons_of_pos (by simp [he]), List.dropWhile_cons_of_pos (by simp [he]), List.cons_append, ← ih h]

/-- The demo car: after a round of two commands the loop sleeps and asks for the first one again. -/
example : AReach (demo table) fl0 politeCallback (after rounds) ∧
    ∃ a b, (after rounds).log = a ++ .slept :: b ∧ watched a = [rpmCommand.key, pidsCommand.key] ∧ askedFor a = watched a ∧
      askedFor (after rounds).log = [rpmCommand.key] ∧ watched (after rounds).log = [rpmCommand.key, pidsCommand.key] := by
  refine ⟨after_polite (by decide) (by decide +kernel), _, _, span_slept (by decide +kernel), ?_, ?_, ?_, ?_⟩ <;> decide +kernel

/-! ## C96 -/

/-- As long as the user does not stop, pause or close the connection, it stays up, and no exception of a query or a callback ends the loop: the loop
keeps running, and for every watched command there is again and again a new response, with which all its callbacks are called. -/
theorem C96_refreshed (dev : Device) (fl : Str → Option PyFloat) (run : Nat → AW) (act : Nat → Action) (h : FairRun dev fl run act) (n t : Nat)
    (ht : Active (run n) t) (hr : (run n).running = true) (hi : (run n).caller = .idle)
    (h1 : ∀ m ≥ n, act m ≠ .call .stop ∧ act m ≠ .call .enter ∧ act m ≠ .call .close) (h2 : ∀ m ≥ n, ObdM.isConnected (run m).obd = true)
    (h3 : ∀ m ≥ n, ∀ new, (run m).log = (run n).log ++ new → .ended .callback ∉ new ∧ ∀ x, .ended (.query x) ∉ new) :
    (∀ m ≥ n, (run m).running = true ∧ Active (run m) t) ∧
    ∀ m ≥ n, ∀ c l, subscribers (run m) c = some l → ∃ m' > m, ∃ new, (run m').log = (run m).log ++ new ∧
      ∃ c' r, c'.key = c.key ∧ .stored c' r ∈ new ∧ ∀ j ∈ l, .fired j r ∈ new := by
  have hk : Keeps run n t := by
    refine going_keeps h ⟨hr, ?_, ?_⟩ h1 h2 h3
    · obtain ⟨pc, h4, h5⟩ := ht
      have hg : ¬ ObdM.Gone (run n).obd := by rw [ObdM.Gone, h2 n (Nat.le_refl _)]; simp
      have hd := (areach_gone (ok := politeCallback) (h.reach n)).drop t
      exact ⟨pc, h4, h5, by rintro rfl; exact hg (hd (Or.inl h4)), by rintro rfl; exact hg (hd (Or.inr h4))⟩
    · intro op p hp; rw [hi] at hp; cases hp
  refine ⟨fun m hm => ⟨hk.running m hm, hk.alive m hm⟩, ?_⟩
  intro m hm c l hl
  unfold subscribers at hl
  split at hl
  · next hc =>
    obtain ⟨m', h4, new, h5, c', r, h6, h7, h8⟩ := keeps_again h (hk.from hm) ((Dict.mem_iff _ _).mp hc)
    exact ⟨m', h4, new, h5, c', r, h7, h6, h8 l hl⟩
  · cases hl

/-! ### a run in which the loop runs forever -/

/-- The history ends with this line. -/
theorem lastWrite_snoc (h : History) (b : Bytes) (x : Bool) : lastWrite (h ++ [.write b x]) = b := by
  simp [lastWrite]

/-- What the demo car sends for the engine speed. -/
def rpmChunks : List (Option Bytes) := [some (reply table "?" (ascii "010C" ++ [0x0D]))]
def rpmLines : List Str := match readLoop elmPrompt [] rpmChunks with
  | some b => cleanLines b
  | none => []

theorem send_rpm {w : EW} (hp : w.elm.port ≠ none) : ∃ h, EW.send (demo table) (ascii "010C") false elmPrompt w = (rpmLines, { w with hist := h }) := by
  cases hq : w.elm.port with
  | none => exact absurd hq hp
  | some q =>
    have h1 : EW.write (demo table) (ascii "010C") w = { w with hist := w.hist ++ [.write (ascii "010C" ++ [0x0D]) true] } := by
      unfold EW.write
      rw [hq]
      rfl
    have hb : ∃ b, readLoop elmPrompt [] rpmChunks = some b := by
      have : (readLoop elmPrompt [] rpmChunks).isSome = true := by decide +kernel
      exact Option.isSome_iff_exists.mp this
    obtain ⟨b, hb⟩ := hb
    have hne : rpmLines.isEmpty = false := by decide +kernel
    have h2 : ∀ h, EW.read (demo table) elmPrompt { w with hist := h ++ [.write (ascii "010C" ++ [0x0D]) true] } =
        (rpmLines, { w with hist := h ++ [.write (ascii "010C" ++ [0x0D]) true] ++ [.read (some b)] }) := by
      intro h
      unfold EW.read
      simp only [hq]
      have : (demo table).read (h ++ [.write (ascii "010C" ++ [0x0D]) true]) = rpmChunks := by
        show [some (reply table "?" (lastWrite _))] = _
        rw [lastWrite_snoc]; rfl
      rw [this, hb]
      simp only [rpmLines, hb]
    refine ⟨w.hist ++ [.write (ascii "010C" ++ [0x0D]) true] ++ [.read (some b)], ?_⟩
    show EW.retry _ _ 11 (EW.read _ _ (EW.write _ _ _)) = _
    rw [h1, h2, EW.retry, if_neg (by simp [hne])]

/-- The demo car answers the engine speed, whatever happened before. -/
theorem demo_rpm {s : OW} (hi : s.interface = (demoObd false).interface) (hf : s.fast = false) (hl : s.lastHeader = engineHeader) :
    ∃ r s', ObdM.query (demo table) fl0 rpmCommand true s = (.ok r, s') ∧ s'.interface = s.interface ∧ s'.fast = false ∧ s'.lastHeader = engineHeader := by
  have hfacts : (match (demoObd false).interface with
      | some e => decide (e.status ≠ .notConnected) && !e.lowPower && e.port.isSome && (match e.protocol with
        | some p => (match p.call rpmLines with
          | .ok ms => !ms.isEmpty && (match rpmCommand.call fl0 ms with
            | .ok _ => true
            | .error _ => false)
          | .error _ => false)
        | none => false)
      | none => false) = true := by decide +kernel
  rw [← hi] at hfacts
  cases he : s.interface with
  | none => rw [he] at hfacts; cases hfacts
  | some e =>
    rw [he] at hfacts
    simp only [Bool.and_eq_true, Bool.not_eq_true', decide_eq_true_eq] at hfacts
    obtain ⟨⟨⟨h1, h2⟩, h3⟩, h4⟩ := hfacts
    cases hp : e.protocol with
    | none => rw [hp] at h4; cases h4
    | some p =>
      simp only [hp] at h4
      cases hm : p.call rpmLines with
      | error x => rw [hm] at h4; cases h4
      | ok ms =>
        simp only [hm, Bool.and_eq_true, Bool.not_eq_true'] at h4
        obtain ⟨h4, h5⟩ := h4
        cases hr : rpmCommand.call fl0 ms with
        | error x => rw [hr] at h5; cases h5
        | ok r =>
          have hb : ∀ x : OW, x.fast = false → ObdM.buildCommand x rpmCommand = ascii "010C" := by
            intro x hx
            unfold ObdM.buildCommand ObdM.withCount
            rw [hx]; rfl
          obtain ⟨h, hsend⟩ := send_rpm (w := { elm := e, hist := s.hist }) (by intro h6; have h6 : e.port = none := h6; rw [h6] at h3; cases h3)
          have hsp : ElmM.sendAndParse (demo table) (ascii "010C") { elm := e, hist := s.hist } = (.ok (some ms), { elm := e, hist := h }) := by
            unfold ElmM.sendAndParse
            have hg : ∀ h, ElmM.getElm { elm := e, hist := h } = (.ok e, { elm := e, hist := h }) := fun _ => rfl
            rw [PyM.bind_ok (hg _), if_neg h1, if_neg (by simp [h2])]
            show (ElmM.send (demo table) (ascii "010C") false elmPrompt >>= _) { elm := e, hist := s.hist } = _
            rw [PyM.bind_ok (show ElmM.send (demo table) (ascii "010C") false elmPrompt { elm := e, hist := s.hist } = (.ok rpmLines, { elm := e, hist := h }) by
              show (Except.ok _, _) = _
              rw [hsend])]
            rw [PyM.bind_ok (hg _)]
            simp only [hp]
            rw [hm]; rfl
          have hq : ObdM.query (demo table) fl0 rpmCommand true s = ObdM.exchange (demo table) fl0 rpmCommand s := by
            unfold ObdM.query
            rw [PyM.bind_ok (show PyM.get s = (.ok s, s) from rfl), if_neg (by simpa [ObdM.status, he] using h1), if_pos rfl]
          rw [hq, exchange_eq, PyM.bind_ok (setHeader_same (by rw [hl]; rfl))]
          unfold body
          rw [PyM.bind_ok (show PyM.get s = (.ok s, s) from rfl), hb s hf]
          have hon : ObdM.onInterface (ElmM.sendAndParse (demo table) (ascii "010C")) s = (.ok (some ms), { s with interface := some e, hist := h }) := by
            unfold ObdM.onInterface
            rw [he]
            simp only [hsp]
          rw [PyM.bind_ok hon, PyM.bind_ok (noteCommand_eq _ _), PyM.bind_ok (noteFrames_some _ _ _)]
          have ha : ∀ x : OW, answer fl0 rpmCommand (some ms) x = (.ok r, x) := by
            intro x
            show (if ms.isEmpty then (pure {} : ObdM Response) else PyM.ofExcept (rpmCommand.call fl0 ms)) x = _
            rw [if_neg (by rw [h4]; simp), hr]; rfl
          exact ⟨r, _, ha _, rfl, hf, hl⟩

/-- The engine speed is watched, with a callback. -/
def watchingRpm (o : OW) : AW :=
  { obd := o, commands := [(rpmCommand.key, rpmCommand, {})], cbs := [(rpmCommand.key, 0)], lists := [[1]]
    log := [.call (.watch rpmCommand (some 1) true), .did (.watch rpmCommand (some 1) true), .ret (.watch rpmCommand (some 1) true)] }

/-- The loop has been started. -/
def startedUp (o : OW) : AW :=
  { watchingRpm o with running := true, thread := some 0, threads := [.test], log := (watchingRpm o).log ++ [.call .start, .started, .ret .start] }

theorem watching_rpm (dev : Device) (fl : ElmM.FloatFn) (o : OW) : play dev fl { obd := o } watchRpm = some (watchingRpm o) := rfl

/-- The start-up of the examples, on any connection that is up. -/
theorem started_up (dev : Device) (fl : ElmM.FloatFn) (o : OW) (ho : ObdM.isConnected o = true) :
    play dev fl { obd := o } (watchRpm ++ startUp) = some (startedUp o) := by
  rw [play_append, watching_rpm]
  have h1 : ∀ x : AW, x.caller = .busy .start .startConn → x.obd = o → x.step dev fl .caller = some (x.goto .start .startLen) := by
    intro x hx hy
    simp [step, hx, callerStep, hy, ho]
  show play dev fl (watchingRpm o) (.call .start :: .caller :: user 5) = _
  have h2 : (watchingRpm o).step dev fl (.call .start) = some (((watchingRpm o).goto .start .startConn).emit (.call .start)) := rfl
  simp only [play, h2]
  rw [h1 _ rfl rfl]
  rfl

/-- The schedule: a callback that was called returns, else the update thread goes on. -/
def goOn (s : AW) : Action := match s.threads[0]? with
  | some (Pc.inside ..) => .cbEnd 0 true
  | _ => .daemon 0

/-- The endless run of the demo car. -/
def endless : Nat → AW := fun n => Nat.rec (startedUp (demoObd false)) (fun _ s => (s.step (demo table) fl0 (goOn s)).getD s) n

/-- The connection of the demo car is as it was. -/
structure DemoUp (o : OW) : Prop where
  iface : o.interface = (demoObd false).interface
  fast : o.fast = false
  header : o.lastHeader = engineHeader

theorem DemoUp.connected {o : OW} (h : DemoUp o) : isConnected o = true := by
  have h1 : isConnected (demoObd false) = true := by decide +kernel
  unfold isConnected status at h1 ⊢
  rw [h.iface]; exact h1

/-- Only the engine speed is asked for. -/
def rpmPc : Pc → Prop
  | .next it => ∀ c ∈ it.rest, c = rpmCommand
  | .conn it c => (∀ c ∈ it.rest, c = rpmCommand) ∧ c = rpmCommand
  | .query it c => (∀ c ∈ it.rest, c = rpmCommand) ∧ c = rpmCommand
  | .store it c _ => (∀ c ∈ it.rest, c = rpmCommand) ∧ c = rpmCommand
  | .subs it c _ => (∀ c ∈ it.rest, c = rpmCommand) ∧ c = rpmCommand
  | .fire it _ _ _ => ∀ c ∈ it.rest, c = rpmCommand
  | .inside it _ _ _ => ∀ c ∈ it.rest, c = rpmCommand
  | _ => True

structure Endless (s : AW) : Prop where
  reach : AReach (demo table) fl0 politeCallback s
  going : Going s 0
  up : DemoUp s.obd
  cmds : ∀ e ∈ s.commands, e.2.1 = rpmCommand
  at_ : ∃ pc, s.threads = [pc] ∧ rpmPc pc
  idle : s.caller = .idle

theorem endless_next {s : AW} (h : Endless s) : ∃ s', s.step (demo table) fl0 (goOn s) = some s' ∧ Endless s' := by
  obtain ⟨pc, ht, hpc⟩ := h.at_
  obtain ⟨pc', hp1, hp2, hp3, hp4⟩ := h.going.at_
  have hp0 : s.threads[0]? = some pc := by rw [ht]; rfl
  rw [hp0] at hp1; cases hp1
  have hd := (areach_polite h.reach).ok 0 pc hp0
  have hpol : politeCallback s (goOn s) := by
    unfold goOn
    split <;> trivial
  have fin : ∀ (s' : AW) (pc' : Pc) (es : List Ev), s.step (demo table) fl0 (goOn s) = some s' → s'.log = s.log ++ es → (∀ e, .ended e ∉ es) → DemoUp s'.obd →
      (∀ e ∈ s'.commands, e.2.1 = rpmCommand) → s'.threads = s.threads.set 0 pc' → rpmPc pc' → s'.caller = s.caller → ∃ s', s.step (demo table) fl0 (goOn s) = some s' ∧ Endless s' := by
    intro s' pc' es h1 h2 h3 h4 h5 h6 h7 h8
    have hr' : AReach (demo table) fl0 politeCallback s' := .step s _ s' h.reach hpol h1
    refine ⟨s', h1, hr', ?_, h4, h5, ⟨pc', by rw [h6, ht]; rfl, h7⟩, by rw [h8]; exact h.idle⟩
    refine going_step (areach_inv h.reach) (areach_polite h.reach) (areach_polite hr') hpol h.going h1 ?_ h.up.connected ?_
    · unfold goOn; split <;> simp
    · intro es' h9
      rw [h2] at h9
      rw [← List.append_cancel_left h9]
      exact ⟨h3 _, fun x => h3 _⟩
  have hdae : (∀ it r l i, pc ≠ .inside it r l i) → s.step (demo table) fl0 (goOn s) = s.daemonStep (demo table) fl0 0 pc := by
    intro h1
    have : goOn s = .daemon 0 := by
      unfold goOn; rw [hp0]
      split
      · next heq => cases heq; exact absurd rfl (h1 _ _ _ _)
      · rfl
    rw [this]; unfold step; simp only [hp0]
  have hrun := h.going.running
  cases pc with
  | notStarted => cases hp2
  | finished e => cases hp2
  | drop1 => exact absurd rfl hp3
  | drop2 => exact absurd rfl hp4
  | test =>
    refine fin (s.setPc 0 .size) .size [] ?_ (List.append_nil _).symm (by simp) h.up h.cmds rfl trivial rfl
    rw [hdae (by simp)]; simp only [daemonStep, if_pos hrun]
  | size =>
    by_cases hz : s.commands.length > 0
    · refine fin (s.setPc 0 .iter) .iter [] ?_ (List.append_nil _).symm (by simp) h.up h.cmds rfl trivial rfl
      rw [hdae (by simp)]; simp only [daemonStep, if_pos hz]
    · refine fin ((s.setPc 0 .sleep).emit .slept) .sleep [.slept] ?_ rfl (by simp) h.up h.cmds rfl trivial rfl
      rw [hdae (by simp)]; simp only [daemonStep, if_neg hz]
  | iter =>
    refine fin (s.setPc 0 (.next { dict := s.dictId, keys := s.commands.keys, rest := s.commands.map (fun e => e.2.1) })) _ []
      (by rw [hdae (by simp)]; rfl) (List.append_nil _).symm (by simp) h.up h.cmds rfl ?_ rfl
    intro c hc
    obtain ⟨e, he, rfl⟩ := List.mem_map.mp hc
    exact h.cmds e he
  | next it =>
    have hk : ¬ (it.dict = s.dictId ∧ it.keys ≠ s.commands.keys) := by intro h2; exact h2.2 hd.keys
    cases hr : it.rest with
    | nil =>
      refine fin ((s.setPc 0 .sleep).emit .slept) .sleep [.slept] ?_ rfl (by simp) h.up h.cmds rfl trivial rfl
      rw [hdae (by simp)]; simp only [daemonStep, if_neg hk, hr]
    | cons c rest =>
      have hpc : ∀ c ∈ it.rest, c = rpmCommand := hpc
      rw [hr] at hpc
      refine fin (s.setPc 0 (.conn { it with rest := rest } c)) _ [] ?_ (List.append_nil _).symm (by simp) h.up h.cmds rfl
        ⟨fun c hc => hpc c (List.mem_cons_of_mem _ hc), hpc c (by simp)⟩ rfl
      rw [hdae (by simp)]; simp only [daemonStep, if_neg hk, hr]
  | conn it c =>
    refine fin (s.setPc 0 (.query it c)) _ [] ?_ (List.append_nil _).symm (by simp) h.up h.cmds rfl hpc rfl
    rw [hdae (by simp)]; simp only [daemonStep, if_pos h.up.connected]
  | query it c =>
    obtain ⟨hpc1, rfl⟩ := hpc
    obtain ⟨r, o, hq, h1, h2, h3⟩ := demo_rpm h.up.iface h.up.fast h.up.header
    refine fin (({ s with obd := o }.setPc 0 (.store it rpmCommand r)).emit (.queried rpmCommand)) (.store it rpmCommand r) [.queried rpmCommand] ?_ rfl (by simp) ⟨h1.trans h.up.iface, h2, h3⟩ h.cmds rfl ⟨hpc1, rfl⟩ rfl
    rw [hdae (by simp)]; simp only [daemonStep, hq]
  | store it c r =>
    refine fin (({ s with commands := setResponse s.commands c r }.setPc 0 (.subs it c r)).emit (.stored c r)) (.subs it c r) [.stored c r]
      (by rw [hdae (by simp)]; rfl) rfl (by simp) h.up ?_ rfl hpc rfl
    intro e he
    have he : e ∈ setResponse s.commands c r := he
    unfold setResponse at he
    rcases Dict.mem_set he with h1 | h1
    · exact h.cmds e h1
    · subst h1
      cases hg : s.commands.get? c.key with
      | none => exact hpc.2
      | some x => exact h.cmds (c.key, x) (Dict.get?_mem hg)
  | subs it c r =>
    cases hg : s.cbs.get? c.key with
    | none =>
      exfalso
      have h1 := (areach_polite h.reach).complete c.key hd.2
      have h2 : s.callbacks.get? c.key = none := by rw [callbacks_get, hg]; rfl
      rw [← Dict.mem_iff] at h1
      simp [Dict.mem, h2] at h1
    | some l =>
      refine fin (s.setPc 0 (.fire it r l 0)) _ [] ?_ (List.append_nil _).symm (by simp) h.up h.cmds rfl hpc.1 rfl
      rw [hdae (by simp)]; simp only [daemonStep, hg]
  | fire it r l i =>
    cases hx : (s.list l)[i]? with
    | none =>
      refine fin (s.setPc 0 (.next it)) _ [] ?_ (List.append_nil _).symm (by simp) h.up h.cmds rfl hpc rfl
      rw [hdae (by simp)]; simp only [daemonStep, hx]
    | some j =>
      refine fin ((s.setPc 0 (.inside it r l (i + 1))).emit (.fired j r)) _ [.fired j r] ?_ rfl (by simp) h.up h.cmds rfl hpc rfl
      rw [hdae (by simp)]; simp only [daemonStep, hx]
  | inside it r l i =>
    refine fin (s.setPc 0 (.fire it r l i)) _ [] ?_ (List.append_nil _).symm (by simp) h.up h.cmds rfl hpc rfl
    have : goOn s = .cbEnd 0 true := by unfold goOn; rw [hp0]
    rw [this]; unfold step; simp only [hp0]; rfl
  | sleep => exact fin (s.setPc 0 .test) _ [] (by rw [hdae (by simp)]; rfl) (List.append_nil _).symm (by simp) h.up h.cmds rfl trivial rfl

theorem endless_all (n : Nat) : Endless (endless n) ∧ (endless n).step (demo table) fl0 (goOn (endless n)) = some (endless (n + 1)) := by
  have hnext : ∀ n, Endless (endless n) → (endless n).step (demo table) fl0 (goOn (endless n)) = some (endless (n + 1)) ∧ Endless (endless (n + 1)) := by
    intro n h
    obtain ⟨s', h1, h2⟩ := endless_next h
    have : endless (n + 1) = s' := by
      show ((endless n).step (demo table) fl0 (goOn (endless n))).getD (endless n) = s'
      rw [h1]; rfl
    rw [this]; exact ⟨h1, h2⟩
  have h0 : Endless (endless 0) := by
    have hc : isConnected (demoObd false) = true := by decide +kernel
    refine ⟨arun_reach (.init _ _ (demoObd_constructed false)) (play_polite (as := watchRpm ++ startUp) (by decide) (started_up _ _ _ hc)),
      ⟨rfl, ⟨.test, rfl, rfl, by simp, by simp⟩, ?_⟩, ⟨rfl, by decide +kernel, by decide +kernel⟩, ?_, ⟨.test, rfl, trivial⟩, rfl⟩
    · intro op p hp; cases hp
    · intro e he
      have he : e ∈ [(rpmCommand.key, rpmCommand, ({} : Response))] := he
      rw [List.mem_singleton] at he; subst he; rfl
  have hall : ∀ n, Endless (endless n) := by
    intro n
    induction n with
    | zero => exact h0
    | succ n ih => exact (hnext n ih).2
  exact ⟨hall n, (hnext n (hall n)).1⟩

/-- The run is fair and meets the hypotheses of the theorem. -/
theorem endless_fair : FairRun (demo table) fl0 endless (fun n => goOn (endless n)) where
  start := (endless_all 0).1.reach
  polite := by intro n; show politeCallback _ (goOn _); unfold goOn; split <;> trivial
  step := fun n => (endless_all n).2
  user := by
    intro n h
    exfalso
    have h1 := h n (Nat.le_refl _)
    unfold step at h1
    simp only [(endless_all n).1.idle] at h1
    exact h1 rfl
  thread := by
    intro t n h
    refine ⟨n, Nat.le_refl _, ?_⟩
    obtain ⟨pc, h1, h2⟩ := h n (Nat.le_refl _)
    obtain ⟨pc0, h3, -⟩ := (endless_all n).1.at_
    rw [h3] at h1
    have : t = 0 := by
      cases t with
      | zero => rfl
      | succ t => simp at h1
    subst this
    show goOn _ = _ ∨ _
    unfold goOn
    split
    · exact Or.inr ⟨true, rfl⟩
    · exact Or.inl rfl

/-- The demo car: its loop runs forever, and the callback for the engine speed is called again and again. -/
example : ∀ m, ∃ m' > m, ∃ new, (endless m').log = (endless m).log ++ new ∧ ∃ r, .fired 1 r ∈ new := by
  have hgo : ∀ n, Active (endless n) 0 := by
    intro n
    obtain ⟨pc, h1, h2, -⟩ := (endless_all n).1.going.at_
    exact ⟨pc, h1, h2⟩
  have hend : ∀ d, ∃ new, (endless d).log = (endless 0).log ++ new ∧ ∀ e, .ended e ∉ new := by
    intro d
    induction d with
    | zero => exact ⟨[], (List.append_nil _).symm, by simp⟩
    | succ d ih =>
      obtain ⟨new, h1, h2⟩ := ih
      obtain ⟨K, hK⟩ := callbacks_bound (endless d)
      have hE := (endless_all d).1
      obtain ⟨-, -, ⟨es, h3, h4⟩, -⟩ := live_step (areach_inv hE.reach) (areach_any hE.reach) (areach_polite hE.reach) (endless_fair.polite d) hE.going.running
        (hgo d) (hgo (d + 1)) hK (endless_all d).2
      exact ⟨new ++ es, by rw [h3, h1, List.append_assoc], fun e he => by
        rcases List.mem_append.mp he with he | he
        · exact h2 e he
        · exact h4 e he⟩
  obtain ⟨-, h⟩ := C96_refreshed (demo table) fl0 endless _ endless_fair 0 0 (hgo 0) (endless_all 0).1.going.running rfl
    (by intro m _; show goOn _ ≠ _ ∧ goOn _ ≠ _ ∧ goOn _ ≠ _; unfold goOn; split <;> simp) (fun m _ => (endless_all m).1.up.connected)
    (by intro m _ new hn
        obtain ⟨new', h1, h2⟩ := hend m
        rw [h1] at hn
        rw [← List.append_cancel_left hn]
        exact ⟨h2 _, fun x => h2 _⟩)
  intro m
  obtain ⟨d, -, hsub⟩ : ∃ d : Nat, d = m ∧ subscribers (endless m) rpmCommand = some [1] := by
    refine ⟨m, rfl, ?_⟩
    have hk : Keeps endless 0 0 := ⟨fun m _ => hgo m, fun m _ => (endless_all m).1.going.running⟩
    obtain ⟨h1, h2⟩ := keeps_tables endless_fair hk m
    rw [Nat.zero_add] at h1 h2
    have h3 : subscribers (endless 0) rpmCommand = some [1] := rfl
    unfold subscribers at h3 ⊢
    have h4 : (endless m).commands.mem rpmCommand.key = true := by rw [Dict.mem_iff, h2, ← Dict.mem_iff]; rfl
    rw [if_pos h4, (subs_of_cbl h1).1]; rfl
  obtain ⟨m', h1, new, h2, -, r, -, -, h3⟩ := h m (Nat.zero_le _) rpmCommand [1] hsub
  exact ⟨m', h1, new, h2, r, h3 1 (by simp)⟩

end Props
