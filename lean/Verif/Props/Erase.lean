import Verif.Props.Stateless
import Verif.Spec.Erase
/-!
# C81: trouble codes are erased on request only
-/
namespace Model
open Py Spec

/-- The state of `erasures`. -/
def eraseState (h : History) : Option Bytes × Nat := h.foldl eraseStep (none, 0)

theorem eraseState_append (h : History) (evs : History) : eraseState (h ++ evs) = evs.foldl eraseStep (eraseState h) := by
  unfold eraseState; rw [List.foldl_append]

/-- A line that is not blank and does not erase. -/
def Plain (c : Bytes) : Prop := blankLine (line c) = false ∧ erasing (line c) = false
/-- A line that does not erase. -/
def Soft (c : Bytes) : Prop := blankLine (line c) = true ∨ erasing (line c) = false

/-- Nothing was erased, and the last command is unknown or does not erase. -/
def Clean3 (h : History) : Prop := (eraseState h).2 = 0 ∧ ((eraseState h).1 = none ∨ ∃ b, (eraseState h).1 = some b ∧ erasing b = false)
/-- Nothing was erased, and the last command does not erase. -/
def Clean2 (h : History) : Prop := (eraseState h).2 = 0 ∧ ∃ b, (eraseState h).1 = some b ∧ erasing b = false

theorem clean3_stable (dev : Device) : HStable dev Plain Clean3 where
  write_ok := fun h cmd hR hW _ => by
    unfold Clean3 at *
    rw [eraseState_append]
    simp only [List.foldl, eraseStep, hW.1, hW.2]
    exact ⟨hR.1, Or.inr ⟨_, rfl, hW.2⟩⟩
  write_fail := fun h cmd hR hW _ => by
    unfold Clean3 at *
    rw [eraseState_append]
    simp only [List.foldl, eraseStep, hW.1, hW.2]
    exact ⟨hR.1, Or.inr ⟨_, rfl, hW.2⟩⟩
  read_ok := fun h m b hR _ => by unfold Clean3 at *; rw [eraseState_append]; exact hR
  read_fail := fun h m hR _ => by unfold Clean3 at *; rw [eraseState_append]; exact hR
  close := fun h hR => by unfold Clean3 at *; rw [eraseState_append]; exact hR
  probe := fun h b hR => by unfold Clean3 at *; rw [eraseState_append]; exact hR
  setBaud := fun h b hR => by unfold Clean3 at *; rw [eraseState_append]; exact hR

theorem clean2_write {h : History} {cmd : Bytes} (hR : Clean2 h) (hW : Soft cmd) (ok : Bool) (evs : History) (he : evs = [] ∨ evs = [.close]) :
    Clean2 (h ++ (.write (line cmd) ok :: evs)) := by
  unfold Clean2 at *
  rw [eraseState_append]
  obtain ⟨h1, b, h2, h3⟩ := hR
  have key : ∀ st, evs.foldl eraseStep st = st := by rcases he with rfl | rfl <;> intro st <;> rfl
  rw [List.foldl_cons, key]
  show _ ∧ _
  rw [show eraseState h = ((eraseState h).1, (eraseState h).2) from rfl, h1, h2]
  by_cases hb : blankLine (line cmd) = true
  · simp only [eraseStep, hb, h3, if_true, Option.elim]
    exact ⟨rfl, b, rfl, h3⟩
  · have hs : erasing (line cmd) = false := hW.resolve_left hb
    simp only [eraseStep, hb, hs]
    exact ⟨rfl, _, rfl, hs⟩

theorem clean2_stable (dev : Device) : HStable dev Soft Clean2 where
  write_ok := fun h cmd hR hW _ => clean2_write hR hW _ _ (Or.inl rfl)
  write_fail := fun h cmd hR hW _ => clean2_write hR hW _ _ (Or.inr rfl)
  read_ok := fun h m b hR _ => by unfold Clean2 at *; rw [eraseState_append]; exact hR
  read_fail := fun h m hR _ => by unfold Clean2 at *; rw [eraseState_append]; exact hR
  close := fun h hR => by unfold Clean2 at *; rw [eraseState_append]; exact hR
  probe := fun h b hR => by unfold Clean2 at *; rw [eraseState_append]; exact hR
  setBaud := fun h b hR => by unfold Clean2 at *; rw [eraseState_append]; exact hR

theorem plain_A (t : Bytes) : Plain (0x41 :: t) := by
  refine ⟨by simp [line, blankLine], ?_⟩
  unfold erasing line
  rw [show (0x41 :: t ++ [0x0D] : Bytes) = 0x41 :: (t ++ [0x0D]) from rfl, List.filter_cons_of_pos (by decide)]
  rw [List.take_succ_cons]
  exact beq_false_of_ne (fun h => absurd (List.cons.inj h).1 (by decide))

theorem Plain.soft {c : Bytes} (h : Plain c) : Soft c := Or.inr h.2

theorem setup_plain : HStable.Setup Plain := by
  refine ⟨plain_A _, plain_A _, plain_A _, plain_A _, plain_A _, plain_A _, plain_A _, ⟨by decide, by decide⟩, fun id => plain_A _⟩

theorem plain_header (h : Bytes) : Plain (headerLine h) := plain_A _

theorem erasing_append {a : Bytes} (h : 2 ≤ (a.filter (fun x => x ≠ 0x20)).length) (b : Bytes) : erasing (a ++ b) = erasing a := by
  unfold erasing
  rw [List.filter_append, List.take_append_of_le_length h]

theorem withCount_append (s : OW) (c : OBDCommand) : ∃ t, ObdM.withCount s c = c.command ++ t := by
  unfold ObdM.withCount
  split
  · split
    · exact ⟨_, rfl⟩
    · exact ⟨[], by simp⟩
  · exact ⟨[], by simp⟩

/-- A built command is empty, or the command with a count. -/
theorem build_cases (s : OW) (c : OBDCommand) : (ObdM.buildCommand s c = [] ∧ s.lastCommand = ObdM.withCount s c) ∨
    ObdM.buildCommand s c = ObdM.withCount s c := by
  unfold ObdM.buildCommand
  split
  · next h => left; simp only [Bool.and_eq_true, beq_iff_eq] at h; exact ⟨rfl, h.2.symm⟩
  · right; rfl

theorem erasing_withCount {c : OBDCommand} (h : 2 ≤ (c.command.filter (fun x => x ≠ 0x20)).length) (s : OW) :
    erasing (line (ObdM.withCount s c)) = erasing c.command := by
  obtain ⟨t, ht⟩ := withCount_append s c
  rw [ht]; unfold line
  rw [List.append_assoc, erasing_append h]

theorem sends_soft {c : OBDCommand} (h : 2 ≤ (c.command.filter (fun x => x ≠ 0x20)).length) (he : erasing c.command = false) : ObdM.Sends Soft c := by
  refine ⟨(plain_header c.header).soft, fun s => ?_⟩
  rcases build_cases s c with ⟨h1, -⟩ | h1 <;> rw [h1]
  · left; rfl
  · right; rw [erasing_withCount h, he]

/-- The port is gone, or some line was written to it. -/
def Used (w : EW) : Prop := w.elm.port = none ∨ (eraseState w.hist).1 ≠ none

theorem Used.more {w w' : EW} (h : Used w) (h1 : w'.elm.port = none ↔ w.elm.port = none) (evs : History) (h2 : w'.hist = w.hist ++ evs) (h3 : NoOpen evs) : Used w' := by
  rcases h with h | h
  · left; exact h1.2 h
  · right
    rw [h2, eraseState_append]
    clear h2
    generalize eraseState w.hist = st at h
    induction evs generalizing st with
    | nil => exact h
    | cons e evs ih =>
      rw [List.foldl_cons]
      refine ih (fun e he => h3 e (List.mem_cons_of_mem _ he)) _ ?_
      cases e with
      | open_ p r => exact absurd rfl (h3 _ List.mem_cons_self p r)
      | write b ok =>
        obtain ⟨l, n⟩ := st
        simp only [eraseStep]
        split
        · exact h
        · simp
      | _ => obtain ⟨l, n⟩ := st; exact h

namespace ElmM
variable {dev : Device}

theorem used_send {c : Bytes} (hc : blankLine (line c) = false) (d : Bool) (m : Bytes) (w : EW) : Used (send dev c d m w).2 := by
  rcases send_outcome dev c d m w with ⟨hp, h⟩ | ⟨p, l, w', hp, h, hr⟩ <;> rw [h]
  · exact Or.inl hp
  · have key : ∀ evs st, NoOpen evs → st.1 ≠ none → (evs.foldl eraseStep st).1 ≠ none := by
      intro evs st h3 h
      have := Used.more (w := ⟨{ fresh 0 with port := none }, []⟩) (w' := ⟨fresh 0, []⟩)
      induction evs generalizing st with
      | nil => exact h
      | cons e evs ih =>
        rw [List.foldl_cons]
        refine ih _ (fun e he => h3 e (List.mem_cons_of_mem _ he)) ?_
        cases e with
        | open_ p r => exact absurd rfl (h3 _ List.mem_cons_self p r)
        | write b ok =>
          obtain ⟨l, n⟩ := st
          simp only [eraseStep]
          split
          · exact h
          · simp
        | _ => obtain ⟨l, n⟩ := st; exact h
    cases hr with
    | replied bs b _ =>
      right
      show (eraseState (w.hist ++ Event.write (line c) true :: (reads bs ++ [.read (some b)]))).1 ≠ none
      rw [eraseState_append, List.foldl_cons]
      refine key _ _ ?_ ?_
      · intro e he; simp only [reads, List.mem_append, List.mem_map, List.mem_singleton] at he
        rcases he with ⟨x, -, rfl⟩ | rfl <;> simp
      · simp [eraseStep, hc]
    | writeFailed => left; rfl
    | readFailed bs _ => left; rfl

theorem used_kept_send {c : Bytes} (d : Bool) (m : Bytes) : Kept Used (send dev c d m) := by
  intro w hw
  rcases send_outcome dev c d m w with ⟨hp, h⟩ | ⟨p, l, w', hp, h, hr⟩ <;> rw [h]
  · exact hw
  · cases hr with
    | replied bs b _ =>
      refine Used.more hw Iff.rfl _ rfl ?_
      intro e he; simp only [reads, List.mem_cons, List.mem_append, List.mem_map, List.not_mem_nil, or_false] at he
      rcases he with rfl | ⟨x, -, rfl⟩ | rfl <;> simp
    | writeFailed => left; rfl
    | readFailed bs _ => left; rfl

theorem used_elm {f : Elm → Elm} (hf : ∀ e, (f e).port = e.port) : Kept Used (modifyElm f) := by
  intro w hw
  rcases hw with h | h
  · left; show (f w.elm).port = none; rw [hf]; exact h
  · right; exact h

theorem used_close (w : EW) : Used (close dev w).2 := Or.inl (close_any dev w).2.1

theorem used_stable : Stable dev (fun _ => True) Used where
  send := fun c d m _ => used_kept_send d m
  proto := fun _ _ hw => hw

theorem used_initAt (fl : FloatFn) (pr : Option Str) (cv : Bool) (w : EW) : Used (initAt dev fl pr cv w).2 := by
  have hs : ∀ (c : Bytes) (d : Bool) (m : Bytes), Kept Used (send dev c d m) := fun c d m => used_kept_send d m
  have hcl : Kept Used (close dev) := fun w _ => used_close w
  have hset := kept_setProtocol (dev := dev) used_stable pr (fun _ => trivial) trivial trivial trivial
  have hip : Kept Used (initProtocol dev pr) := by
    unfold initProtocol
    refine Kept.bind hset (fun b => ?_)
    split
    · refine Kept.bind (used_elm (fun _ => rfl)) (fun _ => ?_)
      unfold logConnected
      refine Kept.bind Kept.getElm (fun e => ?_)
      split
      · exact Kept.throw _
      · exact Kept.pure _
    · exact Kept.pure _
  have hv : Kept Used (initVoltage dev fl pr cv) := by
    unfold initVoltage
    split
    · refine Kept.bind (hs _ _ _) (fun r => ?_)
      split
      · split
        · exact hcl
        · split
          · exact hcl
          · split
            · exact Kept.pure _
            · exact Kept.bind (used_elm (fun _ => rfl)) (fun _ => hip)
      · exact hcl
    · exact hip
  unfold initAt
  rw [PyM.bind_apply]
  have h0 := used_send (dev := dev) (c := ascii "ATZ") (by decide) true elmPrompt w
  cases hm : send dev (ascii "ATZ") true elmPrompt w with
  | mk r w' =>
    rw [hm] at h0
    cases r with
    | error x => exact h0
    | ok l =>
      simp only
      refine Kept.bind (P := Used) (hs _ _ _) (fun r => ?_) w' h0
      split
      · exact hcl
      · refine Kept.bind (hs _ _ _) (fun r => ?_)
        split
        · exact hcl
        · refine Kept.bind (hs _ _ _) (fun r => ?_)
          split
          · exact hcl
          · exact Kept.bind (used_elm (fun _ => rfl)) (fun _ => hv)

theorem used_construct {fl : FloatFn} {port : Str} {cfg : Config} {hist : History} {w : EW} (h : construct dev fl port cfg hist = (.ok (), w)) : Used w := by
  have main : ∀ w w', (do
      if ¬ (← setBaudrate dev cfg.baudrate) then error dev
      else initAt dev fl cfg.protocol cfg.checkVoltage : ElmM Unit) w = (.ok (), w') → Used w' := by
    intro w w' h
    obtain ⟨b, w1, h1, h2⟩ := bind_inv h
    split at h2
    · have := used_close (dev := dev) w1
      unfold error at h2
      rw [h2] at this; exact this
    · have := used_initAt (dev := dev) fl cfg.protocol cfg.checkVoltage w1
      rw [h2] at this; exact this
  unfold construct init at h
  simp only at h
  cases ho : dev.openPort hist port with
  | some x =>
    rw [ho] at h
    cases x with
    | serialException => have := used_close (dev := dev) ⟨fresh cfg.timeout, hist ++ [.open_ port (some .serialException)]⟩; change close dev _ = _ at h; rw [h] at this; exact this
    | osError => have := used_close (dev := dev) ⟨fresh cfg.timeout, hist ++ [.open_ port (some .osError)]⟩; change close dev _ = _ at h; rw [h] at this; exact this
    | _ => cases h
  | none =>
    rw [ho] at h
    simp only at h
    rw [PyM.bind_ok (show modifyElm _ _ = (.ok (), _) from rfl)] at h
    split at h
    · obtain ⟨_, w1, h1, h2⟩ := bind_inv h
      exact main _ _ h2
    · exact main _ _ h

end ElmM
namespace ObdM
variable {dev : Device} {fl : ElmM.FloatFn}

theorem getters_soft : ∀ c ∈ pidGetters, Sends Soft c := by
  have h : pidGetters.all (fun c => decide (2 ≤ (c.command.filter (fun x => x ≠ 0x20)).length) && !erasing c.command) = true := by decide +kernel
  intro c hc
  have := List.all_eq_true.1 h c hc
  simp only [Bool.and_eq_true, decide_eq_true_eq, Bool.not_eq_true'] at this
  exact sends_soft this.1 this.2

theorem clean3_opened {h : History} (hc : Clean3 h) (port : Str) (r : Option Exc) : Clean3 (h ++ [.open_ port r]) := by
  unfold Clean3 at *
  rw [eraseState_append]
  exact ⟨hc.1, Or.inl rfl⟩

/-- Connecting erases nothing, and a connected object has used its port. -/
theorem clean_connect (a : Args) (ha : a.cfg.startLowPower = false) :
    let r := connect dev fl a.ports a.portstr a.cfg { supported := baseCommands, fast := a.fast }
    Clean3 r.2.hist ∧ (r.1 = .ok () → status r.2 ≠ .notConnected → Clean2 r.2.hist) := by
  have hlp : a.cfg.startLowPower = true → Plain (ascii " ") := by rw [ha]; intro h; cases h
  have h0 : OSound { supported := baseCommands, fast := a.fast } := ⟨shape_nil, by simp⟩
  have c0 : Clean3 [] := ⟨rfl, Or.inl rfl⟩
  have hcl : ∀ {s s' : OW} {r : Except Exc Unit}, OSound s → closeIfFailed dev s = (r, s') → s'.hist = s.hist := by
    intro s s' r hs h
    unfold closeIfFailed at h
    rw [PyM.bind_ok (show PyM.get s = (.ok s, s) from rfl)] at h
    split at h
    · next hst => rw [close_nc hs hst] at h; cases h; rfl
    · cases h; rfl
  have hc3 : Clean3 (connect dev fl a.ports a.portstr a.cfg { supported := baseCommands, fast := a.fast }).2.hist := by
    unfold connect
    cases hp : a.portstr with
    | none =>
      simp only
      split
      · exact c0
      · have h1 := (clean3_stable dev).tryPorts setup_plain hlp fl (fun h p hh => clean3_opened hh p _) a.ports { supported := baseCommands, fast := a.fast } c0
        rw [PyM.bind_apply]
        cases hm : tryPorts dev fl a.cfg a.ports { supported := baseCommands, fast := a.fast } with
        | mk r s1 =>
          rw [hm] at h1
          cases r with
          | error x => exact h1
          | ok u =>
            simp only
            rw [hcl (s' := (closeIfFailed dev s1).2) (tryPorts_sound a.ports hm h0) rfl]
            exact h1
    | some p =>
      have h1 := (clean3_stable dev).openInterface setup_plain hlp fl p (fun h hh => clean3_opened hh p _) { supported := baseCommands, fast := a.fast } c0
      simp only
      rw [PyM.bind_apply]
      cases hm : openInterface dev fl p a.cfg { supported := baseCommands, fast := a.fast } with
      | mk r s1 =>
        rw [hm] at h1
        cases r with
        | error x => exact h1
        | ok u =>
          simp only
          rw [hcl (s' := (closeIfFailed dev s1).2) (openInterface_sound hm h0) rfl]
          exact h1
  refine ⟨hc3, fun hr hs => ?_⟩
  obtain ⟨port, t, -, -, -, -, -, -, ho⟩ := connect_opened (s' := (connect dev fl a.ports a.portstr a.cfg { supported := baseCommands, fast := a.fast }).2)
    (Prod.ext hr rfl) rfl hs
  obtain ⟨w, hw, hw'⟩ := openInterface_ok ho
  have hu := ElmM.used_construct hw
  rw [hw'] at hc3 hs ⊢
  refine ⟨hc3.1, hc3.2.resolve_left ?_⟩
  rcases hu with hu | hu
  · intro
    exact absurd ((ElmM.construct_linked hw).2 hu) (by simpa [status] using hs)
  · exact hu

theorem clean_construct (a : Args) (ha : a.cfg.startLowPower = false) :
    Clean3 (ObdM.construct dev fl a.ports a.portstr a.fast a.cfg).2.hist ∧
    ((ObdM.construct dev fl a.ports a.portstr a.fast a.cfg).1 = .ok () → status (ObdM.construct dev fl a.ports a.portstr a.fast a.cfg).2 ≠ .notConnected →
      Clean2 (ObdM.construct dev fl a.ports a.portstr a.fast a.cfg).2.hist) := by
  obtain ⟨h1, h2⟩ := clean_connect (dev := dev) (fl := fl) a ha
  unfold construct
  rw [PyM.bind_apply]
  cases hm : connect dev fl a.ports a.portstr a.cfg { supported := baseCommands, fast := a.fast } with
  | mk r s1 =>
    rw [hm] at h1 h2
    cases r with
    | error x => exact ⟨h1, fun h => by cases h⟩
    | ok u =>
      simp only
      by_cases hs : status s1 = .notConnected
      · have : loadCommands dev fl s1 = (.ok (), s1) := by
          unfold loadCommands
          rw [PyM.bind_ok (show PyM.get s1 = (.ok s1, s1) from rfl), if_pos (by rw [hs]; simp)]; rfl
        rw [this]
        exact ⟨h1, fun _ h => absurd hs h⟩
      · have h3 := kept_loadCommandsOn ((clean2_stable dev).ostable (Or.inl rfl)) fl getters_soft s1 (h2 rfl hs)
        exact ⟨⟨h3.1, Or.inr h3.2⟩, fun _ _ => h3⟩

theorem clean2_session (calls : List Call) (hc : ∀ c ∈ calls, TwoChars c) (he : eraseCalls calls = 0) (s : OW) (h : Clean2 s.hist) :
    Clean2 (session dev fl calls s).hist := by
  have H := clean2_stable dev
  induction calls generalizing s with
  | nil => exact h
  | cons c cs ih =>
    have hcs : eraseCalls cs = 0 := by
      unfold eraseCalls at he ⊢
      rw [List.countP_eq_zero] at he ⊢
      exact fun x hx => he x (List.mem_cons_of_mem _ hx)
    refine ih (fun x hx => hc x (List.mem_cons_of_mem _ hx)) hcs _ ?_
    have h1 := hc c List.mem_cons_self
    unfold eraseCalls at he
    rw [List.countP_eq_zero] at he
    have h2 := he c List.mem_cons_self
    cases c with
    | query q force => exact H.query (Or.inl rfl) fl q (sends_soft h1.2 (by simpa using h2)) force s h
    | lowPower => exact H.lowPower (plain_A _).soft s h
    | normalPower => exact H.normalPower (Or.inl rfl) s h
    | close => exact H.obdClose (plain_A _).soft (Or.inl rfl) (plain_header _).soft s h

/-! ## counting -/

/-- One line. -/
def lineStep (st : Option Bytes × Nat) (b : Bytes) : Option Bytes × Nat := eraseStep st (.write b true)

theorem eraseState_sent (h : History) {evs : History} (hn : NoOpen evs) : eraseState (h ++ evs) = (sent evs).foldl lineStep (eraseState h) := by
  rw [eraseState_append]
  generalize eraseState h = st
  induction evs generalizing st with
  | nil => rfl
  | cons e evs ih =>
    have ih' := fun st => ih (fun e he => hn e (List.mem_cons_of_mem _ he)) st
    cases e with
    | open_ p r => exact absurd rfl (hn _ List.mem_cons_self p r)
    | write b ok =>
      show evs.foldl eraseStep (eraseStep st (.write b ok)) = (sent evs).foldl lineStep (lineStep st b)
      exact ih' _
    | _ => obtain ⟨l, n⟩ := st; exact ih' _

theorem lineStep_mono (ls : List Bytes) (st : Option Bytes × Nat) : st.2 ≤ (ls.foldl lineStep st).2 := by
  induction ls generalizing st with
  | nil => exact Nat.le_refl _
  | cons b ls ih =>
    refine Nat.le_trans ?_ (ih _)
    obtain ⟨l, n⟩ := st
    simp only [lineStep, eraseStep]
    split <;> simp

theorem lineStep_plain {c : Bytes} (h : Plain c) (st : Option Bytes × Nat) : lineStep st (line c) = (some (line c), st.2) := by
  obtain ⟨l, n⟩ := st
  simp [lineStep, eraseStep, h.1, h.2]

theorem lineStep_blank {c : Bytes} (h : blankLine (line c) = true) (b : Bytes) (n : Nat) :
    lineStep (some b, n) (line c) = (some b, n + if erasing b then 1 else 0) := by
  unfold lineStep eraseStep
  simp only
  rw [if_pos h]
  rfl

/-- At most `n` erasures; once the connection is lost nothing more will happen, else the last line erases only if
the last command of a query does, and the adapter is awake then. -/
def Count (n : Nat) (s : OW) : Prop :=
  (status s = .notConnected ∧ erasures s.hist ≤ n) ∨
  ∃ b m e, eraseState s.hist = (some b, m) ∧ m ≤ n ∧ s.interface = some e ∧
    (erasing b = true → erasing (line s.lastCommand) = true ∧ e.lowPower = false)

theorem Count.le {n : Nat} {s : OW} (h : Count n s) : erasures s.hist ≤ n := by
  rcases h with ⟨-, h⟩ | ⟨b, m, e, h1, h2, -⟩
  · exact h
  · show (eraseState s.hist).2 ≤ n
    rw [h1]; exact h2

/-- The attributes after an exchange that returned, if the connection is still there. -/
theorem exchange_attrs {c : OBDCommand} {s : OW} {e : Elm} {o : ProtoObj} (hl : Live s e o) {r : Response} {s1 : OW}
    (h : exchange dev fl c s = (.ok r, s1)) (hs : status s1 ≠ .notConnected) :
    s1.lastCommand = (if (buildCommand s c).isEmpty then s.lastCommand else buildCommand s c) ∧ ∃ e', s1.interface = some e' ∧ e'.lowPower = false := by
  have hb : ∀ {s : OW} {e : Elm}, Live s e o → ∀ {r s1}, body dev fl c s = (.ok r, s1) → status s1 ≠ .notConnected →
      s1.lastCommand = (if (buildCommand s c).isEmpty then s.lastCommand else buildCommand s c) ∧ ∃ e', s1.interface = some e' ∧ e'.lowPower = false := by
    intro s e hl r s1 h hs
    rcases body_cases (dev := dev) (fl := fl) (c := c) hl with ⟨pre, l', evs, x, -, h2, h3, h4⟩ | ⟨pre, l', evs, ms, -, h2, h3, h4⟩ | ⟨evs, h1, h4⟩ <;> rw [h4] at h
    · cases h
    · have := congrArg Prod.snd h
      simp only at this
      subst this
      exact ⟨rfl, _, rfl, rfl⟩
    · cases h; exact absurd rfl hs
  rw [exchange_eq] at h
  by_cases hh : c.header = s.lastHeader
  · rw [PyM.bind_ok (setHeader_same hh)] at h
    exact hb hl h hs
  · rcases setHeader_cases (dev := dev) hl hh with ⟨pre, l', evs, x, h1, h2, h3, h4⟩ | ⟨pre, l', evs, ms, h1, h2, h3, h4⟩ | ⟨evs, h1, h4⟩
    · rw [PyM.bind_apply, h4] at h; cases h
    · rw [PyM.bind_ok h4] at h
      exact hb (s := { woken s e evs with lastHeader := if ackd ms then c.header else s.lastHeader })
        (e := { e with lowPower := false }) ⟨rfl, hl.status, hl.port, hl.proto⟩ h hs
    · rw [PyM.bind_ok h4, body_nc (e := { lost e with lowPower := false }) rfl rfl] at h
      have := congrArg Prod.snd h
      simp only at this
      subst this
      exact absurd rfl hs

theorem blank_withCount {c : OBDCommand} (h : 0x0D ∉ c.command ∧ 2 ≤ (c.command.filter (fun x => x ≠ 0x20)).length) (s : OW) :
    blankLine (line (withCount s c)) = false := by
  obtain ⟨t, ht⟩ := withCount_append s c
  rw [ht]
  obtain ⟨x, hx⟩ : ∃ x, x ∈ c.command.filter (fun x => x ≠ 0x20) := List.exists_mem_of_length_pos (by omega)
  rw [List.mem_filter] at hx
  unfold blankLine
  rw [List.all_eq_false]
  refine ⟨x, by simp [line, hx.1], ?_⟩
  have h1 : x ≠ 0x0D := fun h' => h.1 (h' ▸ hx.1)
  have h2 : x ≠ 0x20 := by simpa using hx.2
  simp [h1, h2]

theorem erased_query {n : Nat} {s s1 : OW} (hs : OSound s) (h : Count n s) (c : OBDCommand) (force : Bool) (hc : TwoChars (.query c force)) {r : Response}
    (hq : query dev fl c force s = (.ok r, s1)) : Count (n + if erasing c.command then 1 else 0) s1 := by
  have keep : Count (n + if erasing c.command then 1 else 0) s := by
    rcases h with ⟨h1, h2⟩ | ⟨b, m, e, h1, h2, h3⟩
    · left; exact ⟨h1, by omega⟩
    · right; exact ⟨b, m, e, h1, by omega, h3⟩
  rcases query_cases dev fl c force s with ⟨hx, -⟩ | ⟨x, hx, -⟩ | ⟨hx, hst, -⟩
  · rw [hx] at hq; cases hq; exact keep
  · rw [hx] at hq; cases hq
  rw [hx] at hq
  rcases h with ⟨h1, -⟩ | ⟨b, m, e, h1, h2, hi, h3⟩
  · exact absurd h1 hst
  obtain ⟨e', o, hl⟩ := live_of_sound hs hst
  have hee : e' = e := by have := hl.iface; rw [hi] at this; cases this; rfl
  subst hee
  obtain ⟨evs, p, q, g1, g2, g3, g4, g5, g6⟩ := exchange_plan (dev := dev) (fl := fl) (c := c) hl
  rw [hq] at g1 g6
  -- the whole plan
  have hfull : ∃ b', ((plan s e' c).map line).foldl lineStep (some b, m) = (some b', m + if erasing b' && erasing c.command then 1 else 0) ∧
      (erasing b' = true → erasing (line (if (buildCommand s c).isEmpty then s.lastCommand else buildCommand s c)) = true ∧ erasing c.command = true) := by
    -- after the wake-up and the header
    obtain ⟨b1, hb1, hb2⟩ : ∃ b1, ((wake e' ++ (if c.header = s.lastHeader then [] else [headerLine c.header])).map line).foldl lineStep (some b, m) = (some b1, m) ∧
        (erasing b1 = true → erasing (line s.lastCommand) = true) := by
      have hw : ((wake e').map line).foldl lineStep (some b, m) = (some b, m) := by
        unfold wake
        cases hlp : e'.lowPower with
        | false => rfl
        | true =>
          have : erasing b = false := by
            cases hb : erasing b with
            | false => rfl
            | true => have := (h3 hb).2; rw [hlp] at this; cases this
          simp only [if_true, List.map_cons, List.map_nil, List.foldl_cons, List.foldl_nil]
          rw [lineStep_blank (by decide), this]; rfl
      rw [List.map_append, List.foldl_append, hw]
      split
      · exact ⟨b, rfl, fun h => (h3 h).1⟩
      · refine ⟨line (headerLine c.header), ?_, ?_⟩
        · simp only [List.map_cons, List.map_nil, List.foldl_cons, List.foldl_nil]
          rw [lineStep_plain (plain_header _)]
        · rw [(plain_header c.header).2]; intro h; cases h
    rw [plan, ← List.append_assoc, List.map_append, List.foldl_append, hb1]
    simp only [List.map_cons, List.map_nil, List.foldl_cons, List.foldl_nil]
    have hne : withCount s c ≠ [] := by
      intro h0
      have := blank_withCount hc s
      rw [h0] at this; revert this; decide
    rcases build_cases s c with ⟨k1, k2⟩ | k1 <;> rw [k1]
    · rw [lineStep_blank (by decide)]
      have hce : erasing b1 = true → erasing c.command = true := by
        intro hb; rw [← erasing_withCount hc.2 s, ← k2]; exact hb2 hb
      refine ⟨b1, ?_, fun hb => ⟨hb2 hb, hce hb⟩⟩
      cases hb : erasing b1 with
      | false => simp
      | true => simp [hce hb]
    · refine ⟨line (withCount s c), ?_, ?_⟩
      · simp only [lineStep, eraseStep, blank_withCount hc s]
        rw [erasing_withCount hc.2]
        simp
      · intro hb
        have : (withCount s c).isEmpty = false := by simpa using hne
        rw [this]
        exact ⟨hb, by rw [← erasing_withCount hc.2 s]; exact hb⟩
  obtain ⟨b', hf, hj⟩ := hfull
  have hle : (eraseState s1.hist).2 ≤ n + if erasing c.command then 1 else 0 := by
    rw [g1, eraseState_sent _ g2, h1, g5]
    rw [g3, List.map_append, List.foldl_append] at hf
    have := lineStep_mono (q.map line) ((p.map line).foldl lineStep (some b, m))
    rw [hf] at this
    refine Nat.le_trans this ?_
    cases erasing b' <;> cases erasing c.command <;> simp <;> omega
  by_cases hn : status s1 = .notConnected
  · left; exact ⟨hn, hle⟩
  · have hq0 : q = [] := by
      by_contra hq0
      rcases g6 hq0 with g | ⟨x, g⟩
      · exact hn g
      · cases g
    obtain ⟨a1, e2, a2, a3⟩ := exchange_attrs hl hq hn
    right
    refine ⟨b', (eraseState s1.hist).2, e2, ?_, hle, a2, ?_⟩
    · rw [g1, eraseState_sent _ g2, h1, g5]
      rw [g3, hq0, List.append_nil] at hf
      rw [hf]
    · intro hb
      rw [a1]
      exact ⟨(hj hb).1, a3⟩

theorem erased_clean {n : Nat} {s : OW} {b : Bytes} {m : Nat} {e : Elm} (h1 : eraseState s.hist = (some b, m)) (h2 : m ≤ n) (hi : s.interface = some e)
    (hb : erasing b = false) : Count n s := Or.inr ⟨b, m, e, h1, h2, hi, fun h => by rw [hb] at h; cases h⟩

theorem erased_lowPower {n : Nat} {s : OW} (h : Count n s) : Count n (lowPower dev s).2 := by
  rcases h with ⟨h1, h2⟩ | ⟨b, m, e, h1, h2, hi, h3⟩
  · left; rw [lowPower_nc h1]; exact ⟨h1, h2⟩
  · by_cases hst : status s = .notConnected
    · rw [lowPower_nc hst]; exact Or.inr ⟨b, m, e, h1, h2, hi, h3⟩
    have he : e.status ≠ .notConnected := by simpa [status, hi] using hst
    unfold lowPower
    rw [PyM.bind_ok (show PyM.get s = (.ok s, s) from rfl), hi]
    simp only
    unfold onInterface
    rw [hi]
    simp only
    unfold ElmM.lowPower
    rw [PyM.bind_ok (show ElmM.getElm _ = (.ok _, _) from rfl), if_neg he]
    have fin : ∀ (w' : EW), (status { s with interface := some w'.elm, hist := w'.hist } = .notConnected ∧ erasures w'.hist ≤ n ∨
        ∃ b', eraseState w'.hist = (some b', m) ∧ (erasing b' = true → erasing (line s.lastCommand) = true ∧ w'.elm.lowPower = false)) →
        Count n { s with interface := some w'.elm, hist := w'.hist } := by
      rintro w' (h | ⟨b', h, h'⟩)
      · exact Or.inl h
      · exact Or.inr ⟨b', m, w'.elm, h, h2, rfl, h'⟩
    apply fin
    rw [PyM.bind_apply]
    rcases ElmM.send_outcome dev (ascii "ATLP") true elmLpActive ⟨e, s.hist⟩ with ⟨hp, hx⟩ | ⟨p, l, w', hp, hx, hr⟩ <;> rw [hx] <;> simp only
    · right
      refine ⟨b, h1, h3⟩
    · have hlast : ∀ evs, NoOpen evs → sent evs = [line (ascii "ATLP")] → eraseState (s.hist ++ evs) = (some (line (ascii "ATLP")), m) := by
        intro evs hno hse
        rw [eraseState_sent _ hno, hse, h1]
        simp only [List.foldl_cons, List.foldl_nil]
        rw [lineStep_plain (c := ascii "ATLP") (plain_A _)]
      cases hr with
      | replied bs rb hbs =>
        right
        have hh := hlast (.write (line (ascii "ATLP")) true :: (reads bs ++ [.read (some rb)])) (notOpen_exchange _ _ _ _ (by simp [NoOpen]))
          (by simp [sent, reads, List.filterMap_eq_nil_iff])
        refine ⟨line (ascii "ATLP"), ?_, fun h => absurd h (by decide)⟩
        split <;> exact hh
      | writeFailed =>
        left
        have hh := hlast [.write (line (ascii "ATLP")) false, .close] (by simp [NoOpen]) rfl
        refine ⟨?_, ?_⟩
        · split <;> rfl
        · have hn := congrArg Prod.snd hh
          simp only at hn
          split <;> exact Nat.le_trans (Nat.le_of_eq hn) h2
      | readFailed bs hbs =>
        left
        have hh := hlast (.write (line (ascii "ATLP")) true :: (reads bs ++ [.read none, .close])) (notOpen_exchange _ _ _ _ (by simp [NoOpen]))
          (by simp [sent, reads, List.filterMap_eq_nil_iff])
        refine ⟨?_, ?_⟩
        · split <;> rfl
        · have hn := congrArg Prod.snd hh
          simp only at hn
          split <;> exact Nat.le_trans (Nat.le_of_eq hn) h2

theorem le_stable (dev : Device) (n : Nat) : HStable dev Plain (fun h => (eraseState h).2 ≤ n) where
  write_ok := fun h cmd hR hW _ => by
    rw [eraseState_append]
    simp only [List.foldl, eraseStep, hW.1, hW.2]; exact hR
  write_fail := fun h cmd hR hW _ => by
    rw [eraseState_append]
    simp only [List.foldl, eraseStep, hW.1, hW.2]; exact hR
  read_ok := fun h m b hR _ => by rw [eraseState_append]; exact hR
  read_fail := fun h m hR _ => by rw [eraseState_append]; exact hR
  close := fun h hR => by rw [eraseState_append]; exact hR
  probe := fun h b hR => by rw [eraseState_append]; exact hR
  setBaud := fun h b hR => by rw [eraseState_append]; exact hR

theorem erased_setHeader {n : Nat} {s : OW} (hs : OSound s) (hst : status s ≠ .notConnected) (h : Count n s) (hd : Bytes) : Count n (setHeader dev hd s).2 := by
  by_cases hh : hd = s.lastHeader
  · rw [setHeader_same hh]; exact h
  rcases h with ⟨h1, -⟩ | ⟨b, m, e, h1, h2, hi, h3⟩
  · exact absurd h1 hst
  obtain ⟨e', o, hl⟩ := live_of_sound hs hst
  have hee : e' = e := by have := hl.iface; rw [hi] at this; cases this; rfl
  subst hee
  have hf : ((wake e' ++ [headerLine hd]).map line).foldl lineStep (some b, m) = (some (line (headerLine hd)), m) := by
    have hw : ((wake e').map line).foldl lineStep (some b, m) = (some b, m) := by
      unfold wake
      cases hlp : e'.lowPower with
      | false => rfl
      | true =>
        have : erasing b = false := by
          cases hb : erasing b with
          | false => rfl
          | true => have := (h3 hb).2; rw [hlp] at this; cases this
        simp only [if_true, List.map_cons, List.map_nil, List.foldl_cons, List.foldl_nil]
        rw [lineStep_blank (by decide), this]; rfl
    rw [List.map_append, List.foldl_append, hw]
    simp only [List.map_cons, List.map_nil, List.foldl_cons, List.foldl_nil]
    rw [lineStep_plain (plain_header _)]
  have hdia : ∀ {pre : List (Bytes × List Str)} {l : List Str} {evs : History}, pre.map Prod.fst = wake e' → Dialogue evs (pre ++ [(headerLine hd, l)]) →
      eraseState (s.hist ++ evs) = (some (line (headerLine hd)), m) := by
    intro pre l evs g1 g2
    rw [eraseState_sent _ (Dialogue.noOpen g2), sent_dialogue g2, h1, ← hf, ← g1]
    simp [Function.comp_def]
  rcases setHeader_cases (dev := dev) hl hh with ⟨pre, l, evs, x, g1, g2, g3, g4⟩ | ⟨pre, l, evs, ms, g1, g2, g3, g4⟩ | ⟨evs, g1, g4⟩ <;> rw [g4]
  · exact erased_clean (hdia g1 g2) h2 rfl (plain_header hd).2
  · exact erased_clean (s := { woken s e' evs with lastHeader := if ackd ms then hd else s.lastHeader }) (hdia g1 g2) h2 rfl (plain_header hd).2
  · left
    refine ⟨rfl, ?_⟩
    obtain ⟨p, q, k1, -, k2⟩ := sent_broken g1
    show (eraseState (s.hist ++ evs)).2 ≤ n
    rw [eraseState_sent _ (Broken.noOpen g1), k2, h1]
    rw [k1, List.map_append, List.foldl_append] at hf
    have := lineStep_mono (q.map line) ((p.map line).foldl lineStep (some b, m))
    rw [hf] at this
    exact Nat.le_trans this h2

theorem erased_close {n : Nat} {s : OW} (hs : OSound s) (h : Count n s) : Count n (close dev s).2 := by
  by_cases hst : status s = .notConnected
  · rw [close_nc hs hst]
    left
    exact ⟨rfl, h.le⟩
  obtain ⟨e, o, hl⟩ := live_of_sound hs hst
  unfold close
  rw [PyM.bind_ok (show PyM.modify _ s = (.ok (), _) from rfl), PyM.bind_ok (show PyM.get _ = (.ok _, _) from rfl), hl.iface]
  simp only
  have hs0 : OSound { s with supported := [], interface := some e } := ⟨hs.1, fun e' he' => hs.2 e' (by rw [hl.iface]; exact he')⟩
  have h0 : Count n { s with supported := [], interface := some e } := by
    rcases h with ⟨h1, -⟩ | ⟨b, m, e', h1, h2, hi, h3⟩
    · exact absurd h1 hst
    · rw [hl.iface] at hi; cases hi
      exact Or.inr ⟨b, m, e, h1, h2, rfl, h3⟩
  have h1 := erased_setHeader (dev := dev) hs0 (by show e.status ≠ _; exact hl.status) h0 engineHeader
  rw [PyM.bind_apply]
  cases hm : setHeader dev engineHeader { s with supported := [], interface := some e } with
  | mk r s1 =>
    rw [hm] at h1
    cases r with
    | error x => exact h1
    | ok u =>
      simp only
      have h2 := HStable.on ((le_stable dev n).elmClose (plain_A _)) s1 h1.le
      rw [PyM.bind_apply]
      have hc : ∃ r s2, onInterface (ElmM.close dev) s1 = (r, s2) ∧ status s2 = .notConnected := by
        refine ⟨(onInterface (ElmM.close dev) s1).1, (onInterface (ElmM.close dev) s1).2, rfl, ?_⟩
        unfold onInterface
        cases hi : s1.interface with
        | none => simp only; simp [status, hi]
        | some e1 => exact (ElmM.close_any dev ⟨e1, s1.hist⟩).1
      obtain ⟨r, s2, hc1, hc2⟩ := hc
      rw [hc1] at h2
      rw [hc1]
      cases r with
      | error x => exact Or.inl ⟨hc2, h2⟩
      | ok u => exact Or.inl ⟨rfl, h2⟩

theorem erased_ran {s s' : OW} {calls : List Call} (hr : Ran dev fl s calls s') (hc : ∀ c ∈ calls, TwoChars c) (hp : .normalPower ∉ calls) {n : Nat}
    (hs : OSound s) (h : Count n s) : Count (n + eraseCalls calls) s' := by
  induction hr generalizing n with
  | nil s => exact h
  | query s c force r s1 calls s' hq hr ih =>
    have hs1 : OSound s1 := by
      have := osound_session dev fl [.query c force] s hs
      have e : session dev fl [.query c force] s = (query dev fl c force s).2 := rfl
      rw [e, hq] at this; exact this
    have := ih (fun x hx => hc x (List.mem_cons_of_mem _ hx)) (fun hx => hp (List.mem_cons_of_mem _ hx)) hs1
      (erased_query hs h c force (hc _ List.mem_cons_self) hq)
    have he : eraseCalls (.query c force :: calls) = (if erasing c.command then 1 else 0) + eraseCalls calls := by
      unfold eraseCalls
      rw [List.countP_cons]
      exact Nat.add_comm _ _
    rw [he, ← Nat.add_assoc]; exact this
  | other s call calls s' hq hr ih =>
    have hs1 := osound_session dev fl [call] s hs
    have he : eraseCalls (call :: calls) = eraseCalls calls := by
      unfold eraseCalls
      rw [List.countP_cons]
      cases call with
      | query c force => exact absurd rfl (hq c force)
      | _ => simp
    rw [he]
    refine ih (fun x hx => hc x (List.mem_cons_of_mem _ hx)) (fun hx => hp (List.mem_cons_of_mem _ hx)) hs1 ?_
    cases call with
    | query c force => exact absurd rfl (hq c force)
    | lowPower => exact erased_lowPower h
    | normalPower => exact absurd List.mem_cons_self hp
    | close => exact erased_close hs h

end ObdM
end Model
namespace Props
open Py Model Spec ObdM

/-! ## C81 -/

/-- C81 in full: the adapter is told to erase trouble codes at most as often as the user queries service 04. -/
def C81_full : Prop := ∀ (dev : Device) (fl : Str → Option PyFloat) (a : Args) (s : OW) (calls : List Call), Constructed dev fl a s →
  (∀ c ∈ calls, TwoChars c) → erasures (session dev fl calls s).hist ≤ eraseCalls calls

/-- C81, what holds for every history: who never asks to erase, never erases (without `start_low_power`). -/
theorem C81_never_partial (dev : Device) (fl : Str → Option PyFloat) (a : Args) (ha : a.cfg.startLowPower = false) (s : OW) (calls : List Call)
    (h : Constructed dev fl a s) (hc : ∀ c ∈ calls, TwoChars c) (he : eraseCalls calls = 0) : erasures (session dev fl calls s).hist = 0 := by
  obtain ⟨h1, h2⟩ := clean_construct (dev := dev) (fl := fl) a ha
  unfold Constructed at h
  have hs := constructed_sound (dev := dev) (fl := fl) (a := a) h
  rw [h] at h1 h2
  by_cases hst : status s = .notConnected
  · rw [(session_nc dev fl calls hs hst).1]; exact h1.1
  · exact (clean2_session calls hc he s (h2 rfl hst)).1

/-- Hypotheses met: two requests of the engine speed. -/
example : Constructed (demo table) fl0 { ports := ["COM1".toList], fast := true } (demoObd true) ∧ TwoChars (.query rpmCommand true) ∧
    eraseCalls [.query rpmCommand true, .query rpmCommand true] = 0 := by
  refine ⟨demoObd_constructed true, ?_, by decide +kernel⟩
  show 0x0D ∉ rpmCommand.command ∧ 2 ≤ (rpmCommand.command.filter (fun x => x ≠ 0x20)).length
  decide +kernel

/-- C81, connecting: the constructor erases nothing, even if it raises (without `start_low_power`). -/
theorem C81_connecting_partial (dev : Device) (fl : Str → Option PyFloat) (a : Args) (ha : a.cfg.startLowPower = false) :
    erasures (ObdM.construct dev fl a.ports a.portstr a.fast a.cfg).2.hist = 0 := (clean_construct a ha).1.1

/-- C81, the bound: with the library's default settings, if every query returns and `normal_power()` is not called, the
adapter is told to erase at most as often as the user asked. -/
theorem C81_partial (dev : Device) (fl : Str → Option PyFloat) (a : Args) (ha : a.cfg.startLowPower = false) (s s' : OW) (calls : List Call)
    (h : Constructed dev fl a s) (hr : Ran dev fl s calls s') (hc : ∀ c ∈ calls, TwoChars c) (hp : .normalPower ∉ calls) :
    erasures s'.hist ≤ eraseCalls calls := by
  obtain ⟨h1, h2⟩ := clean_construct (dev := dev) (fl := fl) a ha
  have hs := constructed_sound (dev := dev) (fl := fl) (a := a) h
  unfold Constructed at h
  rw [h] at h1 h2
  have h0 : Count 0 s := by
    by_cases hst : status s = .notConnected
    · left; exact ⟨hst, Nat.le_of_eq h1.1⟩
    · obtain ⟨g1, b, g2, g3⟩ := h2 rfl hst
      obtain ⟨e, o, hl⟩ := live_of_sound hs hst
      exact erased_clean (m := 0) (Prod.ext g2 g1) (Nat.le_refl _) hl.iface g3
  have := (erased_ran hr hc hp hs h0).le
  omega

/-- The command CLEAR_DTC. -/
def clearCommand : OBDCommand := (byName "CLEAR_DTC").getD rpmCommand

theorem clear_two : TwoChars (.query clearCommand false) := by
  show 0x0D ∉ clearCommand.command ∧ 2 ≤ (clearCommand.command.filter (fun x => x ≠ 0x20)).length
  decide +kernel

/-- C81 is false of the code: `normal_power()` writes a blank line, on which an adapter that is awake repeats its last command. -/
theorem C81_refuted : ¬ C81_full := by
  intro h
  have := h (demo table) fl0 { ports := ["COM1".toList], fast := true } (demoObd true) [.query clearCommand false, .normalPower] (demoObd_constructed true)
    (by intro c hc; simp only [List.mem_cons, List.not_mem_nil, or_false] at hc; rcases hc with rfl | rfl; exact clear_two; trivial)
  exact absurd this (by decide +kernel)

/-- C81 is also false with `start_low_power`: the first thing written is a blank line, which repeats the last command of an earlier program. -/
theorem C81_start_refuted : ¬ C81_full := by
  intro h
  have hc := constructed_of (dev := demo table) (fl := fl0) (a := { portstr := some "COM1".toList, cfg := { startLowPower := true } }) (by decide +kernel)
  have := h _ _ _ _ [] hc (by simp)
  exact absurd this (by decide +kernel)

/-- The bound of C81_partial is reached: two requests, the second one as a repeat, and two erasures. -/
example : erasures (session (demo (("04", "7E8 01 44") :: table)) fl0 [.query clearCommand false, .query clearCommand false] (demoObd true)).hist = 2 ∧
    eraseCalls [.query clearCommand false, .query clearCommand false] = 2 ∧
    (sent (session (demo (("04", "7E8 01 44") :: table)) fl0 [.query clearCommand false, .query clearCommand false] (demoObd true)).hist).getLast? = some (ascii "\r") := by
  decide +kernel

end Props
