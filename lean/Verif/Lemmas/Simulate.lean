import Verif.Lemmas.Fine
import Verif.Spec.Fine
import Verif.Lemmas.AsyncRefine
import Verif.Lemmas.Turns
/-!
# Interleaving single steps gives nothing that atomic calls do not give
-/
namespace Model
open Py Spec Model.AW

namespace Prog
variable {σ α β : Type}

/-- Every step of the program changes the state as `P` allows. -/
def Quiet (P : σ → σ → Prop) : Prog σ α → Prop
  | .done _ => True
  | .act m k => (∀ s, P s (m s).2) ∧ ∀ r, (k r).Quiet P

theorem quiet_atom {P : σ → σ → Prop} {m : PyM σ α} (h : ∀ s, P s (m s).2) : (atom m).Quiet P := ⟨h, fun _ => trivial⟩

theorem quiet_bind {P : σ → σ → Prop} {p : Prog σ α} {f : α → Prog σ β} (hp : p.Quiet P) (hf : ∀ a, (f a).Quiet P) : (p >>= f).Quiet P := by
  show (p.andThen f).Quiet P
  induction p with
  | done r =>
    cases r with
    | ok a => exact hf a
    | error e => exact trivial
  | act m k ih => exact ⟨hp.1, fun r => ih r (hp.2 r)⟩

end Prog

/-- What a query or a power call leaves alone on the adapter object: the protocol; and it does not connect. -/
def CalmE (w w' : EW) : Prop := w'.elm.protocol = w.elm.protocol ∧ (w'.elm.status = .carConnected → w.elm.status = .carConnected)

/-- The same for the `OBD` object. -/
structure Calm (s s' : OW) : Prop where
  sup : s'.supported = s.supported
  proto : s'.interface.map Elm.protocol = s.interface.map Elm.protocol
  conn : ObdM.isConnected s' = true → ObdM.isConnected s = true

theorem Calm.refl (s : OW) : Calm s s := ⟨rfl, rfl, id⟩
theorem Calm.trans {a b c : OW} (h : Calm a b) (h' : Calm b c) : Calm a c :=
  ⟨h'.sup.trans h.sup, h'.proto.trans h.proto, fun x => h.conn (h'.conn x)⟩

open Prog

/-- The history only grows. -/
def GrowE (w w' : EW) : Prop := w.hist <+: w'.hist
def Grow (s s' : OW) : Prop := s.hist <+: s'.hist

/-- `P` allows what queries and power calls do to the adapter object. -/
structure TameE (P : EW → EW → Prop) : Prop where
  same : ∀ w, P w w
  status : ∀ w : EW, P w { w with elm := { w.elm with status := .notConnected } }
  port : ∀ w : EW, P w { w with elm := { w.elm with port := none } }
  power : ∀ (w : EW) (b : Bool), P w { w with elm := { w.elm with lowPower := b } }
  more : ∀ (w : EW) (e : Event), P w { w with hist := w.hist ++ [e] }

/-- `P` allows what they do to the `OBD` object, if `PE` is what they do to the adapter object. -/
structure TameO (PE : EW → EW → Prop) (P : OW → OW → Prop) : Prop where
  elm : TameE PE
  same : ∀ s, P s s
  on : ∀ {β : Type} (m : PyM EW β), (∀ w, PE w (m w).2) → ∀ s, P s (ObdM.onInterface m s).2
  attrs : ∀ (s : OW) lh lc fc, P s { s with lastHeader := lh, lastCommand := lc, frameCounts := fc }

theorem calm_tameE : TameE CalmE := ⟨fun _ => ⟨rfl, id⟩, fun _ => ⟨rfl, fun h => by cases h⟩, fun _ => ⟨rfl, id⟩, fun _ _ => ⟨rfl, id⟩, fun _ _ => ⟨rfl, id⟩⟩
theorem grow_tameE : TameE GrowE := ⟨fun _ => List.prefix_rfl, fun _ => List.prefix_rfl, fun _ => List.prefix_rfl, fun _ _ => List.prefix_rfl, fun _ _ => List.prefix_append _ _⟩

theorem calm_tame : TameO CalmE Calm where
  elm := calm_tameE
  same := Calm.refl
  on := by
    intro β m h s
    unfold ObdM.onInterface
    cases hi : s.interface with
    | none => exact Calm.refl s
    | some e =>
      have := h { elm := e, hist := s.hist }
      refine ⟨rfl, ?_, ?_⟩
      · simp [hi, this.1]
      · intro hc
        have h1 : (m { elm := e, hist := s.hist }).2.elm.status = .carConnected := of_decide_eq_true hc
        have h2 := this.2 h1
        show decide (ObdM.status s = .carConnected) = true
        simp [ObdM.status, hi]; exact h2
  attrs := fun _ _ _ _ => ⟨rfl, rfl, id⟩

theorem grow_tame : TameO GrowE Grow where
  elm := grow_tameE
  same := fun _ => List.prefix_rfl
  on := by
    intro β m h s
    unfold ObdM.onInterface
    cases hi : s.interface with
    | none => exact List.prefix_rfl
    | some e => exact h { elm := e, hist := s.hist }
  attrs := fun _ _ _ _ => List.prefix_rfl

theorem quiet_onAdapter {PE : EW → EW → Prop} {P : OW → OW → Prop} (hP : TameO PE P) {α : Type} {p : Prog EW α} (h : p.Quiet PE) : p.onAdapter.Quiet P := by
  induction p with
  | done r => exact trivial
  | act m k ih => exact ⟨hP.on m h.1, fun r => ih r (h.2 r)⟩

namespace FineElm
variable {P : EW → EW → Prop}

theorem quiet_self (hP : TameE P) : self.Quiet P := quiet_atom hP.same
theorem quiet_disconnected (hP : TameE P) : disconnected.Quiet P :=
  quiet_bind (quiet_atom hP.status) (fun _ => quiet_bind (quiet_atom (fun w => hP.more w _)) (fun _ => quiet_atom hP.port))

theorem quiet_write (hP : TameE P) (dev : Device) (cmd : Bytes) : (write dev cmd).Quiet P := by
  refine quiet_bind (quiet_self hP) (fun e => ?_)
  cases e.port with
  | none => exact trivial
  | some p =>
    refine quiet_bind (quiet_atom (fun w => hP.more w _)) (fun ok => ?_)
    cases ok with
    | true => exact trivial
    | false => exact quiet_disconnected hP

theorem quiet_read (hP : TameE P) (dev : Device) (m : Bytes) : (read dev m).Quiet P := by
  refine quiet_bind (quiet_self hP) (fun e => ?_)
  cases e.port with
  | none => exact trivial
  | some p =>
    refine quiet_bind (quiet_atom (fun w => hP.more w _)) (fun r => ?_)
    cases r with
    | some b => exact trivial
    | none => exact quiet_bind (quiet_disconnected hP) (fun _ => trivial)

theorem quiet_retry (hP : TameE P) (dev : Device) (m : Bytes) (n : Nat) : ∀ r, (retry dev m n r).Quiet P := by
  induction n with
  | zero => exact fun _ => trivial
  | succ n ih =>
    intro r
    unfold retry
    split
    · exact quiet_bind (quiet_read hP dev m) ih
    · exact trivial

theorem quiet_send (hP : TameE P) (dev : Device) (cmd : Bytes) (d : Bool) (m : Bytes) : (send dev cmd d m).Quiet P :=
  quiet_bind (quiet_write hP dev cmd) (fun _ => quiet_bind (quiet_read hP dev m) (fun _ => quiet_retry hP dev m _ _))

theorem quiet_lowPower (hP : TameE P) (dev : Device) : (lowPower dev).Quiet P := by
  refine quiet_bind (quiet_self hP) (fun e => ?_)
  split
  · exact trivial
  · refine quiet_bind (quiet_send hP _ _ _ _) (fun l => ?_)
    split
    · exact quiet_bind (quiet_atom (fun w => hP.power w _)) (fun _ => trivial)
    · exact trivial

theorem quiet_normalPower (hP : TameE P) (dev : Device) : (normalPower dev).Quiet P := by
  refine quiet_bind (quiet_self hP) (fun e => ?_)
  split
  · exact trivial
  · exact quiet_bind (quiet_send hP _ _ _ _) (fun l => quiet_bind (quiet_atom (fun w => hP.power w _)) (fun _ => trivial))

theorem quiet_sendAndParse (hP : TameE P) (dev : Device) (cmd : Bytes) : (sendAndParse dev cmd).Quiet P := by
  refine quiet_bind (quiet_self hP) (fun e => ?_)
  split
  · exact trivial
  · refine quiet_bind ?_ (fun _ => quiet_bind (quiet_send hP _ _ _ _) (fun l => quiet_bind (quiet_self hP) (fun e => ?_)))
    · refine quiet_bind (quiet_self hP) (fun e => ?_)
      split
      · exact quiet_bind (quiet_normalPower hP dev) (fun _ => trivial)
      · exact trivial
    · cases e.protocol <;> exact trivial

theorem quiet_close (hP : TameE P) (hp : ∀ w : EW, P w { w with elm := { w.elm with protocol := none } }) (dev : Device) : (close dev).Quiet P := by
  refine quiet_bind (quiet_atom hP.status) (fun _ => quiet_bind (quiet_atom hp) (fun _ => quiet_bind (quiet_self hP) (fun e => ?_)))
  cases e.port with
  | none => exact trivial
  | some p =>
    refine quiet_bind (quiet_write hP _ _) (fun _ => quiet_bind (quiet_self hP) (fun e => ?_))
    cases e.port with
    | none => exact trivial
    | some p => exact quiet_bind (quiet_atom (fun w => hP.more w _)) (fun _ => quiet_atom hP.port)

end FineElm

namespace FineObd
variable {PE : EW → EW → Prop} {P : OW → OW → Prop}

theorem quiet_self (hP : TameO PE P) : self.Quiet P := quiet_atom hP.same

theorem quiet_call (hP : TameO PE P) {α : Type} {p : Prog EW α} (h : p.Quiet PE) : (call p).Quiet P := by
  refine quiet_bind (quiet_self hP) (fun s => ?_)
  cases s.interface with
  | none => exact trivial
  | some e => exact quiet_onAdapter hP h

theorem quiet_setHeader (hP : TameO PE P) (dev : Device) (hd : Bytes) : (setHeader dev hd).Quiet P := by
  refine quiet_bind (quiet_self hP) (fun s => ?_)
  split
  · exact trivial
  · refine quiet_bind (quiet_call hP (FineElm.quiet_sendAndParse hP.elm _ _)) (fun r => ?_)
    cases r with
    | none => exact trivial
    | some ms =>
      simp only
      split
      · exact trivial
      · split
        · exact trivial
        · exact quiet_atom (fun s => hP.attrs s _ _ _)

theorem quiet_query (hP : TameO PE P) (dev : Device) (fl : ElmM.FloatFn) (c : OBDCommand) : (query dev fl c).Quiet P := by
  refine quiet_bind (quiet_self hP) (fun s => ?_)
  split
  · exact trivial
  · refine quiet_bind (quiet_setHeader hP _ _) (fun _ => quiet_bind (quiet_self hP) (fun s => quiet_bind (quiet_call hP (FineElm.quiet_sendAndParse hP.elm _ _)) (fun ms =>
      quiet_bind ?_ (fun _ => quiet_bind ?_ (fun _ => ?_)))))
    · unfold noteCommand; split
      · exact trivial
      · exact quiet_atom (fun s => hP.attrs s _ _ _)
    · refine quiet_bind (quiet_self hP) (fun s => ?_)
      split
      · exact trivial
      · cases ms with
        | none => exact trivial
        | some ms => exact quiet_atom (fun s => hP.attrs s _ _ _)
    · cases ms with
      | none => exact trivial
      | some ms => simp only [answer]; split <;> exact trivial

theorem quiet_power (hP : TameO PE P) (dev : Device) (op : AOp) : (power dev op).Quiet P := by
  refine quiet_bind (quiet_self hP) (fun s => ?_)
  cases s.interface with
  | none => exact trivial
  | some e =>
    cases op <;> first | exact quiet_call hP (FineElm.quiet_lowPower hP.elm dev) | exact quiet_call hP (FineElm.quiet_normalPower hP.elm dev)

theorem grow_close (dev : Device) : (close dev).Quiet Grow := by
  refine quiet_bind (quiet_atom (fun _ => List.prefix_rfl)) (fun _ => quiet_bind (quiet_self grow_tame) (fun s => ?_))
  cases s.interface with
  | none => exact trivial
  | some e =>
    exact quiet_bind (quiet_setHeader grow_tame _ _) (fun _ => quiet_bind (quiet_call grow_tame (FineElm.quiet_close grow_tameE (fun _ => List.prefix_rfl) dev)) (fun _ =>
      quiet_atom (fun _ => List.prefix_rfl)))

end FineObd

/-- Running a program makes the history longer. -/
theorem grow_run {α : Type} {p : Prog OW α} (h : p.Quiet Grow) : ∀ s, s.hist <+: (p.run s).2.hist := by
  induction p with
  | done r => exact fun s => List.prefix_rfl
  | act m k ih => exact fun s => (h.1 s).trans (ih _ (h.2 _) _)

theorem calm_testCmd {s s' : OW} (h : Calm s s') (c : OBDCommand) : ObdM.testCmd s' c = ObdM.testCmd s c := by
  have hs : ObdM.supports s' c = ObdM.supports s c := by unfold ObdM.supports; rw [h.sup]
  unfold ObdM.testCmd
  rw [hs]
  have hp := h.proto
  cases h1 : s.interface with
  | none =>
    cases h2 : s'.interface with
    | none => rfl
    | some e => rw [h1, h2] at hp; cases hp
  | some e =>
    cases h2 : s'.interface with
    | none => rw [h1, h2] at hp; cases hp
    | some e' =>
      rw [h1, h2] at hp
      simp only [Option.map_some, Option.some.injEq] at hp
      simp only [Elm.protocolId, hp]

/-! ## the simulation -/

/-- Only thread `t` is in a call to the connection. -/
def onlyJob (t : Nat) (j : Job) : Nat → Option Job := fun t' => if t' = t then some j else none

/-- What is under way in `f`, when the atomic model is in `s`: nothing; a query of the loop; a power call of a callback; `close()`
or a power call of the user.  The rest of the program leads to the result of the atomic call. -/
inductive Pending (dev : Device) (fl : ElmM.FloatFn) (f : FW) (s : AW) : Prop
  | none (hj : f.jobs = fun _ => none) (hu : f.user = none) (ho : f.aw.obd = s.obd)
  | query (t : Nat) (it : Iter) (c : OBDCommand) (p : Prog OW Response) (hj : f.jobs = onlyJob t (.query p)) (hu : f.user = none)
      (ht : s.threads[t]? = some (.query it c)) (hr : p.run f.aw.obd = ObdM.query dev fl c true s.obd) (hq : p.Quiet Calm) (hc : Calm s.obd f.aw.obd) (hg : p.Quiet Grow)
  | power (t : Nat) (it : Iter) (r : Response) (l i : Nat) (op : AOp) (p : Prog OW (Option (List Str))) (hj : f.jobs = onlyJob t (.power op p))
      (hu : f.user = none) (ht : s.threads[t]? = some (.inside it r l i)) (hop : AOp.isPower op = true)
      (hr : p.run f.aw.obd = AW.powerCall dev op s.obd) (hq : p.Quiet Calm) (hc : Calm s.obd f.aw.obd) (hg : p.Quiet Grow)
  | userClose (op : AOp) (p : Prog OW Unit) (hj : f.jobs = fun _ => none) (hu : f.user = some (.close p)) (hc : s.caller = .busy op .closeObd)
      (hr : p.run f.aw.obd = ObdM.close dev s.obd) (hg : p.Quiet Grow)
  | userPower (op : AOp) (p : Prog OW (Option (List Str))) (hj : f.jobs = fun _ => none) (hu : f.user = some (.power p)) (hc : s.caller = .busy op .power)
      (hr : p.run f.aw.obd = AW.powerCall dev op s.obd) (hg : p.Quiet Grow)

structure Sim (dev : Device) (fl : ElmM.FloatFn) (f : FW) (s : AW) : Prop where
  same : f.aw = { s with obd := f.aw.obd }
  pending : Pending dev fl f s
  power : ∀ op, s.caller = .busy op .power → s.thread = none

variable {dev : Device} {fl : ElmM.FloatFn}

/-- If an update thread can act and is not in a call, nothing is under way. -/
theorem Sim.idle {f : FW} {s : AW} (h : Sim dev fl f s) (hI : Inv s) {t : Nat} {pc : Pc} (ht : s.threads[t]? = some pc) (ha : Pc.active pc = true)
    (hj : f.jobs t = none) : f.jobs = (fun _ => none) ∧ f.user = none ∧ f.aw = s := by
  have hth := hI.act t pc ht ha
  have other : ∀ t' pc', s.threads[t']? = some pc' → Pc.active pc' = true → t' = t := by
    intro t' pc' h1 h2
    have := hI.act t' pc' h1 h2
    rw [hth] at this; cases this; rfl
  cases h.pending with
  | none hj hu ho => exact ⟨hj, hu, by rw [h.same, ho]⟩
  | query t' it c p hj' hu ht' hr hq hc hg =>
    cases other t' _ ht' rfl
    rw [hj'] at hj; simp [onlyJob] at hj
  | power t' it r l i op p hj' hu ht' hop hr hq hc hg =>
    cases other t' _ ht' rfl
    rw [hj'] at hj; simp [onlyJob] at hj
  | userClose op p hj hu hc hr hg =>
    have := hI.caller
    unfold CallerInv at this
    rw [hc] at this
    rw [hth] at this; cases this
  | userPower op p hj hu hc hr hg =>
    have := h.power op hc
    rw [hth] at this; cases this

/-- Replacing the connection. -/
def AW.put (s : AW) (x : OW) : AW := { s with obd := x }

theorem put_put (s : AW) (x y : OW) : (s.put x).put y = s.put y := rfl

theorem doModify_calm {s : AW} {x : OW} (h : Calm s.obd x) (op : AOp) :
    (s.put x).doModify op = ((s.doModify op).1, (s.doModify op).2.put x) ∧ (s.doModify op).2.obd = s.obd := by
  cases op with
  | watch c cb force =>
    have ht : ObdM.testCmd (s.put x).obd c = ObdM.testCmd s.obd c := calm_testCmd h c
    show (s.put x).doWatch c cb force = _ ∧ _
    simp only [doModify, doWatch, ht]
    cases (if force = true then Except.ok true else ObdM.testCmd s.obd c : Except Exc Bool) with
    | error e => exact ⟨rfl, rfl⟩
    | ok b =>
      cases b with
      | false => exact ⟨rfl, rfl⟩
      | true =>
        simp only
        have hm : (s.put x).commands = s.commands := rfl
        rw [hm]
        by_cases hk : s.commands.mem c.key = true
        · simp only [hk, if_true]
          cases cb with
          | none => exact ⟨rfl, rfl⟩
          | some k =>
            have hb : (s.put x).cbs = s.cbs := rfl
            have hl : ∀ i, (s.put x).list i = s.list i := fun i => rfl
            simp only [hb, hl]
            cases s.cbs.get? c.key with
            | none => exact ⟨rfl, rfl⟩
            | some l => simp only; split <;> exact ⟨rfl, rfl⟩
        · simp only [hk]
          cases cb with
          | none => exact ⟨rfl, rfl⟩
          | some k =>
            simp only [Bool.false_eq_true, if_false]
            have hb : ({ s.put x with commands := s.commands.set c.key (c, {}) }.newList c.key).cbs = ({ s with commands := s.commands.set c.key (c, {}) }.newList c.key).cbs := rfl
            have hl : ∀ i, ({ s.put x with commands := s.commands.set c.key (c, {}) }.newList c.key).list i = ({ s with commands := s.commands.set c.key (c, {}) }.newList c.key).list i := fun i => rfl
            simp only [hb, hl]
            cases ({ s with commands := s.commands.set c.key (c, {}) }.newList c.key).cbs.get? c.key with
            | none => exact ⟨rfl, rfl⟩
            | some l => simp only; split <;> exact ⟨rfl, rfl⟩
  | unwatch c cb =>
    show (s.put x).doUnwatch c cb = _ ∧ _
    simp only [doModify, doUnwatch]
    have hm : (s.put x).commands = s.commands := rfl
    have hb : (s.put x).cbs = s.cbs := rfl
    have hl : ∀ i, (s.put x).list i = s.list i := fun i => rfl
    simp only [hm, hb, hl]
    split
    · cases cb with
      | none => exact ⟨rfl, rfl⟩
      | some k =>
        simp only
        cases s.cbs.get? c.key with
        | none => exact ⟨rfl, rfl⟩
        | some l =>
          simp only
          split
          · split <;> exact ⟨rfl, rfl⟩
          · exact ⟨rfl, rfl⟩
    · exact ⟨rfl, rfl⟩
  | _ => exact ⟨rfl, rfl⟩

theorem callerStep_calm {s s' : AW} {x : OW} (h : Calm s.obd x) {op : AOp} {pc : CPc} (h1 : pc ≠ .startConn) (h2 : pc ≠ .closeObd) (h3 : pc ≠ .power)
    (hs : (s.put x).callerStep dev op pc = some s') :
    ∃ s1, s.callerStep dev op pc = some s1 ∧ s' = s1.put x ∧ s1.obd = s.obd := by
  cases pc with
  | startConn => exact absurd rfl h1
  | closeObd => exact absurd rfl h2
  | power => exact absurd rfl h3
  | startLen =>
    simp only [callerStep] at hs ⊢
    by_cases hc : s.commands.length = 0
    · rw [if_pos hc]; rw [if_pos (show (s.put x).commands.length = 0 from hc)] at hs; cases hs; exact ⟨_, rfl, rfl, rfl⟩
    · rw [if_neg hc]; rw [if_neg (show ¬ (s.put x).commands.length = 0 from hc)] at hs; cases hs; exact ⟨_, rfl, rfl, rfl⟩
  | startNone =>
    simp only [callerStep] at hs ⊢
    by_cases hc : s.thread = none
    · rw [if_pos hc]; rw [if_pos (show (s.put x).thread = none from hc)] at hs; cases hs; exact ⟨_, rfl, rfl, rfl⟩
    · rw [if_neg hc]; rw [if_neg (show ¬ (s.put x).thread = none from hc)] at hs; cases hs; exact ⟨_, rfl, rfl, rfl⟩
  | startRun => cases hs; exact ⟨_, rfl, rfl, rfl⟩
  | startNew => cases hs; exact ⟨_, rfl, rfl, rfl⟩
  | startGo =>
    simp only [callerStep] at hs ⊢
    have e : (s.put x).thread = s.thread := rfl
    rw [e] at hs
    cases ht : s.thread with
    | none => rw [ht] at hs; cases hs; exact ⟨_, rfl, rfl, rfl⟩
    | some t => rw [ht] at hs; cases hs; exact ⟨_, rfl, rfl, rfl⟩
  | stopNone =>
    simp only [callerStep] at hs ⊢
    by_cases hc : s.thread = none
    · rw [if_pos hc]; rw [if_pos (show (s.put x).thread = none from hc)] at hs; cases hs
      refine ⟨_, rfl, ?_, ?_⟩ <;> (unfold afterStop; cases op <;> rfl)
    · rw [if_neg hc]; rw [if_neg (show ¬ (s.put x).thread = none from hc)] at hs; cases hs; exact ⟨_, rfl, rfl, rfl⟩
  | stopRun => cases hs; exact ⟨_, rfl, rfl, rfl⟩
  | stopRead =>
    simp only [callerStep] at hs ⊢
    have e : (s.put x).thread = s.thread := rfl
    rw [e] at hs
    cases ht : s.thread with
    | none => rw [ht] at hs; cases hs; exact ⟨_, rfl, rfl, rfl⟩
    | some t => rw [ht] at hs; cases hs; exact ⟨_, rfl, rfl, rfl⟩
  | join t =>
    simp only [callerStep] at hs ⊢
    by_cases hc : s.over t = true
    · rw [if_pos hc]; rw [if_pos (show (s.put x).over t = true from hc)] at hs; cases hs; exact ⟨_, rfl, rfl, rfl⟩
    · rw [if_neg (show ¬ (s.put x).over t = true from hc)] at hs; cases hs
  | stopEnd =>
    cases hs
    refine ⟨_, rfl, ?_, ?_⟩ <;> (unfold afterStop; cases op <;> rfl)
  | enter => cases hs; exact ⟨_, rfl, rfl, rfl⟩
  | exit =>
    simp only [callerStep] at hs ⊢
    by_cases hc : (!s.running && s.wasRunning) = true
    · rw [if_pos hc]; rw [if_pos (show (!(s.put x).running && (s.put x).wasRunning) = true from hc)] at hs; cases hs; exact ⟨_, rfl, rfl, rfl⟩
    · rw [if_neg hc]; rw [if_neg (show ¬ (!(s.put x).running && (s.put x).wasRunning) = true from hc)] at hs; cases hs; exact ⟨_, rfl, rfl, rfl⟩
  | gate =>
    simp only [callerStep] at hs ⊢
    by_cases hc : s.running = true
    · rw [if_pos hc]; rw [if_pos (show (s.put x).running = true from hc)] at hs; cases hs; exact ⟨_, rfl, rfl, rfl⟩
    · rw [if_neg hc]; rw [if_neg (show ¬ (s.put x).running = true from hc)] at hs; cases hs; exact ⟨_, rfl, rfl, rfl⟩
  | modify =>
    simp only [callerStep] at hs ⊢
    obtain ⟨hm, ho⟩ := doModify_calm h op
    rw [hm] at hs
    cases hd : s.doModify op with
    | mk r s1 =>
      rw [hd] at hs ho
      cases r with
      | ok u => cases hs; exact ⟨_, rfl, rfl, ho⟩
      | error e => cases hs; exact ⟨_, rfl, rfl, ho⟩
  | ask =>
    cases op <;> (cases hs; exact ⟨_, rfl, rfl, rfl⟩)

theorem doModify_threads (s : AW) (op : AOp) : (s.doModify op).2.threads = s.threads ∧ (s.doModify op).2.thread = s.thread ∧ (s.doModify op).2.caller = s.caller := by
  cases op with
  | watch c cb force =>
    show (s.doWatch c cb force).2.threads = _ ∧ (s.doWatch c cb force).2.thread = _ ∧ (s.doWatch c cb force).2.caller = _
    unfold doWatch
    split
    · exact ⟨rfl, rfl, rfl⟩
    · exact ⟨rfl, rfl, rfl⟩
    · simp only
      by_cases hk : s.commands.mem c.key = true
      · simp only [hk, if_true]
        cases cb with
        | none => exact ⟨rfl, rfl, rfl⟩
        | some k =>
          simp only
          cases s.cbs.get? c.key with
          | none => exact ⟨rfl, rfl, rfl⟩
          | some l => simp only; split <;> exact ⟨rfl, rfl, rfl⟩
      · simp only [hk, Bool.false_eq_true, if_false]
        cases cb with
        | none => exact ⟨rfl, rfl, rfl⟩
        | some k =>
          simp only
          cases ({ s with commands := s.commands.set c.key (c, {}) }.newList c.key).cbs.get? c.key with
          | none => exact ⟨rfl, rfl, rfl⟩
          | some l => simp only; split <;> exact ⟨rfl, rfl, rfl⟩
  | unwatch c cb =>
    show (s.doUnwatch c cb).2.threads = _ ∧ (s.doUnwatch c cb).2.thread = _ ∧ (s.doUnwatch c cb).2.caller = _
    unfold doUnwatch
    split
    · cases cb with
      | none => exact ⟨rfl, rfl, rfl⟩
      | some k =>
        simp only
        cases s.cbs.get? c.key with
        | none => exact ⟨rfl, rfl, rfl⟩
        | some l =>
          simp only
          split
          · split <;> exact ⟨rfl, rfl, rfl⟩
          · exact ⟨rfl, rfl, rfl⟩
    · exact ⟨rfl, rfl, rfl⟩
  | _ => exact ⟨rfl, rfl, rfl⟩

theorem afterStop_same (s : AW) (op : AOp) : (s.afterStop op).threads = s.threads ∧ ∀ o, (s.afterStop op).caller ≠ .busy o .power := by
  constructor
  · unfold afterStop; cases op <;> rfl
  · intro o h
    unfold afterStop at h
    cases op <;> cases h

/-- A step of the user's thread does not touch an update thread at work, and does not begin a power call. -/
theorem callerStep_keeps {s s1 : AW} (hI : Inv s) {op : AOp} {pc : CPc} (hcal : s.caller = .busy op pc) {t : Nat} {x : Pc} (ht : s.threads[t]? = some x)
    (ha : Pc.active x = true) (h : s.callerStep dev op pc = some s1) :
    s1.threads[t]? = some x ∧ ∀ o, s1.caller ≠ .busy o .power := by
  cases pc with
  | startConn => simp only [callerStep] at h; split at h <;> cases h <;> exact ⟨ht, fun o h => by cases h⟩
  | closeObd =>
    simp only [callerStep] at h
    cases hc : ObdM.close dev s.obd with
    | mk r o =>
      rw [hc] at h
      cases r <;> cases h <;> exact ⟨ht, fun o h => by cases h⟩
  | power =>
    simp only [callerStep] at h
    cases hc : powerCall dev op s.obd with
    | mk r o =>
      rw [hc] at h
      cases r <;> cases h <;> exact ⟨ht, fun o h => by cases h⟩
  | startLen => simp only [callerStep] at h; split at h <;> cases h <;> exact ⟨ht, fun o h => by cases h⟩
  | startNone => simp only [callerStep] at h; split at h <;> cases h <;> exact ⟨ht, fun o h => by cases h⟩
  | startRun => cases h; exact ⟨ht, fun o h => by cases h⟩
  | startNew =>
    cases h
    refine ⟨?_, fun o h => by cases h⟩
    show (s.threads ++ [Pc.notStarted])[t]? = _
    rw [List.getElem?_append_left]
    · exact ht
    · exact (List.getElem?_eq_some_iff.1 ht).1
  | startGo =>
    have hc := hI.caller
    unfold CallerInv at hc
    rw [hcal] at hc
    obtain ⟨t', h1, h2⟩ := hc
    have := hI.act t x ht ha
    rw [h1] at this; cases this
    rw [ht] at h2; cases h2; cases ha
  | stopNone =>
    simp only [callerStep] at h
    split at h <;> cases h
    · exact ⟨by rw [(afterStop_same s op).1]; exact ht, (afterStop_same s op).2⟩
    · exact ⟨ht, fun o h => by cases h⟩
  | stopRun => cases h; exact ⟨ht, fun o h => by cases h⟩
  | stopRead =>
    simp only [callerStep] at h
    cases hth : s.thread with
    | none => rw [hth] at h; cases h; exact ⟨ht, fun o h => by cases h⟩
    | some t => rw [hth] at h; cases h; exact ⟨ht, fun o h => by cases h⟩
  | join t => simp only [callerStep] at h; split at h <;> cases h; exact ⟨ht, fun o h => by cases h⟩
  | stopEnd =>
    cases h
    exact ⟨by rw [(afterStop_same _ op).1]; exact ht, (afterStop_same _ op).2⟩
  | enter => cases h; exact ⟨ht, fun o h => by cases h⟩
  | exit => simp only [callerStep] at h; split at h <;> cases h <;> exact ⟨ht, fun o h => by cases h⟩
  | gate => simp only [callerStep] at h; split at h <;> cases h <;> exact ⟨ht, fun o h => by cases h⟩
  | modify =>
    simp only [callerStep] at h
    have hm := doModify_threads s op
    cases hd : s.doModify op with
    | mk r s2 =>
      rw [hd] at h hm
      cases r <;> cases h <;> exact ⟨by show s2.threads[t]? = _; rw [hm.1]; exact ht, fun o h => by cases h⟩
  | ask => cases op <;> (cases h; exact ⟨ht, fun o h => by cases h⟩)

theorem callerStep_noPower {s s1 : AW} {op : AOp} {pc : CPc} (h : s.callerStep dev op pc = some s1) : ∀ o, s1.caller ≠ .busy o .power := by
  cases pc with
  | closeObd =>
    simp only [callerStep] at h
    cases hc : ObdM.close dev s.obd with
    | mk r o =>
      rw [hc] at h
      cases r <;> cases h <;> exact fun o h => by cases h
  | power =>
    simp only [callerStep] at h
    cases hc : powerCall dev op s.obd with
    | mk r o =>
      rw [hc] at h
      cases r <;> cases h <;> exact fun o h => by cases h
  | startGo =>
    simp only [callerStep] at h
    cases hth : s.thread <;> rw [hth] at h <;> cases h <;> exact fun o h => by cases h
  | stopNone =>
    simp only [callerStep] at h
    split at h <;> cases h
    · exact (afterStop_same s op).2
    · exact fun o h => by cases h
  | stopRead =>
    simp only [callerStep] at h
    cases hth : s.thread <;> rw [hth] at h <;> cases h <;> exact fun o h => by cases h
  | stopEnd => cases h; exact (afterStop_same _ op).2
  | modify =>
    simp only [callerStep] at h
    cases hd : s.doModify op with
    | mk r s2 => rw [hd] at h; cases r <;> cases h <;> exact fun o h => by cases h
  | ask => cases op <;> (cases h; exact fun o h => by cases h)
  | startRun => cases h; exact fun o h => by cases h
  | startNew => cases h; exact fun o h => by cases h
  | stopRun => cases h; exact fun o h => by cases h
  | enter => cases h; exact fun o h => by cases h
  | _ => simp only [callerStep] at h; split at h <;> cases h <;> exact fun o h => by cases h

/-- What callbacks may do: anything, or what polite callbacks do. -/
def CallbackRule (base : AW → Action → Prop) : Prop := base = anyCallback ∨ base = politeCallback

theorem rule_put {base : AW → Action → Prop} (hb : CallbackRule base) {s : AW} {x : OW} {a : Action} (h : base (s.put x) a) : base s a := by
  rcases hb with rfl | rfl
  · trivial
  · cases a <;> first | trivial | exact h

theorem rule_caller {base : AW → Action → Prop} (hb : CallbackRule base) (s : AW) : base s .caller := by
  rcases hb with rfl | rfl <;> trivial
theorem rule_daemon {base : AW → Action → Prop} (hb : CallbackRule base) (s : AW) (t : Nat) : base s (.daemon t) := by
  rcases hb with rfl | rfl <;> trivial
theorem rule_power {base : AW → Action → Prop} (hb : CallbackRule base) (s : AW) (t : Nat) {op : AOp} (ho : AOp.isPower op = true) : base s (.cb t op) := by
  rcases hb with rfl | rfl
  · trivial
  · cases op <;> first | trivial | cases ho

theorem setJob_only (f : FW) (t : Nat) (j : Job) (h : f.jobs = fun _ => none) : (f.setJob t (some j)).jobs = onlyJob t j := by
  funext t'; simp only [FW.setJob, h, onlyJob]
theorem setJob_again (f : FW) (t : Nat) (i j : Job) (h : f.jobs = onlyJob t i) : (f.setJob t (some j)).jobs = onlyJob t j := by
  funext t'; simp only [FW.setJob, h, onlyJob]; split <;> rfl
theorem setJob_none (f : FW) (t : Nat) (i : Job) (h : f.jobs = onlyJob t i) : (f.setJob t none).jobs = fun _ => none := by
  funext t'; simp only [FW.setJob, h, onlyJob]; split <;> rfl

theorem step_caller_plain {f : FW} {op : AOp} {pc : CPc} (hu : f.user = none) (hc : f.aw.caller = .busy op pc) (h2 : pc ≠ .closeObd) (h3 : pc ≠ .power) :
    f.step dev fl .caller = (f.aw.callerStep dev op pc).map (fun s => ({ f with aw := s } : FW)) := by
  obtain ⟨aw, jobs, user⟩ := f
  simp only at hu hc
  subst hu
  simp only [FW.step, hc]

/-- A step of the user's thread while an update thread is in a call to the connection. -/
theorem sim_caller {base : AW → Action → Prop} (hb : CallbackRule base) {f f' : FW} {s : AW} (hr : AReach dev fl base s) (h : Sim dev fl f s)
    {op : AOp} {pc : CPc} (hc : s.caller = .busy op pc) {t : Nat} {x : Pc} (ht : s.threads[t]? = some x) (ha : Pc.active x = true)
    (hcalm : Calm s.obd f.aw.obd) (hu' : f.user = none)
    (hs : f.step dev fl .caller = some f')
    (cont : ∀ s' : AW, s'.threads[t]? = some x → s'.obd = s.obd → ∀ f'' : FW, f''.aw.obd = f.aw.obd → f''.jobs = f.jobs → f''.user = f.user →
      Pending dev fl f'' s') : ∃ s', AReach dev fl base s' ∧ Sim dev fl f' s' := by
  have hI := areach_inv hr
  have hth := hI.act t x ht ha
  have hsame : f.aw = s.put f.aw.obd := h.same
  have h2 : pc ≠ .closeObd := by
    intro e; subst e
    have := hI.caller
    unfold CallerInv at this
    rw [hc] at this
    rw [hth] at this; cases this
  have h3 : pc ≠ .power := by
    intro e; subst e
    have := h.power op hc
    rw [hth] at this; cases this
  have hs' : (f.aw.callerStep dev op pc).map (fun s => ({ f with aw := s } : FW)) = some f' := by
    rw [← step_caller_plain (fl := fl) hu' (by rw [hsame]; exact hc) h2 h3]; exact hs
  rw [Option.map_eq_some_iff] at hs'
  obtain ⟨g, hg, hf⟩ := hs'
  subst hf
  -- finishing with a state of the atomic model that differs from `g` in the connection only
  have fin : ∀ s1 : AW, AReach dev fl base s1 → g = s1.put f.aw.obd → s1.obd = s.obd → s1.threads[t]? = some x → (∀ o, s1.caller ≠ .busy o .power) →
      ∃ s', AReach dev fl base s' ∧ Sim dev fl { f with aw := g } s' := by
    intro s1 hr1 e1 e2 e3 e4
    subst e1
    exact ⟨s1, hr1, ⟨rfl, cont s1 e3 e2 _ rfl rfl rfl, fun o ho => absurd ho (e4 o)⟩⟩
  have one : ∀ {s0 s1 : AW} {pc0 : CPc}, AReach dev fl base s0 → s0.caller = .busy op pc0 → s0.callerStep dev op pc0 = some s1 → AReach dev fl base s1 := by
    intro s0 s1 pc0 hr0 hc0 h0
    exact AReach.step s0 .caller s1 hr0 (rule_caller hb s0) (by simp only [AW.step, hc0]; exact h0)
  by_cases h1 : pc = .startConn
  · subst h1
    simp only [callerStep, Option.some.injEq] at hg
    by_cases hconn : ObdM.isConnected f.aw.obd = true
    · rw [if_pos hconn] at hg
      have hstep : s.callerStep dev op .startConn = some (s.goto op .startLen) := by
        simp only [callerStep, hcalm.conn hconn, if_true]
      exact fin _ (one hr hc hstep) (by rw [← hg, hsame]; rfl) rfl ht (fun o ho => by cases ho)
    · rw [if_neg hconn] at hg
      by_cases hcs : ObdM.isConnected s.obd = true
      · have hstep : s.callerStep dev op .startConn = some (s.goto op .startLen) := by
          simp only [callerStep, hcs, if_true]
        have r1 := one hr hc hstep
        by_cases hl : s.commands.length = 0
        · have hstep2 : (s.goto op .startLen).callerStep dev op .startLen = some ((s.goto op .startLen).ret op) := by
            simp only [callerStep]; rw [if_pos (show (s.goto op .startLen).commands.length = 0 from hl)]
          exact fin _ (one r1 rfl hstep2) (by rw [← hg, hsame]; rfl) rfl ht (fun o ho => by cases ho)
        · have hstep2 : (s.goto op .startLen).callerStep dev op .startLen = some ((s.goto op .startLen).goto op .startNone) := by
            simp only [callerStep]; rw [if_neg (show ¬ (s.goto op .startLen).commands.length = 0 from hl)]
          have r2 := one r1 rfl hstep2
          have hstep3 : ((s.goto op .startLen).goto op .startNone).callerStep dev op .startNone = some (((s.goto op .startLen).goto op .startNone).ret op) := by
            simp only [callerStep]
            rw [if_neg (show ¬ ((s.goto op .startLen).goto op .startNone).thread = none from by show ¬ s.thread = none; rw [hth]; simp)]
          exact fin _ (one r2 rfl hstep3) (by rw [← hg, hsame]; rfl) rfl ht (fun o ho => by cases ho)
      · have hstep : s.callerStep dev op .startConn = some (s.ret op) := by
          simp only [callerStep]; rw [if_neg hcs]
        exact fin _ (one hr hc hstep) (by rw [← hg, hsame]; rfl) rfl ht (fun o ho => by cases ho)
  · rw [hsame] at hg
    obtain ⟨s1, e1, e2, e3⟩ := callerStep_calm hcalm h1 h2 h3 hg
    obtain ⟨k1, k2⟩ := callerStep_keeps hI hc ht ha e1
    exact fin s1 (one hr hc e1) e2 e3 k1 k2

/-- Every step is matched by some steps of the atomic model. -/
theorem sim_step {base : AW → Action → Prop} (hb : CallbackRule base) {f f' : FW} {s : AW} (hr : AReach dev fl base s) (h : Sim dev fl f s) {a : Action}
    (hok : base f.aw a) (hu : carefulUser f.aw a) (hs : f.step dev fl a = some f') : ∃ s', AReach dev fl base s' ∧ Sim dev fl f' s' := by
  have hI := areach_inv hr
  have hsame : f.aw = s.put f.aw.obd := h.same
  have hcaller : f.aw.caller = s.caller := by rw [hsame]; rfl
  have hthreads : f.aw.threads = s.threads := by rw [hsame]; rfl
  have hthread : f.aw.thread = s.thread := by rw [hsame]; rfl
  -- one step of the atomic model when nothing is under way
  have direct : f.jobs = (fun _ => none) → f.user = none → f.aw = s → ∀ s', s.step dev fl a = some s' → f' = { f with aw := s' } →
      (∀ op, s'.caller = .busy op .power → s'.thread = none) → ∃ s', AReach dev fl base s' ∧ Sim dev fl f' s' := by
    intro h1 h2 h3 s' h4 h5 h6
    refine ⟨s', AReach.step s a s' hr (by rw [h3] at hok; exact hok) h4, ?_⟩
    subst h5
    exact ⟨rfl, .none h1 h2 rfl, h6⟩
  cases a with
  | call op =>
    simp only [FW.step, AW.step, hcaller] at hs
    cases hc : s.caller with
    | busy op' pc => rw [hc] at hs; cases hs
    | idle =>
      rw [hc] at hs
      simp only [Option.map_some, Option.some.injEq] at hs
      subst hs
      have hstep : s.step dev fl (.call op) = some ((s.goto op (entry op)).emit (.call op)) := by simp only [AW.step, hc]
      refine ⟨_, AReach.step s (.call op) _ hr (rule_put hb (x := f.aw.obd) (by rw [← hsame]; exact hok)) hstep, ?_, ?_, ?_⟩
      · show ((f.aw.goto op (entry op)).emit (.call op)) = ((s.goto op (entry op)).emit (.call op)).put f.aw.obd
        rw [hsame]; rfl
      · cases h.pending with
        | none hj hu ho => exact .none hj hu ho
        | query t it c p hj hu ht hr hq hc hg => exact .query t it c p hj hu ht hr hq hc hg
        | power t it r l i op p hj hu ht hop hr hq hc hg => exact .power t it r l i op p hj hu ht hop hr hq hc hg
        | userClose op' p hj hu hc' hr hg => rw [hc] at hc'; cases hc'
        | userPower op' p hj hu hc' hr hg => rw [hc] at hc'; cases hc'
      · intro op' hop
        have : entry op = .power := by
          have e : Caller.busy op (entry op) = Caller.busy op' .power := hop
          exact (Caller.busy.injEq .. ▸ e).2
        have hp : AOp.isPower op = true := by cases op <;> first | rfl | cases this
        have := hu hp
        rw [hthread] at this
        exact this
  | caller =>
    have hs0 := hs
    simp only [FW.step, hcaller] at hs
    cases hc : s.caller with
    | idle => rw [hc] at hs; cases hs
    | busy op pc =>
      rw [hc] at hs
      simp only at hs
      cases hp : h.pending with
      | userClose op' p hj hu' hc' hrun hg =>
        rw [hc] at hc'; cases hc'
        rw [hu'] at hs
        simp only [Option.some.injEq] at hs
        cases p with
        | act m k =>
          subst hs
          exact ⟨s, hr, ⟨by show f.aw.put _ = s.put _; rw [hsame]; rfl, .userClose op _ hj rfl hc hrun (hg.2 _), h.power⟩⟩
        | done r =>
          have hstep : s.step dev fl .caller = s.callerStep dev op .closeObd := by simp only [AW.step, hc]
          have hrun' : ObdM.close dev s.obd = (r, f.aw.obd) := hrun.symm
          cases r with
          | ok u =>
            have h2 : s.callerStep dev op .closeObd = some ((s.put f.aw.obd).ret op) := by simp only [callerStep, hrun']; rfl
            refine ⟨_, AReach.step s .caller _ hr (rule_caller hb s) (hstep.trans h2), ?_⟩
            subst hs
            refine ⟨?_, .none hj rfl ?_, fun o ho => by cases ho⟩
            · show f.aw.ret op = _; rw [hsame]; rfl
            · show f.aw.obd = _; rfl
          | error x =>
            have h2 : s.callerStep dev op .closeObd = some ((s.put f.aw.obd).raise op x) := by simp only [callerStep, hrun']; rfl
            refine ⟨_, AReach.step s .caller _ hr (rule_caller hb s) (hstep.trans h2), ?_⟩
            subst hs
            refine ⟨?_, .none hj rfl ?_, fun o ho => by cases ho⟩
            · show f.aw.raise op x = _; rw [hsame]; rfl
            · show f.aw.obd = _; rfl
      | userPower op' p hj hu' hc' hrun hg =>
        rw [hc] at hc'; cases hc'
        rw [hu'] at hs
        simp only [Option.some.injEq] at hs
        cases p with
        | act m k =>
          subst hs
          exact ⟨s, hr, ⟨by show f.aw.put _ = s.put _; rw [hsame]; rfl, .userPower op _ hj rfl hc hrun (hg.2 _), h.power⟩⟩
        | done r =>
          have hstep : s.step dev fl .caller = s.callerStep dev op .power := by simp only [AW.step, hc]
          have hrun' : powerCall dev op s.obd = (r, f.aw.obd) := hrun.symm
          cases r with
          | ok u =>
            have h2 : s.callerStep dev op .power = some ((s.put f.aw.obd).ret op) := by simp only [callerStep, hrun']; rfl
            refine ⟨_, AReach.step s .caller _ hr (rule_caller hb s) (hstep.trans h2), ?_⟩
            subst hs
            refine ⟨?_, .none hj rfl ?_, fun o ho => by cases ho⟩
            · show f.aw.ret op = _; rw [hsame]; rfl
            · show f.aw.obd = _; rfl
          | error x =>
            have h2 : s.callerStep dev op .power = some ((s.put f.aw.obd).raise op x) := by simp only [callerStep, hrun']; rfl
            refine ⟨_, AReach.step s .caller _ hr (rule_caller hb s) (hstep.trans h2), ?_⟩
            subst hs
            refine ⟨?_, .none hj rfl ?_, fun o ho => by cases ho⟩
            · show f.aw.raise op x = _; rw [hsame]; rfl
            · show f.aw.obd = _; rfl
      | none hj hu' ho =>
        have hfs : f.aw = s := by rw [h.same, ho]
        by_cases h1 : pc = .closeObd
        · subst h1
          simp only [hu', Option.some.injEq] at hs
          subst hs
          exact ⟨s, hr, ⟨h.same, .userClose op _ hj rfl hc (by show (FineObd.close dev).run f.aw.obd = _; rw [ho, FineObd.run_close]) (FineObd.grow_close dev), h.power⟩⟩
        · by_cases h2 : pc = .power
          · subst h2
            simp only [hu', Option.some.injEq] at hs
            subst hs
            exact ⟨s, hr, ⟨h.same, .userPower op _ hj rfl hc (by show (FineObd.power dev op).run f.aw.obd = _; rw [ho, FineObd.run_power]) (FineObd.quiet_power grow_tame dev op), h.power⟩⟩
          · have hs' : (f.aw.callerStep dev op pc).map (fun s => ({ f with aw := s } : FW)) = some f' := by
              rw [← step_caller_plain (fl := fl) hu' (by rw [hcaller]; exact hc) h1 h2]; exact hs0
            rw [hfs, Option.map_eq_some_iff] at hs'
            obtain ⟨s', h3, h4⟩ := hs'
            exact direct hj hu' hfs s' (by simp only [AW.step, hc]; exact h3) h4.symm (fun o ho => absurd ho (callerStep_noPower h3 o))
      | query t it c p hj hu' ht hrun hq hcalm hg =>
        exact sim_caller hb hr h hc ht rfl hcalm hu' hs0 (fun s' h1 h2 f'' h3 h4 h5 => .query t it c p (by rw [h4, hj]) (by rw [h5, hu']) h1 (by rw [h3, h2]; exact hrun) hq (by rw [h3, h2]; exact hcalm) hg)
      | power t it r l i o p hj hu' ht hop hrun hq hcalm hg =>
        exact sim_caller hb hr h hc ht rfl hcalm hu' hs0 (fun s' h1 h2 f'' h3 h4 h5 => .power t it r l i o p (by rw [h4, hj]) (by rw [h5, hu']) h1 hop (by rw [h3, h2]; exact hrun) hq (by rw [h3, h2]; exact hcalm) hg)
  | daemon t =>
    simp only [FW.step, hthreads] at hs
    cases ht : s.threads[t]? with
    | none => rw [ht] at hs; cases hs
    | some pc =>
      rw [ht] at hs
      simp only at hs
      cases hj : f.jobs t with
      | none =>
        rw [hj] at hs
        simp only at hs
        by_cases hq : ∃ it c, pc = .query it c
        · obtain ⟨it, c, rfl⟩ := hq
          obtain ⟨h1, h2, h3⟩ := h.idle hI ht rfl hj
          simp only [Option.some.injEq] at hs
          subst hs
          exact ⟨s, hr, ⟨h.same, .query t it c _ (setJob_only f t _ h1) h2 ht (by show (FineObd.query dev fl c).run f.aw.obd = _; rw [h3, FineObd.run_query])
            (FineObd.quiet_query calm_tame dev fl c) (by show Calm s.obd f.aw.obd; rw [h3]; exact Calm.refl _) (FineObd.quiet_query grow_tame dev fl c), h.power⟩⟩
        · have hs' : (f.aw.daemonStep dev fl t pc).map (fun s => ({ f with aw := s } : FW)) = some f' := by
            cases pc <;> first | exact absurd ⟨_, _, rfl⟩ hq | exact hs
          have ha : Pc.active pc = true := by
            cases pc <;> first | rfl | (simp [daemonStep] at hs'; done)
          obtain ⟨h1, h2, h3⟩ := h.idle hI ht ha hj
          rw [h3, Option.map_eq_some_iff] at hs'
          obtain ⟨s', h4, h5⟩ := hs'
          refine direct h1 h2 h3 s' (by simp only [AW.step, ht]; exact h4) h5.symm ?_
          intro op hop
          have hcs : s'.caller = s.caller := (daemonStep_ctl h4).1
          rw [hcs] at hop
          have := h.power op hop
          rw [hI.act t pc ht ha] at this; cases this
      | some j =>
        rw [hj] at hs
        simp only at hs
        cases hp : h.pending with
        | none hj' hu' ho => rw [hj'] at hj; cases hj
        | userClose op' p hj' hu' hc' hrun hg => rw [hj'] at hj; cases hj
        | userPower op' p hj' hu' hc' hrun hg => rw [hj'] at hj; cases hj
        | query t' it c p hj' hu' ht' hrun hq hcalm hg =>
          have : t' = t := by
            rw [hj'] at hj; unfold onlyJob at hj; split at hj
            · rename_i e; exact e.symm
            · cases hj
          subst this
          rw [hj'] at hj
          simp only [onlyJob, if_true, Option.some.injEq] at hj
          subst hj
          rw [ht] at ht'; cases ht'
          cases p with
          | act m k =>
            simp only [FW.jobStep, Option.some.injEq] at hs
            subst hs
            refine ⟨s, hr, ⟨by show f.aw.put _ = s.put _; rw [hsame]; rfl, .query t' it c (k (m f.aw.obd).1) (setJob_again _ t' _ _ hj') hu' ht hrun (hq.2 _) (hcalm.trans (hq.1 _)) (hg.2 _), h.power⟩⟩
          | done r =>
            simp only [FW.jobStep, Option.some.injEq] at hs
            have hrun' : ObdM.query dev fl c true s.obd = (r, f.aw.obd) := hrun.symm
            have h2 : s.step dev fl (.daemon t') = some (FW.gotResponse t' it c (s.put f.aw.obd) r) := by
              simp only [AW.step, ht, daemonStep, hrun']
              cases r <;> rfl
            refine ⟨_, AReach.step s (.daemon t') _ hr (rule_daemon hb s t') h2, ?_⟩
            subst hs
            refine ⟨?_, .none (setJob_none _ t' _ hj') hu' ?_, ?_⟩
            · show FW.gotResponse t' it c f.aw r = _; rw [hsame]; cases r <;> rfl
            · show (FW.gotResponse t' it c f.aw r).obd = _; cases r <;> rfl
            · intro op hop
              have : s.caller = .busy op .power := by cases r <;> exact hop
              have := h.power op this
              rw [hI.act t' _ ht rfl] at this; cases this
        | power t' it r0 l i op p hj' hu' ht' hop hrun hq hcalm hg =>
          have : t' = t := by
            rw [hj'] at hj; unfold onlyJob at hj; split at hj
            · rename_i e; exact e.symm
            · cases hj
          subst this
          rw [hj'] at hj
          simp only [onlyJob, if_true, Option.some.injEq] at hj
          subst hj
          rw [ht] at ht'; cases ht'
          cases p with
          | act m k =>
            simp only [FW.jobStep, Option.some.injEq] at hs
            subst hs
            refine ⟨s, hr, ⟨by show f.aw.put _ = s.put _; rw [hsame]; rfl, .power t' it r0 l i op (k (m f.aw.obd).1) (setJob_again _ t' _ _ hj') hu' ht hop hrun (hq.2 _) (hcalm.trans (hq.1 _)) (hg.2 _), h.power⟩⟩
          | done r =>
            simp only [FW.jobStep, Option.some.injEq] at hs
            have hrun' : powerCall dev op s.obd = (r, f.aw.obd) := hrun.symm
            have h2 : s.step dev fl (.cb t' op) = some (s.put f.aw.obd) := by
              simp only [AW.step, ht]
              cases op <;> first
                | (cases hop; done)
                | (show some (s.put (powerCall dev .lowPower s.obd).2) = _; rw [hrun'])
                | (show some (s.put (powerCall dev .normalPower s.obd).2) = _; rw [hrun'])
            refine ⟨_, AReach.step s (.cb t' op) _ hr (rule_power hb s t' hop) h2, ?_⟩
            subst hs
            refine ⟨hsame, .none (setJob_none _ t' _ hj') hu' rfl, ?_⟩
            intro op hop
            have := h.power op hop
            rw [hI.act t' _ ht rfl] at this; cases this
  | cb t op =>
    simp only [FW.step, hthreads] at hs
    cases ht : s.threads[t]? with
    | none => rw [ht] at hs; cases hs
    | some pc =>
      rw [ht] at hs
      cases pc <;> simp only at hs <;> try (cases hs; done)
      rename_i it r l i
      cases hj : f.jobs t with
      | some j => rw [hj] at hs; cases hs
      | none =>
        rw [hj] at hs
        simp only at hs
        obtain ⟨h1, h2, h3⟩ := h.idle hI ht rfl hj
        have hth := hI.act t _ ht rfl
        have hpw : ∀ s' : AW, s.cbCall dev t op = some s' → ∀ o, s'.caller = .busy o .power → s'.thread = none := by
          intro s' h4 o ho
          rw [(cbCall_ctl hth h4).1] at ho
          have := h.power o ho
          rw [hth] at this; cases this
        by_cases hop : AOp.isPower op = true
        · have hs' : f' = f.setJob t (some (.power op (FineObd.power dev op))) := by
            cases op <;> first | (cases hop; done) | (simp only [FW.cbBegin, Option.some.injEq] at hs; exact hs.symm)
          subst hs'
          exact ⟨s, hr, ⟨h.same, .power t it r l i op _ (setJob_only f t _ h1) h2 ht hop (by show (FineObd.power dev op).run f.aw.obd = _; rw [h3, FineObd.run_power])
            (FineObd.quiet_power calm_tame dev op) (by show Calm s.obd f.aw.obd; rw [h3]; exact Calm.refl _) (FineObd.quiet_power grow_tame dev op), h.power⟩⟩
        · have hs' : (s.cbCall dev t op).map (fun s => ({ f with aw := s } : FW)) = some f' := by
            cases op <;> first | exact absurd rfl hop | (simp only [FW.cbBegin, h3, hth] at hs; simpa [cbCall, hth] using hs)
          rw [Option.map_eq_some_iff] at hs'
          obtain ⟨s', h4, h5⟩ := hs'
          exact direct h1 h2 h3 s' (by simp only [AW.step, ht]; exact h4) h5.symm (hpw s' h4)
  | cbEnd t ok =>
    simp only [FW.step] at hs
    cases hj : f.jobs t with
    | some j => rw [hj] at hs; cases hs
    | none =>
      rw [hj] at hs
      simp only [AW.step, hthreads] at hs
      cases ht : s.threads[t]? with
      | none => rw [ht] at hs; cases hs
      | some pc =>
        rw [ht] at hs
        cases pc <;> simp only at hs <;> try (cases hs; done)
        rename_i it r l i
        obtain ⟨h1, h2, h3⟩ := h.idle hI ht rfl hj
        rw [Option.map_eq_some_iff] at hs
        obtain ⟨s', h4, h5⟩ := hs
        rw [h3] at h4
        refine direct h1 h2 h3 s' (by simp only [AW.step, ht]; exact h4) h5.symm ?_
        intro o ho
        have : s'.caller = s.caller := by split at h4 <;> cases h4 <;> rfl
        rw [this] at ho
        have := h.power o ho
        rw [hI.act t _ ht rfl] at this; cases this
  | reorder t rest =>
    simp only [FW.step] at hs
    cases hj : f.jobs t with
    | some j => rw [hj] at hs; cases hs
    | none =>
      rw [hj] at hs
      simp only at hs
      rw [Option.map_eq_some_iff] at hs
      obtain ⟨s', h4, h5⟩ := hs
      obtain ⟨it, it', ht, -, -, hs', -⟩ := reorder_eq h4
      rw [hthreads] at ht
      obtain ⟨h1, h2, h3⟩ := h.idle hI ht rfl hj
      rw [h3] at h4 hs'
      refine direct h1 h2 h3 s' h4 h5.symm ?_
      intro o ho
      subst hs'
      have := h.power o ho
      rw [hI.act t _ ht rfl] at this; cases this

/-- Every schedule of single steps is matched by a schedule of the atomic model. -/
theorem freach_sim {base : AW → Action → Prop} (hb : CallbackRule base) {f : FW} (h : FReach dev fl (fun s a => base s a ∧ carefulUser s a) f) :
    ∃ s, AReach dev fl base s ∧ Sim dev fl f s := by
  induction h with
  | init a o h => exact ⟨_, .init a o h, ⟨rfl, .none rfl rfl rfl, fun op ho => by cases ho⟩⟩
  | step f a f' h hok hs ih =>
    obtain ⟨s, h1, h2⟩ := ih
    exact sim_step hb h1 h2 hok.1 hok.2 hs

/-- The connection of an asynchronous object went through a history of calls. -/
theorem areach_reachable {ok : AW → Action → Prop} {s : AW} (h : AReach dev fl ok s) : Reachable dev fl s.obd := by
  have : ∃ a o as, Constructed dev fl a o ∧ ARun dev fl ok { obd := o } as s := by
    induction h with
    | init a o h => exact ⟨a, o, [], h, .nil _⟩
    | step s x s' h hok hs ih =>
      obtain ⟨a, o, as, h1, h2⟩ := ih
      exact ⟨a, o, _, h1, .snoc _ _ _ _ _ h2 hok hs⟩
  obtain ⟨a, o, as, h1, h2⟩ := this
  obtain ⟨-, calls, hD⟩ := arun_driven h1 h2 rfl
  exact ⟨a, o, calls, h1, hD.obd⟩

theorem reachable_turns {s : OW} (h : Reachable dev fl s) : Turns s.hist := by
  obtain ⟨a, s0, calls, h1, rfl⟩ := h
  have := ObdM.turns_construct (dev := dev) fl a
  rw [h1] at this
  exact ObdM.turns_session fl calls s0 this

/-- What is under way will lead to a history of calls. -/
theorem Sim.ahead {base : AW → Action → Prop} {f : FW} {s : AW} (hr : AReach dev fl base s) (h : Sim dev fl f s) :
    ∃ o, Reachable dev fl o ∧ f.aw.obd.hist <+: o.hist := by
  obtain ⟨a, s0, calls, h1, h2⟩ := areach_reachable hr
  have key : ∀ c : Call, Reachable dev fl (c.after dev fl s.obd) := fun c => ⟨a, s0, calls ++ [c], h1, by rw [h2]; simp [session]⟩
  cases h.pending with
  | none hj hu ho => exact ⟨s.obd, ⟨a, s0, calls, h1, h2⟩, ho ▸ List.prefix_rfl⟩
  | query t it c p hj hu ht hr hq hc hg => exact ⟨_, key (.query c true), by have := grow_run hg f.aw.obd; rw [hr] at this; exact this⟩
  | power t it r l i op p hj hu ht hop hr hq hc hg =>
    cases op <;> first
      | (cases hop; done)
      | exact ⟨_, key .lowPower, by have := grow_run hg f.aw.obd; rw [hr] at this; exact this⟩
      | exact ⟨_, key .normalPower, by have := grow_run hg f.aw.obd; rw [hr] at this; exact this⟩
  | userClose op p hj hu hc hr hg => exact ⟨_, key .close, by have := grow_run hg f.aw.obd; rw [hr] at this; exact this⟩
  | userPower op p hj hu hc hr hg =>
    have := grow_run hg f.aw.obd
    rw [hr] at this
    cases op <;> first | exact ⟨_, key .lowPower, this⟩ | exact ⟨_, key .normalPower, this⟩

end Model
