import Verif.Props.Sessions
import Verif.Lemmas.Traffic
/-!
# C79: the amount of I/O
-/
namespace Props
open Py Model Spec ObdM

/-- The weight of a written line. -/
def fW : Event → Nat
  | .write _ _ => 1
  | _ => 0
/-- The weight of a read. -/
def fR : Event → Nat
  | .read _ => 1
  | _ => 0
/-- The weight of a probed rate. -/
def fP : Event → Nat
  | .probe _ _ => 1
  | _ => 0

theorem weights_W : Weights fW 1 0 0 := ⟨fun _ _ => Nat.le_refl _, fun _ => Nat.le_refl _, fun _ _ => Nat.le_refl _, rfl, fun _ _ => rfl, fun _ _ => rfl⟩
theorem weights_R : Weights fR 0 1 0 := ⟨fun _ _ => Nat.le_refl _, fun _ => Nat.le_refl _, fun _ _ => Nat.le_refl _, rfl, fun _ _ => rfl, fun _ _ => rfl⟩
theorem weights_P : Weights fP 0 0 1 := ⟨fun _ _ => Nat.le_refl _, fun _ => Nat.le_refl _, fun _ _ => Nat.le_refl _, rfl, fun _ _ => rfl, fun _ _ => rfl⟩

theorem total_W (h : History) : total fW h = (sent h).length := by
  induction h with
  | nil => rfl
  | cons e h ih =>
    rw [show e :: h = [e] ++ h from rfl, total_append, sent_append, List.length_append, ih]
    cases e <;> rfl
theorem total_R (h : History) : total fR h = waits h := by
  induction h with
  | nil => rfl
  | cons e h ih =>
    rw [show e :: h = [e] ++ h from rfl, total_append, waits, List.countP_append, ih]
    cases e <;> rfl
theorem total_P (h : History) : total fP h = ratesTried h := by
  induction h with
  | nil => rfl
  | cons e h ih =>
    rw [show e :: h = [e] ++ h from rfl, total_append, ratesTried, List.countP_append, ih]
    cases e <;> rfl

/-- At most twelve waits per line, from some point on. -/
def Paid (c d : Nat) (h : History) : Prop := waits h + c ≤ 12 * (sent h).length + d

theorem paid_send {dev : Device} {c d : Nat} (cmd : Bytes) (dl : Bool) (m : Bytes) : Kept (fun w : EW => Paid c d w.hist) (ElmM.send dev cmd dl m) := by
  intro w hw
  rcases ElmM.send_outcome dev cmd dl m w with ⟨-, h⟩ | ⟨p, l, w', hp, h, hr⟩
  · rw [h]; exact hw
  · have h1 := ElmM.cost_send (dev := dev) weights_R cmd dl m w
    rw [total_R, total_R] at h1
    have h2 : (sent (ElmM.send dev cmd dl m w).2.hist).length = (sent w.hist).length + 1 := by
      rw [h]
      cases hr with
      | replied bs b _ => simp [sent_append, sent, reads, List.filterMap_eq_nil_iff]
      | writeFailed => simp [sent_append, sent]
      | readFailed bs _ => simp [sent_append, sent, reads, List.filterMap_eq_nil_iff]
    unfold Paid at hw ⊢
    omega

/-- No reads, and the history only grows. -/
theorem paid_free {c d : Nat} {α : Type} {m : ElmM α} (h1 : Cost fR 0 m) (h2 : ∀ w, Ext w.hist (m w).2.hist) :
    Kept (fun w : EW => Paid c d w.hist) m := by
  intro w hw
  have h1 := h1 w
  rw [total_R, total_R] at h1
  obtain ⟨evs, h2, -⟩ := h2 w
  have h3 : (sent w.hist).length ≤ (sent (m w).2.hist).length := by rw [h2, sent_append, List.length_append]; omega
  unfold Paid at hw ⊢
  omega

theorem paid_elmClose {dev : Device} {c d : Nat} : Kept (fun w : EW => Paid c d w.hist) (ElmM.close dev) :=
  paid_free (ElmM.cost_close weights_R) (fun w => (ext_stable (dev := dev) w.hist).elmClose trivial w (Ext.refl _))

theorem paid_stable {dev : Device} {c d : Nat} : Stable dev (fun _ => True) (fun w : EW => Paid c d w.hist) where
  send := fun cmd dl m _ => paid_send cmd dl m
  proto := fun _ _ h => h

theorem paid_steps {dev : Device} {c d : Nat} (pr : Option Str) : ElmM.Steps dev pr (fun w : EW => Paid c d w.hist) where
  send := fun _ _ d m => paid_send _ d m
  set := ElmM.kept_setProtocol paid_stable pr (fun _ => trivial) trivial trivial trivial
  close := paid_elmClose
  status := fun _ _ h => h
  baud := fun b => paid_free (ElmM.cost_baud weights_R b) (fun w => (ext_stable (dev := dev) w.hist).baud b w (Ext.refl _))
  wake := paid_free (ElmM.cost_write weights_R _) (fun w => (ext_stable (dev := dev) w.hist).write trivial w (Ext.refl _))

theorem paid_on {α : Type} {m : ElmM α} {c d : Nat} (hm : Kept (fun w : EW => Paid c d w.hist) m) : Kept (fun s : OW => Paid c d s.hist) (onInterface m) := by
  intro s h
  unfold onInterface
  cases hi : s.interface with
  | none => exact h
  | some e => exact hm ⟨e, s.hist⟩ h

theorem paid_ostable {dev : Device} {c d : Nat} : OStable dev (fun s : OW => Paid c d s.hist) where
  send := fun cmd _ => paid_on (ElmM.kept_sendAndParse (C := fun _ => True) (fun c d m _ => paid_send c d m) cmd trivial trivial (fun _ h => h))
  attrs := fun _ _ _ _ h => h
  sup := fun _ _ h => h

theorem paid_close {dev : Device} {c d : Nat} : Kept (fun s : OW => Paid c d s.hist) (close dev) := by
  unfold close
  refine Kept.bind (fun s h => h) (fun _ => Kept.bind Kept.get (fun s => ?_))
  split
  · exact Kept.pure _
  · exact Kept.bind (kept_setHeader paid_ostable _) (fun _ => Kept.bind (paid_on paid_elmClose) (fun _ s h => h))

theorem paid_call {dev : Device} {fl : ElmM.FloatFn} {c d : Nat} (call : Call) (s : OW) (h : Paid c d s.hist) : Paid c d (call.after dev fl s).hist := by
  cases call with
  | query q force => exact kept_query (paid_ostable (dev := dev)) fl q force s h
  | lowPower =>
    refine (?_ : Kept (fun s : OW => Paid c d s.hist) (lowPower dev)) s h
    unfold lowPower
    refine Kept.bind Kept.get (fun s => ?_)
    split
    · exact Kept.pure _
    · exact paid_on (ElmM.kept_lowPower (C := fun _ => True) (fun c d m _ => paid_send c d m) trivial (fun _ h => h))
  | normalPower =>
    refine (?_ : Kept (fun s : OW => Paid c d s.hist) (normalPower dev)) s h
    unfold normalPower
    refine Kept.bind Kept.get (fun s => ?_)
    split
    · exact Kept.pure _
    · exact paid_on (ElmM.kept_normalPower (C := fun _ => True) (fun c d m _ => paid_send c d m) trivial (fun _ h => h))
  | close => exact paid_close s h

theorem paid_open {dev : Device} {fl : ElmM.FloatFn} (port : Str) (cfg : ElmM.Config) : Kept (fun s : OW => Paid 0 0 s.hist) (openInterface dev fl port cfg) := by
  intro s h
  have := ElmM.kept_construct (dev := dev) (paid_steps (c := 0) (d := 0) cfg.protocol) fl port s.hist (by
    intro e err
    unfold Paid at *
    rw [waits, List.countP_append, sent_append, List.length_append]
    show waits s.hist + 0 + 0 ≤ _
    omega)
  unfold openInterface
  simp only
  split <;> exact this

theorem paid_tryPorts {dev : Device} {fl : ElmM.FloatFn} (cfg : ElmM.Config) (ports : List Str) : Kept (fun s : OW => Paid 0 0 s.hist) (tryPorts dev fl cfg ports) := by
  induction ports with
  | nil => exact Kept.pure _
  | cons p ports ih =>
    unfold tryPorts
    refine Kept.bind (paid_open p cfg) (fun _ => Kept.bind Kept.get (fun s => ?_))
    split
    · exact Kept.pure _
    · exact ih

theorem paid_construct {dev : Device} {fl : ElmM.FloatFn} (a : Args) : Paid 0 0 (ObdM.construct dev fl a.ports a.portstr a.fast a.cfg).2.hist := by
  have hcl : Kept (fun s : OW => Paid 0 0 s.hist) (closeIfFailed dev) := by
    unfold closeIfFailed
    refine Kept.bind Kept.get (fun s => ?_)
    split
    · exact paid_close
    · exact Kept.pure _
  have hc : Kept (fun s : OW => Paid 0 0 s.hist) (connect dev fl a.ports a.portstr a.cfg) := by
    unfold connect
    cases a.portstr with
    | none =>
      simp only
      cases a.ports.isEmpty with
      | true => exact Kept.pure _
      | false => exact Kept.bind (paid_tryPorts _ _) (fun _ => hcl)
    | some p => exact Kept.bind (paid_open _ _) (fun _ => hcl)
  exact Kept.bind hc (fun _ => kept_loadCommands paid_ostable fl) _ (by unfold Paid; exact Nat.zero_le _)

theorem cost_power {dev : Device} {f : Event → Nat} {W R P : Nat} (hf : Weights f W R P) (s : OW) :
    total f (lowPower dev s).2.hist ≤ total f s.hist + (W + 12 * R) ∧ total f (normalPower dev s).2.hist ≤ total f s.hist + (W + 12 * R) := by
  constructor
  · refine (?_ : OCost f (W + 12 * R) (lowPower dev)) s
    unfold lowPower
    refine OCost.bind' (n := 0) (k := W + 12 * R) OCost.get (by omega) (fun s => ?_)
    split
    · exact OCost.pure _ _
    · exact OCost.on (ElmM.cost_lowPower hf)
  · refine (?_ : OCost f (W + 12 * R) (normalPower dev)) s
    unfold normalPower
    refine OCost.bind' (n := 0) (k := W + 12 * R) OCost.get (by omega) (fun s => ?_)
    split
    · exact OCost.pure _ _
    · exact OCost.on (ElmM.cost_normalPower hf)

theorem low_one {dev : Device} (s : OW) : (sent (lowPower dev s).2.hist).length ≤ (sent s.hist).length + 1 ∧
    (sent (normalPower dev s).2.hist).length ≤ (sent s.hist).length + 1 := by
  have := cost_power (dev := dev) weights_W s
  simpa only [total_W] using this

/-! ## C79 -/

/-- C79 for calls: any call writes at most three lines (a wake-up, a header and the command) and waits at most
twelve times per line for the reply, whatever the adapter does and whether or not the call returns. -/
theorem C79_calls (dev : Device) (fl : Str → Option PyFloat) (s : OW) (hr : Reachable dev fl s) (call : Call) :
    (sent (call.after dev fl s).hist).length ≤ (sent s.hist).length + 3 ∧
    waits (call.after dev fl s).hist + 12 * (sent s.hist).length ≤ waits s.hist + 12 * (sent (call.after dev fl s).hist).length ∧
    openAttempts (call.after dev fl s).hist = openAttempts s.hist ∧ ratesTried (call.after dev fl s).hist = ratesTried s.hist := by
  refine ⟨?_, ?_, ?_, ?_⟩
  · cases call with
    | query c force =>
      show (sent (query dev fl c force s).2.hist).length ≤ _
      rcases query_cases dev fl c force s with ⟨h, -⟩ | ⟨x, h, -⟩ | ⟨h, hs, -⟩
      · rw [h]; exact Nat.le_add_right _ _
      · rw [h]; exact Nat.le_add_right _ _
      · rw [h]
        obtain ⟨e, o, hl⟩ := live_of_sound (reachable_sound hr) hs
        obtain ⟨evs, p, q, h1, -, h2, -, h3, -⟩ := exchange_plan (dev := dev) (fl := fl) (c := c) hl
        rw [h1, sent_append, List.length_append, h3, List.length_map]
        have h4 : (plan s e c).length ≤ 3 := by
          unfold plan wake
          split <;> split <;> simp
        rw [h2, List.length_append] at h4
        omega
    | lowPower => exact Nat.le_trans (low_one s).1 (by omega)
    | normalPower => exact Nat.le_trans (low_one s).2 (by omega)
    | close =>
      have := cost_close (dev := dev) weights_W s
      rw [total_W, total_W] at this
      exact this
  · have h1 : Paid (12 * (sent s.hist).length) (waits s.hist) s.hist := by unfold Paid; omega
    have h2 := paid_call (dev := dev) (fl := fl) call s h1
    unfold Paid at h2; omega
  · obtain ⟨evs, h1, h2⟩ := (ext_stable (dev := dev) s.hist).call fl call s (Ext.refl _)
    rw [h1, attempts_append, attempts_noOpen h2]; rfl
  · have h0 : total fP (call.after dev fl s).hist ≤ total fP s.hist + 0 := by
      cases call with
      | query c force => exact cost_query (dev := dev) weights_P fl c force s
      | lowPower => exact (cost_power (dev := dev) weights_P s).1
      | normalPower => exact (cost_power (dev := dev) weights_P s).2
      | close => exact cost_close (dev := dev) weights_P s
    rw [total_P, total_P] at h0
    obtain ⟨evs, h1, -⟩ := (ext_stable (dev := dev) s.hist).call fl call s (Ext.refl _)
    rw [h1, ratesTried, List.countP_append] at h0 ⊢
    change ratesTried s.hist + _ ≤ ratesTried s.hist + 0 at h0
    show ratesTried s.hist + _ = ratesTried s.hist
    omega

/-- C79 for the constructor: whatever the adapter does, connecting writes at most 29 lines per port and 43 more,
waits at most twelve times per line, and tries at most six baud rates and one opening per port. -/
theorem C79_construct (dev : Device) (fl : Str → Option PyFloat) (a : Args) :
    let h := (ObdM.construct dev fl a.ports a.portstr a.fast a.cfg).2.hist
    (sent h).length ≤ 29 * portsToTry a + 43 ∧ waits h ≤ 12 * (sent h).length ∧ ratesTried h ≤ 6 * portsToTry a := by
  refine ⟨?_, ?_, ?_⟩
  · have := cost_constructor (dev := dev) weights_W fl a
    rw [total_W, show pidGetters.length = 10 by decide +kernel] at this
    unfold portCost at this
    omega
  · exact paid_construct (dev := dev) (fl := fl) a
  · have := cost_constructor (dev := dev) weights_P fl a
    rw [total_P] at this
    unfold portCost at this
    omega

/-- Three lines are needed: a sleeping adapter, another header. -/
example : (sent (Call.after (demo table) fl0 (.query { rpmCommand with header := ascii "7E1" } true) (session (demo table) fl0 [.lowPower] (demoObd true))).hist).length =
    (sent (session (demo table) fl0 [.lowPower] (demoObd true)).hist).length + 3 := by decide +kernel

/-- And so are twelve waits: the adapter is silent. -/
example : waits (Call.after { demo table with read := fun _ => [] } fl0 (.query rpmCommand true) (demoObd true)).hist = waits (demoObd true).hist + 12 := by decide +kernel

/-- Connecting to the sample car. -/
example : (sent (demoObd true).hist).length = 11 ∧ waits (demoObd true).hist = 11 ∧ ratesTried (demoObd true).hist = 2 := by decide +kernel

end Props
