import Verif.Spec.Turns
import Verif.Lemmas.Hist
/-!
# One request at a time
-/
namespace Model
open Py Spec

/-- Writing a line is allowed now. -/
def Turns (h : History) : Prop :=
  OneAtATime h ∧ ∀ (a : History) (b : Bytes) (o : Bool), h = a ++ [.write b o] → b = line (ascii " ") ∧ ∃ a' p, a = a' ++ [.open_ p none]

theorem _root_.Spec.OneAtATime.snoc {h : History} (H : OneAtATime h) (e : Event) (he : ∀ b o, e ≠ .write b o) : Turns (h ++ [e]) := by
  constructor
  · intro a b1 o1 b2 o2 c hc
    rcases List.eq_nil_or_concat c with rfl | ⟨c', x, rfl⟩
    · have : h ++ [e] = (a ++ [.write b1 o1]) ++ [.write b2 o2] := by rw [hc]; simp
      have := (List.append_inj_right' this rfl)
      cases this
      exact absurd rfl (he _ _)
    · have : h ++ [e] = (a ++ .write b1 o1 :: .write b2 o2 :: c') ++ [x] := by rw [hc]; simp
      exact H a b1 o1 b2 o2 c' (List.append_inj_left' this rfl)
  · intro a b o hc
    have := (List.append_inj_right' hc rfl)
    cases this
    exact absurd rfl (he _ _)

theorem Turns.write {h : History} (H : Turns h) (b : Bytes) (o : Bool) : OneAtATime (h ++ [.write b o]) := by
  intro a b1 o1 b2 o2 c hc
  rcases List.eq_nil_or_concat c with rfl | ⟨c', x, rfl⟩
  · have : h ++ [.write b o] = (a ++ [.write b1 o1]) ++ [.write b2 o2] := by rw [hc]; simp
    exact H.2 a b1 o1 (List.append_inj_left' this rfl)
  · have : h ++ [.write b o] = (a ++ .write b1 o1 :: .write b2 o2 :: c') ++ [x] := by rw [hc]; simp
    exact H.1 a b1 o1 b2 o2 c' (List.append_inj_left' this rfl)

theorem Turns.snoc {h : History} (H : Turns h) (e : Event) (he : ∀ b o, e ≠ .write b o) : Turns (h ++ [e]) := H.1.snoc e he

theorem Turns.wake {h : History} {p : Str} (H : Turns (h ++ [.open_ p none])) (o : Bool) : Turns (h ++ [.open_ p none] ++ [.write (line (ascii " ")) o]) := by
  refine ⟨H.write _ _, ?_⟩
  intro a b o' hc
  have h1 := List.append_inj_right' hc rfl
  have h2 := List.append_inj_left' hc rfl
  cases h1
  exact ⟨rfl, h, p, h2.symm⟩

theorem _root_.Spec.OneAtATime.of_prefix {h h' : History} (H : OneAtATime h') (hp : h <+: h') : OneAtATime h := by
  obtain ⟨t, rfl⟩ := hp
  intro a b1 o1 b2 o2 c hc
  exact H a b1 o1 b2 o2 (c ++ t) (by rw [hc]; simp)

theorem turns_nil : Turns [] := ⟨fun a b1 o1 b2 o2 c h => by simp at h, fun a b o h => by simp at h⟩

theorem turns_reads {h : History} (bs : List Bytes) (e : Event) (he : ∀ b o, e ≠ .write b o) (H : OneAtATime h) : Turns (h ++ (reads bs ++ [e])) := by
  induction bs generalizing h with
  | nil => exact H.snoc e he
  | cons b bs ih =>
    have := ih (h := h ++ [.read (some b)]) (H.snoc _ (by simp)).1
    simpa [reads] using this

namespace ElmM
variable {dev : Device}

theorem turns_send (c : Bytes) (d : Bool) (m : Bytes) : Kept (OnHist Turns) (send dev c d m) := by
  intro w hw
  rcases send_outcome dev c d m w with ⟨-, h⟩ | ⟨p, l, w', hp, h, hr⟩ <;> rw [h]
  · exact hw
  · cases hr with
    | replied bs b _ =>
      have := turns_reads bs (.read (some b)) (by simp) (hw.write (line c) true)
      simpa [OnHist, List.append_assoc] using this
    | writeFailed =>
      have := (hw.write (line c) false).snoc .close (by simp)
      simpa [OnHist, List.append_assoc] using this
    | readFailed bs _ =>
      have := (turns_reads bs (.read none) (by simp) (hw.write (line c) true)).snoc .close (by simp)
      simpa [OnHist, List.append_assoc] using this

theorem turns_elm (f : Elm → Elm) : Kept (OnHist Turns) (modifyElm f) := fun _ h => h

theorem turns_close : Kept (OnHist Turns) (close dev) := by
  intro w hw
  unfold close
  rw [PyM.bind_ok (show modifyElm _ w = (.ok (), _) from rfl), PyM.bind_ok (show getElm _ = (.ok _, _) from rfl)]
  cases hp : w.elm.port with
  | none => exact hw
  | some p =>
    simp only
    rw [PyM.bind_ok (show write dev (ascii "ATZ") _ = (.ok (), _) from rfl), PyM.bind_ok (show getElm _ = (.ok _, _) from rfl)]
    rcases write_some dev (ascii "ATZ") { w with elm := { w.elm with port := some p, status := .notConnected, protocol := none } } p rfl with e | e
    · rw [e]
      have := (hw.write (line (ascii "ATZ")) true).snoc .close (by simp)
      simpa [OnHist, List.append_assoc] using this
    · rw [e]
      have := (hw.write (line (ascii "ATZ")) false).snoc .close (by simp)
      show Turns (w.hist ++ [Event.write (line (ascii "ATZ")) false, Event.close])
      simpa [List.append_assoc] using this

theorem turns_tryRates (t : Rat) (l : List Nat) : Kept (OnHist Turns) (tryRates dev t l) := by
  have ht : Kept (OnHist Turns) (setTimeout t) := turns_elm _
  induction l with
  | nil => exact Kept.bind ht (fun _ => Kept.pure _)
  | cons b l ih =>
    unfold tryRates
    refine Kept.bind (fun w hw => Turns.snoc hw _ (by simp)) (fun r => ?_)
    split
    · exact Kept.bind ht (fun _ => Kept.pure _)
    · exact ih

theorem turns_baud (b : Option Nat) : Kept (OnHist Turns) (setBaudrate dev b) := by
  unfold setBaudrate
  refine Kept.bind Kept.getElm (fun e => ?_)
  split
  · split
    · exact Kept.pure _
    · unfold autoBaudrate
      refine Kept.bind Kept.getElm (fun e => ?_)
      split
      · exact Kept.throw _
      · exact Kept.bind (turns_elm _) (fun _ => turns_tryRates _ _)
  · split
    · exact Kept.throw _
    · intro w hw
      have := fun b x => Turns.snoc hw (.setBaud b x) (by simp)
      simp only
      split <;> exact this _ _

theorem turns_stable : Stable dev (fun _ => True) (OnHist Turns) where
  send := fun c d m _ => turns_send c d m
  proto := fun _ _ hw => hw

theorem turns_initAt (fl : FloatFn) (pr : Option Str) (cv : Bool) : Kept (OnHist Turns) (initAt dev fl pr cv) := by
  have hset : Kept (OnHist Turns) (setProtocol dev pr) := kept_setProtocol turns_stable pr (fun _ => trivial) trivial trivial trivial
  have hip : Kept (OnHist Turns) (initProtocol dev pr) := by
    unfold initProtocol
    refine Kept.bind hset (fun b => ?_)
    split
    · refine Kept.bind (turns_elm _) (fun _ => ?_)
      unfold logConnected
      refine Kept.bind Kept.getElm (fun e => ?_)
      split
      · exact Kept.throw _
      · exact Kept.pure _
    · exact Kept.pure _
  have hcl := turns_close (dev := dev)
  have hv : Kept (OnHist Turns) (initVoltage dev fl pr cv) := by
    unfold initVoltage
    split
    · refine Kept.bind (turns_send _ _ _) (fun r => ?_)
      split
      · split
        · exact hcl
        · split
          · exact hcl
          · split
            · exact Kept.pure _
            · exact Kept.bind (turns_elm _) (fun _ => hip)
      · exact hcl
    · exact hip
  unfold initAt
  refine Kept.bind (turns_send _ _ _) (fun _ => ?_)
  refine Kept.bind (turns_send _ _ _) (fun r => ?_)
  split
  · exact hcl
  · refine Kept.bind (turns_send _ _ _) (fun r => ?_)
    split
    · exact hcl
    · refine Kept.bind (turns_send _ _ _) (fun r => ?_)
      split
      · exact hcl
      · exact Kept.bind (turns_elm _) (fun _ => hv)

theorem turns_construct (fl : FloatFn) (port : Str) (cfg : Config) (hist : History) (h : Turns hist) : Turns (construct dev fl port cfg hist).2.hist := by
  have main : Kept (OnHist Turns) (do
      if ¬ (← setBaudrate dev cfg.baudrate) then error dev
      else initAt dev fl cfg.protocol cfg.checkVoltage) := by
    refine Kept.bind (turns_baud _) (fun b => ?_)
    split
    · exact turns_close
    · exact turns_initAt _ _ _
  have h0 : ∀ x, Turns (hist ++ [.open_ port x]) := fun x => h.snoc _ (by simp)
  unfold construct init
  simp only
  cases ho : dev.openPort hist port with
  | some x =>
    cases x with
    | serialException => exact turns_close _ (h0 _)
    | osError => exact turns_close _ (h0 _)
    | _ => exact h0 _
  | none =>
    simp only
    rw [PyM.bind_ok (show modifyElm _ _ = (.ok (), _) from rfl)]
    split
    · rw [PyM.bind_ok (show write dev (ascii " ") _ = (.ok (), _) from rfl)]
      refine main _ ?_
      rcases write_some dev (ascii " ") { elm := { fresh cfg.timeout with port := some { name := port, baud := 9600, timeout := 10 } }, hist := hist ++ [.open_ port none] } _ rfl with e | e
      · show Turns (EW.write dev (ascii " ") _).hist
        rw [show (EW.write dev (ascii " ") _) = _ from e]
        exact (h0 none).wake true
      · show Turns (EW.write dev (ascii " ") _).hist
        rw [show (EW.write dev (ascii " ") _) = _ from e]
        have := ((h0 none).wake false).snoc .close (by simp)
        simpa [List.append_assoc] using this
    · exact main _ (h0 none)

end ElmM

namespace ObdM
variable {dev : Device}

theorem turns_on {α : Type} {m : ElmM α} (h : Kept (OnHist Turns) m) : Kept (OnHistO Turns) (onInterface m) := HStable.on h

theorem turns_ostable : OStable dev (OnHistO Turns) where
  send := fun cmd _ => turns_on (ElmM.kept_sendAndParse (C := fun _ => True) (fun c d m _ => ElmM.turns_send c d m) cmd trivial trivial (fun _ h => h))
  attrs := fun _ _ _ _ h => h
  sup := fun _ _ h => h

theorem turns_close : Kept (OnHistO Turns) (close dev) := by
  unfold close
  refine Kept.bind (fun _ h => h) (fun _ => Kept.bind Kept.get (fun s => ?_))
  split
  · exact Kept.pure _
  · exact Kept.bind (kept_setHeader turns_ostable _) (fun _ => Kept.bind (turns_on ElmM.turns_close) (fun _ => fun _ h => h))

theorem turns_open (fl : ElmM.FloatFn) (port : Str) (cfg : ElmM.Config) : Kept (OnHistO Turns) (openInterface dev fl port cfg) := by
  intro s hs
  have := ElmM.turns_construct (dev := dev) fl port cfg s.hist hs
  unfold openInterface
  simp only
  split <;> exact this

theorem turns_tryPorts (fl : ElmM.FloatFn) (cfg : ElmM.Config) (l : List Str) : Kept (OnHistO Turns) (tryPorts dev fl cfg l) := by
  induction l with
  | nil => exact Kept.pure _
  | cons p l ih =>
    unfold tryPorts
    refine Kept.bind (turns_open fl p cfg) (fun _ => Kept.bind Kept.get (fun s => ?_))
    split
    · exact Kept.pure _
    · exact ih

theorem turns_construct (fl : ElmM.FloatFn) (a : Args) : Turns (construct dev fl a.ports a.portstr a.fast a.cfg).2.hist := by
  have hcl : Kept (OnHistO Turns) (closeIfFailed dev) := by
    unfold closeIfFailed
    refine Kept.bind Kept.get (fun s => ?_)
    split
    · exact turns_close
    · exact Kept.pure _
  have hc : Kept (OnHistO Turns) (connect dev fl a.ports a.portstr a.cfg) := by
    unfold connect
    split
    · split
      · exact Kept.pure _
      · exact Kept.bind (turns_tryPorts fl _ _) (fun _ => hcl)
    · exact Kept.bind (turns_open fl _ _) (fun _ => hcl)
  exact Kept.bind hc (fun _ => kept_loadCommandsOn turns_ostable fl (fun c _ => sends_true c)) _ turns_nil

theorem turns_call (fl : ElmM.FloatFn) (c : Call) (s : OW) (h : Turns s.hist) : Turns (c.after dev fl s).hist := by
  cases c with
  | query c force => exact kept_query turns_ostable fl c force s h
  | lowPower =>
    refine Kept.bind (P := OnHistO Turns) Kept.get (fun s' => ?_) s h
    split
    · exact Kept.pure _
    · exact turns_on (ElmM.kept_lowPower (C := fun _ => True) (fun c d m _ => ElmM.turns_send c d m) trivial (fun _ h => h))
  | normalPower =>
    refine Kept.bind (P := OnHistO Turns) Kept.get (fun s' => ?_) s h
    split
    · exact Kept.pure _
    · exact turns_on (ElmM.kept_normalPower (C := fun _ => True) (fun c d m _ => ElmM.turns_send c d m) trivial (fun _ h => h))
  | close => exact turns_close s h

theorem turns_session (fl : ElmM.FloatFn) (cs : List Call) (s : OW) (h : Turns s.hist) : Turns (session dev fl cs s).hist := by
  induction cs generalizing s with
  | nil => exact h
  | cons c cs ih => exact ih _ (turns_call fl c s h)

end ObdM
end Model
