import Verif.Model.Fine
/-!
# The step-by-step programs run to the results of the atomic model
-/
namespace Model
open Py

namespace Prog
variable {σ α β : Type}

@[simp] theorem run_pure (a : α) : (pure a : Prog σ α).run = (pure a : PyM σ α) := rfl
@[simp] theorem run_error (e : Exc) : (Prog.done (.error e) : Prog σ α).run = PyM.throw e := rfl
@[simp] theorem run_done (r : Except Exc α) : (Prog.done r : Prog σ α).run = PyM.ofExcept r := rfl
@[simp] theorem run_atom (m : PyM σ α) : (atom m).run = m := by
  funext s; rfl

@[simp] theorem run_bind (p : Prog σ α) (f : α → Prog σ β) : (p >>= f).run = p.run >>= fun a => (f a).run := by
  show (p.andThen f).run = _
  induction p with
  | done r => cases r <;> rfl
  | act m k ih =>
    funext s
    show ((k (m s).1).andThen f).run (m s).2 = _
    rw [ih]
    rfl

theorem run_ite {c : Prop} [Decidable c] (p q : Prog σ α) : (if c then p else q).run = if c then p.run else q.run := by
  split <;> rfl

theorem bind_ext {m : PyM σ α} {f g : α → PyM σ β} {s : σ} (h : ∀ a, f a = g a) : (m >>= f) s = (m >>= g) s := by
  rw [funext h]

/-- A program of the adapter object on the `OBD` object. -/
theorem run_onAdapter (p : Prog EW α) : ∀ (s : OW) (e : Elm), s.interface = some e → p.onAdapter.run s = ObdM.onInterface p.run s := by
  induction p with
  | done r =>
    intro s e h
    simp only [onAdapter, run_done, PyM.ofExcept_apply, ObdM.onInterface, h]
    cases s; simp_all
  | act m k ih =>
    intro s e h
    show (k (ObdM.onInterface m s).1).onAdapter.run (ObdM.onInterface m s).2 = _
    have h1 : ObdM.onInterface m s = ((m { elm := e, hist := s.hist }).1, { s with interface := some (m { elm := e, hist := s.hist }).2.elm, hist := (m { elm := e, hist := s.hist }).2.hist }) := by
      simp only [ObdM.onInterface, h]
    rw [h1, ih _ _ _ rfl]
    simp only [ObdM.onInterface, h]
    rfl

end Prog

namespace FineElm
open Prog

theorem run_self (w : EW) : self.run w = (.ok w.elm, w) := rfl
theorem run_assign (f : Elm → Elm) (w : EW) : (assign f).run w = (.ok (), { w with elm := f w.elm }) := rfl
theorem run_writePort (dev : Device) (b : Bytes) (w : EW) : (writePort dev b).run w =
    (.ok (dev.write w.hist b), { w with hist := w.hist ++ [.write b (dev.write w.hist b)] }) := rfl
theorem run_readPort (dev : Device) (m : Bytes) (w : EW) : (readPort dev m).run w =
    (.ok (readLoop m [] (dev.read w.hist)), { w with hist := w.hist ++ [.read (readLoop m [] (dev.read w.hist))] }) := rfl
theorem run_closePort (w : EW) : closePort.run w = (.ok (), { w with hist := w.hist ++ [.close] }) := rfl
theorem run_disconnected (w : EW) : disconnected.run w = (.ok (), { elm := { w.elm with status := .notConnected, port := none }, hist := w.hist ++ [.close] }) := rfl

theorem run_write (dev : Device) (cmd : Bytes) : (write dev cmd).run = ElmM.write dev cmd := by
  funext w
  unfold write ElmM.write EW.write
  rw [run_bind, PyM.bind_ok (run_self w)]
  cases hp : w.elm.port with
  | none => rfl
  | some p =>
    simp only
    rw [run_bind, PyM.bind_ok (run_writePort dev _ w)]
    cases hd : dev.write w.hist (cmd ++ [0x0D]) with
    | true => rfl
    | false =>
      rw [if_neg (by simp), run_disconnected, if_neg (by simp)]
      simp

theorem run_read (dev : Device) (marker : Bytes) : (read dev marker).run = PyM.lift (EW.read dev marker) := by
  funext w
  rw [PyM.lift_apply]
  unfold read EW.read
  rw [run_bind, PyM.bind_ok (run_self w)]
  cases hp : w.elm.port with
  | none => rfl
  | some p =>
    simp only
    rw [run_bind, PyM.bind_ok (run_readPort dev _ w)]
    cases hd : readLoop marker [] (dev.read w.hist) with
    | some b => rfl
    | none =>
      simp only
      rw [run_bind, PyM.bind_ok (run_disconnected _)]
      simp

theorem run_retry (dev : Device) (marker : Bytes) (n : Nat) : ∀ (r : List Str) (w : EW),
    (retry dev marker n r).run w = (.ok (EW.retry dev marker n (r, w)).1, (EW.retry dev marker n (r, w)).2) := by
  induction n with
  | zero => intro r w; rfl
  | succ n ih =>
    intro r w
    unfold retry EW.retry
    by_cases h : r.isEmpty = true
    · rw [if_pos h, if_pos h, run_bind, run_read, PyM.bind_ok (PyM.lift_apply _ _)]
      exact ih _ _
    · rw [if_neg h, if_neg h]; rfl

theorem run_send (dev : Device) (cmd : Bytes) (delay : Bool) (marker : Bytes) : (send dev cmd delay marker).run = ElmM.send dev cmd delay marker := by
  funext w
  unfold send ElmM.send EW.send
  rw [run_bind, run_write, PyM.bind_ok (show ElmM.write dev cmd w = (.ok (), w.write dev cmd) from rfl), run_bind, run_read, PyM.bind_ok (PyM.lift_apply _ _)]
  exact run_retry _ _ _ _ _

theorem run_close (dev : Device) : (close dev).run = ElmM.close dev := by
  funext w
  obtain ⟨⟨st, port, proto, lp, to⟩, hist⟩ := w
  unfold close ElmM.close
  rw [run_bind, PyM.bind_ok (run_assign _ _), run_bind, PyM.bind_ok (run_assign _ _), run_bind, PyM.bind_ok (run_self _)]
  rw [PyM.bind_ok (show ElmM.modifyElm (fun e => { e with status := .notConnected, protocol := none }) _ = (.ok (), _) from rfl),
    PyM.bind_ok (show ElmM.getElm _ = (.ok _, _) from rfl)]
  cases port with
  | none => rfl
  | some p =>
    simp only
    rw [run_bind, run_write, PyM.bind_ok (show ElmM.write dev (ascii "ATZ") _ = (.ok (), _) from rfl),
      PyM.bind_ok (show ElmM.write dev (ascii "ATZ") _ = (.ok (), _) from rfl), run_bind, PyM.bind_ok (run_self _), PyM.bind_ok (show ElmM.getElm _ = (.ok _, _) from rfl)]
    generalize EW.write dev (ascii "ATZ") _ = w'
    obtain ⟨⟨st, port, proto, lp, to⟩, hist⟩ := w'
    cases port <;> rfl

theorem run_lowPower (dev : Device) : (lowPower dev).run = ElmM.lowPower dev := by
  funext w
  unfold lowPower ElmM.lowPower
  rw [run_bind, PyM.bind_ok (run_self w), PyM.bind_ok (show ElmM.getElm w = (.ok _, _) from rfl)]
  by_cases h : w.elm.status = .notConnected
  · rw [if_pos h, if_pos h]; rfl
  · rw [if_neg h, if_neg h, run_bind, run_send, PyM.bind_apply, PyM.bind_apply]
    cases ElmM.send dev (ascii "ATLP") true elmLpActive w with
    | mk r w' =>
      cases r with
      | error e => rfl
      | ok l => simp only; split <;> rfl

theorem run_normalPower (dev : Device) : (normalPower dev).run = ElmM.normalPower dev := by
  funext w
  unfold normalPower ElmM.normalPower
  rw [run_bind, PyM.bind_ok (run_self w), PyM.bind_ok (show ElmM.getElm w = (.ok _, _) from rfl)]
  by_cases h : w.elm.status = .notConnected
  · rw [if_pos h, if_pos h]; rfl
  · rw [if_neg h, if_neg h, run_bind, run_send]; rfl

theorem run_sendAndParse (dev : Device) (cmd : Bytes) : (sendAndParse dev cmd).run = ElmM.sendAndParse dev cmd := by
  have hw : (wake dev).run = do
      let e ← ElmM.getElm
      if e.lowPower then
        let _ ← ElmM.normalPower dev
        return ()
      else return () := by
    funext w
    unfold wake
    rw [run_bind, PyM.bind_ok (run_self w), PyM.bind_ok (show ElmM.getElm w = (.ok _, _) from rfl)]
    split
    · rw [run_bind, run_normalPower]; rfl
    · rfl
  have hp : ∀ (lines : List Str), (self >>= fun e => match e.protocol with
      | none => .done (.error .typeError)
      | some p => .done ((p.call lines).map some) : Prog EW (Option (List Message))).run = do
        let e ← ElmM.getElm
        match e.protocol with
        | none => PyM.throw .typeError
        | some p =>
          let ms ← PyM.ofExcept (p.call lines)
          return some ms := by
    intro lines
    funext w
    rw [run_bind, PyM.bind_ok (run_self w), PyM.bind_ok (show ElmM.getElm w = (.ok _, _) from rfl)]
    cases w.elm.protocol with
    | none => rfl
    | some p =>
      simp only [run_done]
      rw [PyM.bind_apply]
      cases p.call lines <;> rfl
  funext w
  unfold sendAndParse ElmM.sendAndParse
  rw [run_bind, PyM.bind_ok (run_self w), PyM.bind_ok (show ElmM.getElm w = (.ok _, _) from rfl)]
  by_cases h : w.elm.status = .notConnected
  · rw [if_pos h, if_pos h]; rfl
  · rw [if_neg h, if_neg h, run_bind, hw, PyM.bind_apply, PyM.bind_ok (show ElmM.getElm w = (.ok _, _) from rfl)]
    by_cases hl : w.elm.lowPower = true
    · rw [if_pos hl, if_pos hl, PyM.bind_apply, PyM.bind_apply]
      cases ElmM.normalPower dev w with
      | mk r w' =>
        cases r with
        | error e => rfl
        | ok l =>
          show (send dev cmd >>= _ : Prog EW _).run w' = (ElmM.send dev cmd >>= _) w'
          rw [run_bind, run_send]
          exact bind_ext hp
    · rw [if_neg hl, if_neg hl]
      show (send dev cmd >>= _ : Prog EW _).run w = (ElmM.send dev cmd >>= _) w
      rw [run_bind, run_send]
      exact bind_ext hp

end FineElm

namespace FineObd
open Prog

theorem run_self (s : OW) : self.run s = (.ok s, s) := rfl

theorem run_call {α : Type} (p : Prog EW α) : (call p).run = ObdM.onInterface p.run := by
  funext s
  unfold call
  rw [run_bind, PyM.bind_ok (run_self s)]
  cases h : s.interface with
  | none => simp only [ObdM.onInterface, h]; rfl
  | some e => simp only; exact run_onAdapter p s e h

theorem run_setHeader (dev : Device) (hd : Bytes) : (setHeader dev hd).run = ObdM.setHeader dev hd := by
  funext s
  unfold setHeader ObdM.setHeader
  rw [run_bind, PyM.bind_ok (run_self s), PyM.bind_ok (PyM.get_apply s)]
  by_cases h : hd = s.lastHeader
  · rw [if_pos h, if_pos h]; rfl
  · rw [if_neg h, if_neg h, run_bind, run_call, FineElm.run_sendAndParse]
    refine bind_ext (fun r => ?_)
    cases r with
    | none => rfl
    | some ms =>
      simp only
      split
      · rfl
      · split <;> rfl

theorem run_noteCommand (b : Bytes) : (noteCommand b).run = ObdM.noteCommand b := by
  unfold noteCommand ObdM.noteCommand; split <;> rfl

theorem run_noteFrames (c : OBDCommand) (ms : Option (List Message)) : (noteFrames c ms).run = ObdM.noteFrames c ms := by
  funext s
  unfold noteFrames ObdM.noteFrames
  rw [run_bind, PyM.bind_ok (run_self s)]
  split
  · rfl
  · cases ms <;> rfl

theorem run_answer (fl : ElmM.FloatFn) (c : OBDCommand) (ms : Option (List Message)) : (answer fl c ms).run = ObdM.answer fl c ms := by
  cases ms with
  | none => rfl
  | some ms => simp only [answer, ObdM.answer]; split <;> rfl

theorem run_exchange (dev : Device) (fl : ElmM.FloatFn) (c : OBDCommand) : (exchange dev fl c).run = ObdM.exchange dev fl c := by
  unfold exchange ObdM.exchange
  rw [run_bind, run_setHeader]
  funext s
  refine bind_ext (fun _ => ?_)
  funext s
  rw [run_bind, PyM.bind_ok (run_self s), PyM.bind_ok (PyM.get_apply s), run_bind, run_call, FineElm.run_sendAndParse]
  simp only [run_bind, run_noteCommand, run_noteFrames, run_answer]

theorem run_query (dev : Device) (fl : ElmM.FloatFn) (c : OBDCommand) : (query dev fl c).run = ObdM.query dev fl c true := by
  funext s
  unfold query ObdM.query
  rw [run_bind, PyM.bind_ok (run_self s), PyM.bind_ok (PyM.get_apply s)]
  split
  · rfl
  · rw [run_exchange]; rfl

theorem run_assign (f : OW → OW) (s : OW) : (assign f).run s = (.ok (), f s) := rfl

theorem run_close (dev : Device) : (close dev).run = ObdM.close dev := by
  funext s
  obtain ⟨iface, sup, fast, lc, lh, fc, hist⟩ := s
  unfold close ObdM.close
  rw [run_bind, PyM.bind_ok (run_assign _ _),
    PyM.bind_ok (PyM.modify_apply _ _), run_bind, PyM.bind_ok (run_self _), PyM.bind_ok (PyM.get_apply _)]
  cases iface with
  | none => rfl
  | some e =>
    show (setHeader dev engineHeader >>= fun _ => call (FineElm.close dev) >>= fun _ => assign (fun s => { s with interface := none })).run _ = _
    rw [run_bind, run_setHeader]
    refine bind_ext (fun _ => ?_)
    rw [run_bind, run_call, FineElm.run_close]
    rfl

theorem run_power (dev : Device) (op : AOp) : (power dev op).run = AW.powerCall dev op := by
  funext s
  unfold power AW.powerCall
  rw [run_bind, PyM.bind_ok (run_self s)]
  cases hi : s.interface with
  | none =>
    cases op <;> simp only [ObdM.lowPower, ObdM.normalPower] <;> rw [PyM.bind_ok (PyM.get_apply s), hi] <;> rfl
  | some e =>
    cases op <;> simp only [run_call, FineElm.run_lowPower, FineElm.run_normalPower, ObdM.lowPower, ObdM.normalPower] <;> rw [PyM.bind_ok (PyM.get_apply s), hi]

end FineObd
end Model
