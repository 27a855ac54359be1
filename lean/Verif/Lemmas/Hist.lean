import Verif.Lemmas.Construct
import Verif.Spec.Exchange
/-!
# Invariants of the I/O history
-/
namespace Model
open Py Spec

/-- `R` is kept by every single I/O operation with the device, if all lines written are in `W`. -/
structure HStable (dev : Device) (W : Bytes → Prop) (R : History → Prop) : Prop where
  write_ok : ∀ h cmd, R h → W cmd → dev.write h (line cmd) = true → R (h ++ [.write (line cmd) true])
  write_fail : ∀ h cmd, R h → W cmd → dev.write h (line cmd) = false → R (h ++ [.write (line cmd) false, .close])
  read_ok : ∀ h m b, R h → readLoop m [] (dev.read h) = some b → R (h ++ [.read (some b)])
  read_fail : ∀ h m, R h → readLoop m [] (dev.read h) = none → R (h ++ [.read none, .close])
  close : ∀ h, R h → R (h ++ [.close])
  probe : ∀ h b, R h → R (h ++ [.probe b (dev.probe h b)])
  setBaud : ∀ h b, R h → R (h ++ [.setBaud b (dev.setBaud h b)])

/-- `R` of the history. -/
abbrev OnHist (R : History → Prop) (w : EW) : Prop := R w.hist
/-- `R` of the history. -/
abbrev OnHistO (R : History → Prop) (s : OW) : Prop := R s.hist

namespace HStable
variable {dev : Device} {W : Bytes → Prop} {R : History → Prop}

theorem ewWrite (H : HStable dev W R) {cmd : Bytes} (hW : W cmd) (w : EW) (h : R w.hist) : R (w.write dev cmd).hist := by
  unfold EW.write
  split
  · exact h
  · simp only
    split
    · next hw => exact H.write_ok _ _ h hW hw
    · next hw => exact H.write_fail _ _ h hW (by simpa [line] using hw)

theorem ewRead (H : HStable dev W R) (m : Bytes) (w : EW) (h : R w.hist) : R (w.read dev m).2.hist := by
  unfold EW.read
  split
  · exact h
  · simp only
    split
    · next b hb => exact H.read_ok _ m b h hb
    · next hb => exact H.read_fail _ m h hb

theorem retry (H : HStable dev W R) (m : Bytes) (n : Nat) (r : List Str × EW) (h : R r.2.hist) : R (EW.retry dev m n r).2.hist := by
  induction n generalizing r with
  | zero => exact h
  | succ n ih =>
    unfold EW.retry
    split
    · exact ih _ (H.ewRead m _ h)
    · exact h

theorem send (H : HStable dev W R) {cmd : Bytes} (hW : W cmd) (d : Bool) (m : Bytes) : Kept (OnHist R) (ElmM.send dev cmd d m) := by
  intro w h
  exact H.retry m _ _ (H.ewRead m _ (H.ewWrite hW w h))

theorem write (H : HStable dev W R) {cmd : Bytes} (hW : W cmd) : Kept (OnHist R) (ElmM.write dev cmd) := fun w h => H.ewWrite hW w h

theorem elm (f : Elm → Elm) : Kept (OnHist R) (ElmM.modifyElm f) := fun _ h => h

theorem elmClose (H : HStable dev W R) (hW : W (ascii "ATZ")) : Kept (OnHist R) (ElmM.close dev) := by
  unfold ElmM.close
  refine Kept.bind (elm _) (fun _ => Kept.bind Kept.getElm (fun e => ?_))
  split
  · exact Kept.pure _
  · refine Kept.bind (H.write hW) (fun _ => Kept.bind Kept.getElm (fun e => ?_))
    split
    · exact Kept.throw _
    · exact fun w h => H.close _ h

theorem tryRates (H : HStable dev W R) (t : Rat) (l : List Nat) : Kept (OnHist R) (ElmM.tryRates dev t l) := by
  induction l with
  | nil => exact Kept.bind (elm _) (fun _ => Kept.pure _)
  | cons r l ih =>
    unfold ElmM.tryRates
    refine Kept.bind (fun w h => H.probe _ r h) (fun b => ?_)
    split
    · exact Kept.bind (elm _) (fun _ => Kept.pure _)
    · exact ih

theorem baud (H : HStable dev W R) (b : Option Nat) : Kept (OnHist R) (ElmM.setBaudrate dev b) := by
  unfold ElmM.setBaudrate
  refine Kept.bind Kept.getElm (fun e => ?_)
  cases b with
  | none =>
    simp only
    split
    · exact Kept.pure _
    · unfold ElmM.autoBaudrate
      refine Kept.bind Kept.getElm (fun e => ?_)
      split
      · exact Kept.throw _
      · exact Kept.bind (elm _) (fun _ => H.tryRates _ _)
  | some b =>
    simp only
    split
    · exact Kept.throw _
    · intro w h
      have := H.setBaud _ b h
      simp only
      split <;> exact this

theorem stable (H : HStable dev W R) : Stable dev W (OnHist R) where
  send := fun _ d m h => H.send h d m
  proto := fun _ _ h => h

/-- The lines that the set-up of an adapter writes. -/
def Setup (W : Bytes → Prop) : Prop :=
  W (ascii "ATZ") ∧ W (ascii "ATE0") ∧ W (ascii "ATH1") ∧ W (ascii "ATL0") ∧ W (ascii "AT RV") ∧ W (ascii "ATSP0") ∧ W (ascii "ATDPN") ∧ W (ascii "0100") ∧
    ∀ id, W (ascii "ATTP" ++ encodeAscii id)

/-- Constructing the interface; the wake-up line is only written with `start_low_power`. -/
theorem elmConstruct (H : HStable dev W R) {cfg : ElmM.Config} (hW : Setup W) (hlp : cfg.startLowPower = true → W (ascii " ")) (fl : ElmM.FloatFn) (port : Str)
    (hist : History) (h0 : R (hist ++ [.open_ port (dev.openPort hist port)])) : R (ElmM.construct dev fl port cfg hist).2.hist := by
  obtain ⟨w1, w2, w3, w4, w5, w6, w7, w8, w9⟩ := hW
  have hset : Kept (OnHist R) (ElmM.setProtocol dev cfg.protocol) := ElmM.kept_setProtocol H.stable _ w9 w8 w6 w7
  have hip : Kept (OnHist R) (ElmM.initProtocol dev cfg.protocol) := by
    unfold ElmM.initProtocol
    refine Kept.bind hset (fun b => ?_)
    split
    · refine Kept.bind (elm _) (fun _ => ?_)
      unfold ElmM.logConnected
      refine Kept.bind Kept.getElm (fun e => ?_)
      split
      · exact Kept.throw _
      · exact Kept.pure _
    · exact Kept.pure _
  have hcl := H.elmClose w1
  have hv : Kept (OnHist R) (ElmM.initVoltage dev fl cfg.protocol cfg.checkVoltage) := by
    unfold ElmM.initVoltage
    split
    · refine Kept.bind (H.send w5 _ _) (fun r => ?_)
      split
      · split
        · exact hcl
        · split
          · exact hcl
          · split
            · exact Kept.pure _
            · exact Kept.bind (elm _) (fun _ => hip)
      · exact hcl
    · exact hip
  have hat : Kept (OnHist R) (ElmM.initAt dev fl cfg.protocol cfg.checkVoltage) := by
    unfold ElmM.initAt
    refine Kept.bind (H.send w1 _ _) (fun _ => ?_)
    refine Kept.bind (H.send w2 _ _) (fun r => ?_)
    split
    · exact hcl
    · refine Kept.bind (H.send w3 _ _) (fun r => ?_)
      split
      · exact hcl
      · refine Kept.bind (H.send w4 _ _) (fun r => ?_)
        split
        · exact hcl
        · exact Kept.bind (elm _) (fun _ => hv)
  have main : Kept (OnHist R) (do
      if ¬ (← ElmM.setBaudrate dev cfg.baudrate) then ElmM.error dev
      else ElmM.initAt dev fl cfg.protocol cfg.checkVoltage) := by
    refine Kept.bind (H.baud _) (fun b => ?_)
    split
    · exact hcl
    · exact hat
  unfold ElmM.construct ElmM.init
  simp only
  split
  · exact hcl _ h0
  · exact hcl _ h0
  · exact h0
  · rw [PyM.bind_ok (show ElmM.modifyElm _ _ = (.ok (), _) from rfl)]
    split
    · next hs => exact Kept.bind (H.write (hlp hs)) (fun _ => main) _ h0
    · exact main _ h0

theorem sendAndParse (H : HStable dev W R) {cmd : Bytes} (hW : W cmd) (hb : W (ascii " ")) : Kept (OnHist R) (ElmM.sendAndParse dev cmd) :=
  ElmM.kept_sendAndParse (C := W) (fun _ d m h => H.send h d m) cmd hW hb (fun _ h => h)

theorem on {α : Type} {m : ElmM α} (h : Kept (OnHist R) m) : Kept (OnHistO R) (ObdM.onInterface m) := by
  intro s hs
  unfold ObdM.onInterface
  split
  · exact hs
  · next e _ => exact h ⟨e, s.hist⟩ hs

theorem ostable (H : HStable dev W R) (hb : W (ascii " ")) : ObdM.OStableOn dev W (OnHistO R) where
  send := fun _ h => on (H.sendAndParse h hb)
  attrs := fun _ _ _ _ h => h
  sup := fun _ _ h => h

theorem openInterface (H : HStable dev W R) {cfg : ElmM.Config} (hW : Setup W) (hlp : cfg.startLowPower = true → W (ascii " ")) (fl : ElmM.FloatFn) (port : Str)
    (ho : ∀ h, R h → R (h ++ [.open_ port (dev.openPort h port)])) : Kept (OnHistO R) (ObdM.openInterface dev fl port cfg) := by
  intro s hs
  have := H.elmConstruct hW hlp fl port s.hist (ho _ hs)
  unfold ObdM.openInterface
  simp only
  split <;> exact this

theorem tryPorts (H : HStable dev W R) {cfg : ElmM.Config} (hW : Setup W) (hlp : cfg.startLowPower = true → W (ascii " ")) (fl : ElmM.FloatFn)
    (ho : ∀ h port, R h → R (h ++ [.open_ port (dev.openPort h port)])) (l : List Str) : Kept (OnHistO R) (ObdM.tryPorts dev fl cfg l) := by
  induction l with
  | nil => exact Kept.pure _
  | cons p l ih =>
    unfold ObdM.tryPorts
    refine Kept.bind (H.openInterface hW hlp fl p (fun h => ho h p)) (fun _ => Kept.bind Kept.get (fun s => ?_))
    split
    · exact Kept.pure _
    · exact ih

/-- Closing; no header needs to be set if it is the default one or there is no connection. -/
theorem obdClose (H : HStable dev W R) (hz : W (ascii "ATZ")) (hb : W (ascii " ")) (hh : W (headerLine engineHeader)) :
    Kept (OnHistO R) (ObdM.close dev) := by
  unfold ObdM.close
  refine Kept.bind (fun _ h => h) (fun _ => Kept.bind Kept.get (fun s => ?_))
  split
  · exact Kept.pure _
  · refine Kept.bind (ObdM.kept_setHeaderOn (H.ostable hb) _ hh) (fun _ => ?_)
    exact Kept.bind (on (H.elmClose hz)) (fun _ => fun _ h => h)

theorem query (H : HStable dev W R) (hb : W (ascii " ")) (fl : ElmM.FloatFn) (c : OBDCommand) (hC : ObdM.Sends W c) (force : Bool) :
    Kept (OnHistO R) (ObdM.query dev fl c force) := ObdM.kept_queryOn (H.ostable hb) fl c hC force

theorem lowPower (H : HStable dev W R) (hl : W (ascii "ATLP")) : Kept (OnHistO R) (ObdM.lowPower dev) := by
  unfold ObdM.lowPower
  refine Kept.bind Kept.get (fun s => ?_)
  split
  · exact Kept.pure _
  · refine on ?_
    unfold ElmM.lowPower
    refine Kept.bind Kept.getElm (fun e => ?_)
    split
    · exact Kept.pure _
    · refine Kept.bind (H.send hl _ _) (fun l => ?_)
      split
      · exact Kept.bind (elm _) (fun _ => Kept.pure _)
      · exact Kept.pure _

theorem normalPower (H : HStable dev W R) (hb : W (ascii " ")) : Kept (OnHistO R) (ObdM.normalPower dev) := by
  unfold ObdM.normalPower
  refine Kept.bind Kept.get (fun s => ?_)
  split
  · exact Kept.pure _
  · refine on ?_
    unfold ElmM.normalPower
    refine Kept.bind Kept.getElm (fun e => ?_)
    split
    · exact Kept.pure _
    · exact Kept.bind (H.send hb _ _) (fun l => Kept.bind (elm _) (fun _ => Kept.pure _))

/-- Everything at once: an invariant that does not care what is written. -/
theorem construct (H : HStable dev (fun _ => True) R) (fl : ElmM.FloatFn) (a : Args)
    (ho : ∀ h port, R h → R (h ++ [.open_ port (dev.openPort h port)])) (h0 : R []) :
    R (ObdM.construct dev fl a.ports a.portstr a.fast a.cfg).2.hist := by
  have hS : Setup (fun _ => True) := by simp [Setup]
  have hcl : Kept (OnHistO R) (ObdM.closeIfFailed dev) := by
    unfold ObdM.closeIfFailed
    refine Kept.bind Kept.get (fun s => ?_)
    split
    · exact H.obdClose trivial trivial trivial
    · exact Kept.pure _
  have hc : Kept (OnHistO R) (ObdM.connect dev fl a.ports a.portstr a.cfg) := by
    unfold ObdM.connect
    split
    · split
      · exact Kept.pure _
      · exact Kept.bind (H.tryPorts hS (fun _ => trivial) fl ho _) (fun _ => hcl)
    · exact Kept.bind (H.openInterface hS (fun _ => trivial) fl _ (fun h => ho h _)) (fun _ => hcl)
  exact Kept.bind hc (fun _ => ObdM.kept_loadCommandsOn (H.ostable trivial) fl (fun c _ => ObdM.sends_true c)) _ h0

theorem call (H : HStable dev (fun _ => True) R) (fl : ElmM.FloatFn) (c : Call) (s : OW) (h : R s.hist) : R (c.after dev fl s).hist := by
  cases c with
  | query c force => exact H.query trivial fl c (ObdM.sends_true c) force s h
  | lowPower => exact H.lowPower trivial s h
  | normalPower => exact H.normalPower trivial s h
  | close => exact H.obdClose trivial trivial trivial s h

theorem session (H : HStable dev (fun _ => True) R) (fl : ElmM.FloatFn) (cs : List Call) (s : OW) (h : R s.hist) : R (session dev fl cs s).hist := by
  induction cs generalizing s with
  | nil => exact h
  | cons c cs ih => exact ih _ (H.call fl c s h)

end HStable
end Model
