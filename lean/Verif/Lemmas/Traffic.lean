import Verif.Lemmas.Hist
import Verif.Lemmas.Leaks
import Verif.Lemmas.Plan
import Verif.Spec.Traffic
/-!
# Counting I/O operations
-/
namespace Model
open Py Spec

/-- The total weight of a history. -/
def total (f : Event → Nat) (h : History) : Nat := (h.map f).sum

theorem total_append (f : Event → Nat) (a b : History) : total f (a ++ b) = total f a + total f b := by simp [total]

/-- Running `m` adds at most `n`. -/
def Cost (f : Event → Nat) (n : Nat) {α : Type} (m : ElmM α) : Prop := ∀ w, total f (m w).2.hist ≤ total f w.hist + n
/-- Running `m` adds at most `n`. -/
def OCost (f : Event → Nat) (n : Nat) {α : Type} (m : ObdM α) : Prop := ∀ s, total f (m s).2.hist ≤ total f s.hist + n

/-- Upper bounds for the weights of the kinds of events. -/
structure Weights (f : Event → Nat) (W R P : Nat) : Prop where
  write : ∀ b ok, f (.write b ok) ≤ W
  read : ∀ r, f (.read r) ≤ R
  probe : ∀ b r, f (.probe b r) ≤ P
  close : f .close = 0
  rate : ∀ b r, f (.setBaud b r) = 0
  open_ : ∀ p r, f (.open_ p r) = 0

variable {f : Event → Nat} {W R P : Nat} {dev : Device}

theorem Cost.mono {α : Type} {m : ElmM α} {n k : Nat} (h : Cost f n m) (hk : n ≤ k) : Cost f k m := fun w => Nat.le_trans (h w) (by omega)
theorem Cost.pure {α : Type} (a : α) (n : Nat) : Cost f n (Pure.pure a : ElmM α) := fun _ => Nat.le_add_right _ _
theorem Cost.throw {α : Type} (x : Exc) (n : Nat) : Cost f n (PyM.throw x : ElmM α) := fun _ => Nat.le_add_right _ _
theorem Cost.elm (g : Elm → Elm) : Cost f 0 (ElmM.modifyElm g) := fun _ => Nat.le_refl _
theorem Cost.getElm : Cost f 0 ElmM.getElm := fun _ => Nat.le_refl _
theorem Cost.ofExcept {α : Type} (x : Except Exc α) (n : Nat) : Cost f n (PyM.ofExcept x : ElmM α) := fun w => by
  exact Nat.le_add_right _ _
theorem Cost.bind {α β : Type} {m : ElmM α} {g : α → ElmM β} {n k : Nat} (h : Cost f n m) (hg : ∀ a, Cost f k (g a)) : Cost f (n + k) (m >>= g) := by
  intro w
  rw [PyM.bind_apply]
  have h1 := h w
  cases hm : m w with
  | mk r w' =>
    rw [hm] at h1
    cases r with
    | ok a => have := hg a w'; simp only at h1 ⊢; omega
    | error x => simp only at h1 ⊢; omega
theorem Cost.bind' {α β : Type} {m : ElmM α} {g : α → ElmM β} {n k j : Nat} (h : Cost f n m) (hj : n + k ≤ j) (hg : ∀ a, Cost f k (g a)) : Cost f j (m >>= g) :=
  (Cost.bind h hg).mono hj

theorem OCost.mono {α : Type} {m : ObdM α} {n k : Nat} (h : OCost f n m) (hk : n ≤ k) : OCost f k m := fun w => Nat.le_trans (h w) (by omega)
theorem OCost.pure {α : Type} (a : α) (n : Nat) : OCost f n (Pure.pure a : ObdM α) := fun _ => Nat.le_add_right _ _
theorem OCost.get : OCost f 0 (PyM.get : ObdM OW) := fun _ => Nat.le_refl _
theorem OCost.ofExcept {α : Type} (x : Except Exc α) (n : Nat) : OCost f n (PyM.ofExcept x : ObdM α) := fun w => by
  exact Nat.le_add_right _ _
theorem OCost.bind {α β : Type} {m : ObdM α} {g : α → ObdM β} {n k : Nat} (h : OCost f n m) (hg : ∀ a, OCost f k (g a)) : OCost f (n + k) (m >>= g) := by
  intro w
  rw [PyM.bind_apply]
  have h1 := h w
  cases hm : m w with
  | mk r w' =>
    rw [hm] at h1
    cases r with
    | ok a => have := hg a w'; simp only at h1 ⊢; omega
    | error x => simp only at h1 ⊢; omega
theorem OCost.bind' {α β : Type} {m : ObdM α} {g : α → ObdM β} {n k j : Nat} (h : OCost f n m) (hj : n + k ≤ j) (hg : ∀ a, OCost f k (g a)) : OCost f j (m >>= g) :=
  (OCost.bind h hg).mono hj

theorem OCost.on {α : Type} {m : ElmM α} {n : Nat} (h : Cost f n m) : OCost f n (ObdM.onInterface m) := by
  intro s
  unfold ObdM.onInterface
  split
  · exact Nat.le_add_right _ _
  · exact h _

namespace ElmM

theorem cost_ewRead (hf : Weights f W R P) (m : Bytes) (w : EW) : total f (w.read dev m).2.hist ≤ total f w.hist + R := by
  unfold EW.read
  split
  · exact Nat.le_add_right _ _
  · simp only
    split
    · rw [total_append]; have := hf.read (some ‹_›); simp [total]; omega
    · rw [total_append]; have := hf.read none; simp [total, hf.close]; omega

theorem cost_ewWrite (hf : Weights f W R P) (c : Bytes) (w : EW) : total f (w.write dev c).hist ≤ total f w.hist + W := by
  unfold EW.write
  split
  · exact Nat.le_add_right _ _
  · simp only
    split
    · rw [total_append]; have := hf.write (c ++ [0x0D]) true; simp [total] at this ⊢; omega
    · rw [total_append]; have := hf.write (c ++ [0x0D]) false; simp [total, hf.close] at this ⊢; omega

theorem cost_retry (hf : Weights f W R P) (m : Bytes) (n : Nat) (r : List Str × EW) : total f (EW.retry dev m n r).2.hist ≤ total f r.2.hist + n * R := by
  induction n generalizing r with
  | zero => simp [EW.retry]
  | succ n ih =>
    unfold EW.retry
    split
    · have h1 := ih (r.2.read dev m)
      have h2 := cost_ewRead (dev := dev) hf m r.2
      rw [Nat.succ_mul]; omega
    · exact Nat.le_add_right _ _

theorem cost_send (hf : Weights f W R P) (c : Bytes) (d : Bool) (m : Bytes) : Cost f (W + 12 * R) (send dev c d m) := by
  intro w
  show total f (EW.send dev c d m w).2.hist ≤ _
  unfold EW.send
  have h1 := cost_retry (dev := dev) hf m (if d then 0 else 11) (EW.read dev m (EW.write dev c w))
  have h2 := cost_ewRead (dev := dev) hf m (EW.write dev c w)
  have h3 := cost_ewWrite (dev := dev) hf c w
  have h4 : (if d then 0 else 11) * R ≤ 11 * R := Nat.mul_le_mul_right _ (by split <;> omega)
  omega

theorem cost_write (hf : Weights f W R P) (c : Bytes) : Cost f W (write dev c) := fun w => cost_ewWrite hf c w

theorem cost_close (hf : Weights f W R P) : Cost f W (close dev) := by
  unfold close
  refine Cost.bind' (k := W) (Cost.elm _) (by simp) (fun _ => Cost.bind' (k := W) Cost.getElm (by simp) (fun e => ?_))
  · split
    · exact Cost.pure _ _
    · refine Cost.bind (k := 0) (cost_write hf _) (fun _ => Cost.bind (n := 0) (k := 0) Cost.getElm (fun e => ?_))
      split
      · exact Cost.throw _ _
      · intro w
        show total f (w.hist ++ [Event.close]) ≤ _
        rw [total_append]; simp [total, hf.close]

theorem cost_tryRates (hf : Weights f W R P) (t : Rat) (l : List Nat) : Cost f (l.length * P) (tryRates dev t l) := by
  induction l with
  | nil => exact Cost.bind' (n := 0) (k := 0) (Cost.elm _) (by omega) (fun _ => Cost.pure _ _)
  | cons r l ih =>
    unfold tryRates
    refine Cost.bind' (n := P) (k := l.length * P) ?_ (by simp [Nat.succ_mul]; omega) (fun b => ?_)
    · intro w
      show total f (w.hist ++ [Event.probe r (dev.probe w.hist r)]) ≤ _
      rw [total_append]; have := hf.probe r (dev.probe w.hist r); simp [total]; omega
    · split
      · exact Cost.bind' (n := 0) (k := 0) (Cost.elm _) (by omega) (fun _ => Cost.pure _ _)
      · exact ih

theorem cost_baud (hf : Weights f W R P) (b : Option Nat) : Cost f (6 * P) (setBaudrate dev b) := by
  unfold setBaudrate
  refine Cost.bind' (n := 0) (k := 6 * P) Cost.getElm (by simp) (fun e => ?_)
  cases b with
  | none =>
    simp only
    split
    · exact Cost.pure _ _
    · unfold autoBaudrate
      refine Cost.bind' (n := 0) (k := 6 * P) Cost.getElm (by simp) (fun e => ?_)
      split
      · exact Cost.throw _ _
      · exact Cost.bind' (n := 0) (k := 6 * P) (Cost.elm _) (by simp) (fun _ => cost_tryRates hf _ _)
  | some b =>
    simp only
    split
    · exact Cost.throw _ _
    · intro w
      have : total f (w.hist ++ [Event.setBaud b (dev.setBaud w.hist b)]) ≤ total f w.hist + 6 * P := by
        rw [total_append]; simp [total, hf.rate]
      simp only
      split <;> exact this

theorem cost_load (p : Proto) (l : List Str) : Cost f 0 (loadProtocol p l) :=
  Cost.bind (n := 0) (Cost.ofExcept _ _) (fun _ => Cost.elm _)

theorem cost_manual (hf : Weights f W R P) (id : Str) (p : Proto) : Cost f (2 * (W + 12 * R)) (manualProtocol dev id p) := by
  unfold manualProtocol
  refine Cost.bind' (cost_send hf _ _ _) (k := W + 12 * R) (by omega) (fun _ => Cost.bind' (cost_send hf _ _ _) (k := 0) (by omega) (fun _ => ?_))
  split
  · exact Cost.pure _ _
  · exact Cost.bind' (n := 0) (k := 0) (cost_load _ _) (by omega) (fun _ => Cost.pure _ _)

theorem cost_tryProtocols (hf : Weights f W R P) (l : List Str) : Cost f (l.length * (2 * (W + 12 * R))) (tryProtocols dev l) := by
  induction l with
  | nil => exact Cost.pure _ _
  | cons a l ih =>
    unfold tryProtocols
    split
    · exact Cost.throw _ _
    · refine Cost.bind' (cost_manual hf _ _) (k := l.length * (2 * (W + 12 * R))) (by rw [List.length_cons, Nat.add_mul, Nat.one_mul]; omega) (fun b => ?_)
      split
      · exact Cost.pure _ _
      · exact ih

theorem cost_setProtocol (hf : Weights f W R P) (pr : Option Str) : Cost f (23 * (W + 12 * R)) (setProtocol dev pr) := by
  unfold setProtocol
  cases pr with
  | some id =>
    simp only
    split
    · exact Cost.pure _ _
    · exact (cost_manual hf _ _).mono (by omega)
  | none =>
    unfold autoProtocol
    refine Cost.bind' (cost_send hf _ _ _) (k := 22 * (W + 12 * R)) (by omega) (fun _ => ?_)
    refine Cost.bind' (cost_send hf _ _ _) (k := 21 * (W + 12 * R)) (by omega) (fun _ => ?_)
    split
    · exact Cost.pure _ _
    · refine Cost.bind' (cost_send hf _ _ _) (k := 20 * (W + 12 * R)) (by omega) (fun r => ?_)
      split
      · split
        · exact Cost.bind' (n := 0) (k := 0) (cost_load _ _) (by omega) (fun _ => Cost.pure _ _)
        · refine (cost_tryProtocols hf _).mono ?_
          rw [show tryProtocolOrder.length = 10 from rfl]; omega
      · exact Cost.pure _ _

theorem cost_initProtocol (hf : Weights f W R P) (pr : Option Str) : Cost f (23 * (W + 12 * R)) (initProtocol dev pr) := by
  unfold initProtocol
  refine Cost.bind' (cost_setProtocol hf pr) (k := 0) (by omega) (fun b => ?_)
  split
  · refine Cost.bind' (n := 0) (k := 0) (Cost.elm _) (by omega) (fun _ => ?_)
    unfold logConnected
    refine Cost.bind' (n := 0) (k := 0) Cost.getElm (by omega) (fun e => ?_)
    split
    · exact Cost.throw _ _
    · exact Cost.pure _ _
  · exact Cost.pure _ _

theorem cost_initVoltage (hf : Weights f W R P) (fl : FloatFn) (pr : Option Str) (cv : Bool) : Cost f (24 * (W + 12 * R)) (initVoltage dev fl pr cv) := by
  have hc := cost_close (dev := dev) hf
  unfold initVoltage
  split
  · refine Cost.bind' (cost_send hf _ _ _) (k := 23 * (W + 12 * R)) (by omega) (fun r => ?_)
    split
    · split
      · exact hc.mono (by omega)
      · split
        · exact hc.mono (by omega)
        · split
          · exact Cost.pure _ _
          · exact Cost.bind' (n := 0) (k := 23 * (W + 12 * R)) (Cost.elm _) (by omega) (fun _ => cost_initProtocol hf pr)
    · exact hc.mono (by omega)
  · exact (cost_initProtocol hf pr).mono (by omega)

theorem cost_initAt (hf : Weights f W R P) (fl : FloatFn) (pr : Option Str) (cv : Bool) : Cost f (28 * (W + 12 * R)) (initAt dev fl pr cv) := by
  have hc := cost_close (dev := dev) hf
  unfold initAt
  refine Cost.bind' (cost_send hf _ _ _) (k := 27 * (W + 12 * R)) (by omega) (fun _ => ?_)
  refine Cost.bind' (cost_send hf _ _ _) (k := 26 * (W + 12 * R)) (by omega) (fun _ => ?_)
  split
  · exact hc.mono (by omega)
  · refine Cost.bind' (cost_send hf _ _ _) (k := 25 * (W + 12 * R)) (by omega) (fun _ => ?_)
    split
    · exact hc.mono (by omega)
    · refine Cost.bind' (cost_send hf _ _ _) (k := 24 * (W + 12 * R)) (by omega) (fun _ => ?_)
      split
      · exact hc.mono (by omega)
      · exact Cost.bind' (n := 0) (k := 24 * (W + 12 * R)) (Cost.elm _) (by omega) (fun _ => cost_initVoltage hf fl pr cv)

theorem cost_construct (hf : Weights f W R P) (fl : FloatFn) (port : Str) (cfg : Config) (h : History) :
    total f (construct dev fl port cfg h).2.hist ≤ total f h + (W + 6 * P + 28 * (W + 12 * R)) := by
  have hc := cost_close (dev := dev) hf
  have hopen : ∀ r, total f (h ++ [Event.open_ port r]) = total f h := by intro r; rw [total_append]; simp [total, hf.open_]
  have main : Cost f (6 * P + 28 * (W + 12 * R)) (do
      if ¬ (← setBaudrate dev cfg.baudrate) then error dev
      else initAt dev fl cfg.protocol cfg.checkVoltage) := by
    refine Cost.bind (cost_baud hf _) (fun b => ?_)
    split
    · exact hc.mono (by omega)
    · exact cost_initAt hf fl _ _
  unfold construct init
  simp only
  cases ho : dev.openPort h port with
  | some x =>
    cases x with
    | serialException => have := hc ⟨fresh cfg.timeout, h ++ [.open_ port (some .serialException)]⟩; simp only [hopen] at this; exact Nat.le_trans this (by omega)
    | osError => have := hc ⟨fresh cfg.timeout, h ++ [.open_ port (some .osError)]⟩; simp only [hopen] at this; exact Nat.le_trans this (by omega)
    | _ => simp only [hopen]; omega
  | none =>
    simp only
    rw [PyM.bind_ok (show modifyElm _ _ = (.ok (), _) from rfl)]
    split
    · refine Nat.le_trans (Cost.bind (cost_write hf _) (fun _ => main) _) ?_
      simp only [hopen]; omega
    · refine Nat.le_trans (main _) ?_
      simp only [hopen]; omega

theorem cost_normalPower (hf : Weights f W R P) : Cost f (W + 12 * R) (normalPower dev) := by
  unfold normalPower
  refine Cost.bind' (n := 0) (k := W + 12 * R) Cost.getElm (by omega) (fun e => ?_)
  split
  · exact Cost.pure _ _
  · exact Cost.bind' (k := 0) (cost_send hf _ _ _) (by omega) (fun _ => Cost.bind' (n := 0) (k := 0) (Cost.elm _) (by omega) (fun _ => Cost.pure _ _))

theorem cost_lowPower (hf : Weights f W R P) : Cost f (W + 12 * R) (lowPower dev) := by
  unfold lowPower
  refine Cost.bind' (n := 0) (k := W + 12 * R) Cost.getElm (by omega) (fun e => ?_)
  split
  · exact Cost.pure _ _
  · refine Cost.bind' (k := 0) (cost_send hf _ _ _) (by omega) (fun _ => ?_)
    split
    · exact Cost.bind' (n := 0) (k := 0) (Cost.elm _) (by omega) (fun _ => Cost.pure _ _)
    · exact Cost.pure _ _

theorem cost_sendAndParse (hf : Weights f W R P) (c : Bytes) : Cost f (2 * (W + 12 * R)) (sendAndParse dev c) := by
  have h2 : Cost f (W + 12 * R) (do
      let lines ← send dev c
      let e ← getElm
      match e.protocol with
      | none => PyM.throw .typeError
      | some p =>
        let ms ← PyM.ofExcept (p.call lines)
        return some ms : ElmM (Option (List Message))) := by
    refine Cost.bind' (k := 0) (cost_send hf _ _ _) (by omega) (fun _ => Cost.bind' (n := 0) (k := 0) Cost.getElm (by omega) (fun e => ?_))
    split
    · exact Cost.throw _ _
    · exact Cost.bind' (n := 0) (k := 0) (Cost.ofExcept _ _) (by omega) (fun _ => Cost.pure _ _)
  unfold sendAndParse
  refine Cost.bind' (n := 0) (k := 2 * (W + 12 * R)) Cost.getElm (by omega) (fun e => ?_)
  split
  · exact Cost.pure _ _
  · split
    · exact Cost.bind' (cost_normalPower hf) (by omega) (fun _ => h2)
    · exact h2.mono (by omega)

end ElmM

namespace ObdM

theorem cost_setHeader (hf : Weights f W R P) (hd : Bytes) : OCost f (2 * (W + 12 * R)) (setHeader dev hd) := by
  unfold setHeader
  refine OCost.bind' (n := 0) (k := 2 * (W + 12 * R)) OCost.get (by omega) (fun s => ?_)
  split
  · exact OCost.pure _ _
  · refine OCost.bind' (k := 0) (OCost.on (ElmM.cost_sendAndParse hf _)) (by omega) (fun r => ?_)
    split
    · exact OCost.pure _ _
    · split
      · exact OCost.pure _ _
      · split
        · exact OCost.pure _ _
        · exact fun s => Nat.le_refl _

theorem cost_query (hf : Weights f W R P) (fl : ElmM.FloatFn) (c : OBDCommand) (force : Bool) : OCost f (4 * (W + 12 * R)) (query dev fl c force) := by
  have hx : OCost f (4 * (W + 12 * R)) (exchange dev fl c) := by
    unfold exchange
    refine OCost.bind' (k := 2 * (W + 12 * R)) (cost_setHeader hf _) (by omega) (fun _ => OCost.bind' (n := 0) (k := 2 * (W + 12 * R)) OCost.get (by omega) (fun s => ?_))
    refine OCost.bind' (k := 0) (OCost.on (ElmM.cost_sendAndParse hf _)) (by omega) (fun ms => ?_)
    refine OCost.bind' (n := 0) (k := 0) (fun s => by rw [noteCommand_eq]; exact Nat.le_refl _) (by omega) (fun _ => ?_)
    refine OCost.bind' (n := 0) (k := 0) (fun s => by unfold noteFrames; split; exact Nat.le_refl _; split <;> exact Nat.le_refl _) (by omega) (fun _ => ?_)
    unfold ObdM.answer
    split
    · exact OCost.pure _ _
    · split
      · exact OCost.pure _ _
      · exact OCost.ofExcept _ _
  unfold query
  refine OCost.bind' (n := 0) (k := 4 * (W + 12 * R)) OCost.get (by omega) (fun s => ?_)
  split
  · exact OCost.pure _ _
  · split
    · exact hx
    · refine OCost.bind' (n := 0) (k := 4 * (W + 12 * R)) (OCost.ofExcept _ _) (by omega) (fun b => ?_)
      split
      · exact hx
      · exact OCost.pure _ _

theorem cost_close (hf : Weights f W R P) : OCost f (W + 2 * (W + 12 * R)) (close dev) := by
  unfold close
  refine OCost.bind' (n := 0) (k := W + 2 * (W + 12 * R)) (fun s => Nat.le_refl _) (by omega) (fun _ => OCost.bind' (n := 0) (k := W + 2 * (W + 12 * R)) OCost.get (by omega) (fun s => ?_))
  split
  · exact OCost.pure _ _
  · refine OCost.bind' (k := W) (cost_setHeader hf _) (by omega) (fun _ => OCost.bind' (k := 0) (OCost.on (ElmM.cost_close hf)) (by omega) (fun _ => ?_))
    exact fun s => Nat.le_refl _

theorem cost_loadLoop (hf : Weights f W R P) (fl : ElmM.FloatFn) (l : List OBDCommand) : OCost f (l.length * (4 * (W + 12 * R))) (loadLoop dev fl l) := by
  induction l with
  | nil => exact OCost.pure _ _
  | cons a l ih =>
    have ih' : OCost f ((a :: l).length * (4 * (W + 12 * R))) (loadLoop dev fl l) := ih.mono (by rw [List.length_cons, Nat.add_mul, Nat.one_mul]; omega)
    unfold loadLoop
    refine OCost.bind' (n := 0) (k := (a :: l).length * (4 * (W + 12 * R))) OCost.get (by omega) (fun s =>
      OCost.bind' (n := 0) (k := (a :: l).length * (4 * (W + 12 * R))) (OCost.ofExcept _ _) (by omega) (fun b => ?_))
    · split
      · exact ih'
      · refine OCost.bind' (cost_query hf fl a false) (k := l.length * (4 * (W + 12 * R))) (by rw [List.length_cons, Nat.add_mul, Nat.one_mul]; omega) (fun r => ?_)
        split
        · exact ih
        · refine OCost.bind' (n := 0) (k := l.length * (4 * (W + 12 * R))) (OCost.ofExcept _ _) (by omega) (fun b => ?_)
          refine OCost.bind' (n := 0) (k := l.length * (4 * (W + 12 * R))) (OCost.ofExcept _ _) (by omega) (fun b => ?_)
          exact OCost.bind' (n := 0) (k := l.length * (4 * (W + 12 * R))) (fun s => Nat.le_refl _) (by omega) (fun _ => ih)

/-- What connecting to one port costs. -/
abbrev portCost (W R P : Nat) : Nat := W + 6 * P + 28 * (W + 12 * R)

theorem cost_open (hf : Weights f W R P) (fl : ElmM.FloatFn) (port : Str) (cfg : ElmM.Config) : OCost f (portCost W R P) (openInterface dev fl port cfg) := by
  intro s
  have := ElmM.cost_construct (dev := dev) hf fl port cfg s.hist
  unfold openInterface
  simp only
  split <;> exact this

theorem cost_tryPorts (hf : Weights f W R P) (fl : ElmM.FloatFn) (cfg : ElmM.Config) (ports : List Str) :
    OCost f (ports.length * portCost W R P) (tryPorts dev fl cfg ports) := by
  induction ports with
  | nil => exact OCost.pure _ _
  | cons p ports ih =>
    unfold tryPorts
    refine OCost.bind' (cost_open hf fl p cfg) (k := ports.length * portCost W R P) (by rw [List.length_cons, Nat.add_mul, Nat.one_mul]; omega) (fun _ => ?_)
    refine OCost.bind' (n := 0) (k := ports.length * portCost W R P) OCost.get (by omega) (fun s => ?_)
    split
    · exact OCost.pure _ _
    · exact ih

theorem cost_constructor (hf : Weights f W R P) (fl : ElmM.FloatFn) (a : Args) :
    total f (ObdM.construct dev fl a.ports a.portstr a.fast a.cfg).2.hist ≤
      portsToTry a * portCost W R P + (W + 2 * (W + 12 * R)) + pidGetters.length * (4 * (W + 12 * R)) := by
  have hcl : OCost f (W + 2 * (W + 12 * R)) (closeIfFailed dev) := by
    unfold closeIfFailed
    refine OCost.bind' (n := 0) (k := W + 2 * (W + 12 * R)) OCost.get (by omega) (fun s => ?_)
    split
    · exact cost_close hf
    · exact OCost.pure _ _
  have hcon : OCost f (portsToTry a * portCost W R P + (W + 2 * (W + 12 * R))) (connect dev fl a.ports a.portstr a.cfg) := by
    unfold connect
    cases hp : a.portstr with
    | none =>
      have ht : portsToTry a = a.ports.length := by simp [portsToTry, hp]
      rw [ht]
      simp only
      cases a.ports.isEmpty with
      | true => exact OCost.pure _ _
      | false => exact OCost.bind (cost_tryPorts hf fl _ _) (fun _ => hcl)
    | some p =>
      have ht : portsToTry a = 1 := by simp [portsToTry, hp]
      rw [ht, Nat.one_mul]
      exact OCost.bind (cost_open hf fl _ _) (fun _ => hcl)
  have hload : OCost f (pidGetters.length * (4 * (W + 12 * R))) (loadCommands dev fl) := by
    unfold loadCommands
    refine OCost.bind' (n := 0) (k := pidGetters.length * (4 * (W + 12 * R))) OCost.get (by omega) (fun s => ?_)
    split
    · exact OCost.pure _ _
    · exact cost_loadLoop hf fl _
  have := OCost.bind hcon (fun _ => hload) { supported := baseCommands, fast := a.fast }
  refine Nat.le_trans this ?_
  show total f [] + _ ≤ _
  simp [total]

end ObdM
end Model
