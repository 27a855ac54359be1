import Verif.Spec.Chunks
import Verif.Props.Serial
import Verif.Spec.Demo
/-!
# C88: how the bytes are cut into chunks has no effect
-/
namespace Props
open Py Model Spec

/-- What a read until the prompt gives. -/
def received : Sent → Option Bytes
  | .prompt b => some (b ++ [0x3E])
  | .silence b => some b
  | .broken _ => none

theorem readLoop_cut (cs : List Bytes) (tail : List (Option Bytes)) : ∀ (acc : Bytes), (∀ c ∈ cs, c ≠ []) → (0x3E : UInt8) ∉ cs.flatten →
    (0x3E : UInt8) ∉ acc → readLoop elmPrompt acc (cs.map some ++ tail) = readLoop elmPrompt (acc ++ cs.flatten) tail := by
  induction cs with
  | nil => intro acc _ _ _; simp
  | cons c cs ih =>
    intro acc h1 h2 h3
    have hc : c ≠ [] := h1 c (by simp)
    simp only [List.flatten_cons, List.mem_append, not_or] at h2
    rw [List.map_cons, List.cons_append, readLoop, if_neg (by simpa using hc), if_neg, ih _ (fun x hx => h1 x (by simp [hx])) h2.2, List.flatten_cons, List.append_assoc]
    · simp [h2.1, h3]
    · rw [isIn_prompt]; simp [h2.1, h3]

theorem arrives_read {x : Sent} {reads : List (Option Bytes)} (h : Arrives x reads) : readLoop elmPrompt [] reads = received x := by
  obtain ⟨hb, cs, rest, hx⟩ := h
  cases x with
  | prompt b =>
    obtain ⟨⟨h1, h2⟩, rfl⟩ := hx
    have hne : cs ≠ [] := by rintro rfl; simp at h1
    obtain ⟨init, last, rfl⟩ : ∃ init last, cs = init ++ [last] := ⟨_, _, (List.dropLast_append_getLast hne).symm⟩
    have hl : last ≠ [] := h2 last (by simp)
    obtain ⟨l, z, rfl⟩ : ∃ l z, last = l ++ [z] := ⟨_, _, (List.dropLast_append_getLast hl).symm⟩
    have e : init.flatten ++ l = b ∧ z = 0x3E := by
      have : (init.flatten ++ l) ++ [z] = b ++ [0x3E] := by simpa using h1
      have := List.append_inj' this rfl
      simpa using this
    obtain ⟨rfl, rfl⟩ := e
    have hb' : (0x3E : UInt8) ∉ init.flatten ++ l := hb
    have hi : (0x3E : UInt8) ∉ init.flatten := fun h => hb' (by simp only [List.mem_append]; exact Or.inl h)
    rw [List.map_append, List.append_assoc, readLoop_cut init _ [] (fun c hc => h2 c (by simp [hc])) hi (by simp)]
    simp only [List.map_cons, List.map_nil, List.cons_append, List.nil_append]
    rw [readLoop, if_neg (by simp), if_pos (by rw [isIn_prompt]; simp)]
    simp [received]
  | silence b =>
    obtain ⟨⟨rfl, h2⟩, hr⟩ := hx
    rcases hr with rfl | rfl
    · have := readLoop_cut cs [] [] h2 hb (by simp)
      rw [List.append_nil] at this
      rw [this]; rfl
    · rw [readLoop_cut cs _ [] h2 hb (by simp)]; rfl
  | broken b =>
    obtain ⟨⟨rfl, h2⟩, rfl⟩ := hx
    rw [readLoop_cut cs _ [] h2 hb (by simp)]; rfl

variable {d1 d2 : Device}

theorem read_same (h : SameBytes d1 d2) : EW.read d1 elmPrompt = EW.read d2 elmPrompt := by
  funext w
  obtain ⟨x, h1, h2⟩ := h.reads w.hist
  unfold EW.read
  simp only [arrives_read h1, arrives_read h2]

theorem write_same (h : SameBytes d1 d2) : EW.write d1 = EW.write d2 := by
  funext c w; unfold EW.write; rw [h.write]

theorem retry_same (h : SameBytes d1 d2) (n : Nat) : EW.retry d1 elmPrompt n = EW.retry d2 elmPrompt n := by
  induction n with
  | zero => rfl
  | succ n ih => funext r; unfold EW.retry; rw [ih, read_same h]

theorem send_same (h : SameBytes d1 d2) (c : Bytes) (b : Bool) : ElmM.send d1 c b = ElmM.send d2 c b := by
  unfold ElmM.send
  congr 1
  funext w
  unfold EW.send
  rw [retry_same h, read_same h, write_same h]

theorem mwrite_same (h : SameBytes d1 d2) (c : Bytes) : ElmM.write d1 c = ElmM.write d2 c := by
  unfold ElmM.write; rw [write_same h]

theorem eclose_same (h : SameBytes d1 d2) : ElmM.close d1 = ElmM.close d2 := by
  unfold ElmM.close; simp only [mwrite_same h]

theorem probe_same (h : SameBytes d1 d2) (b : Nat) : ElmM.probe d1 b = ElmM.probe d2 b := by
  unfold ElmM.probe; rw [h.probe]

theorem tryRates_same (h : SameBytes d1 d2) (t : Rat) (l : List Nat) : ElmM.tryRates d1 t l = ElmM.tryRates d2 t l := by
  induction l with
  | nil => rfl
  | cons b l ih => unfold ElmM.tryRates; simp only [probe_same h, ih]

theorem setBaudrate_same (h : SameBytes d1 d2) (b : Option Nat) : ElmM.setBaudrate d1 b = ElmM.setBaudrate d2 b := by
  unfold ElmM.setBaudrate ElmM.autoBaudrate; simp only [tryRates_same h, h.setBaud]

theorem manual_same (h : SameBytes d1 d2) (i : Str) (p : Proto) : ElmM.manualProtocol d1 i p = ElmM.manualProtocol d2 i p := by
  unfold ElmM.manualProtocol; simp only [send_same h]

theorem tryProtocols_same (h : SameBytes d1 d2) (l : List Str) : ElmM.tryProtocols d1 l = ElmM.tryProtocols d2 l := by
  induction l with
  | nil => rfl
  | cons b l ih => unfold ElmM.tryProtocols; simp only [manual_same h, ih]

theorem setProtocol_same (h : SameBytes d1 d2) (p : Option Str) : ElmM.setProtocol d1 p = ElmM.setProtocol d2 p := by
  unfold ElmM.setProtocol ElmM.autoProtocol; simp only [send_same h, manual_same h, tryProtocols_same h]

theorem initAt_same (h : SameBytes d1 d2) (fl : ElmM.FloatFn) (p : Option Str) (v : Bool) : ElmM.initAt d1 fl p v = ElmM.initAt d2 fl p v := by
  unfold ElmM.initAt ElmM.initVoltage ElmM.initProtocol ElmM.error; simp only [send_same h, eclose_same h, setProtocol_same h]

theorem init_same (h : SameBytes d1 d2) (fl : ElmM.FloatFn) (p : Str) (cfg : ElmM.Config) : ElmM.init d1 fl p cfg = ElmM.init d2 fl p cfg := by
  unfold ElmM.init ElmM.error; simp only [h.openPort, eclose_same h, mwrite_same h, setBaudrate_same h, initAt_same h]
  rfl

theorem normalPower_same (h : SameBytes d1 d2) : ElmM.normalPower d1 = ElmM.normalPower d2 := by
  unfold ElmM.normalPower; simp only [send_same h]

theorem sendAndParse_same (h : SameBytes d1 d2) (c : Bytes) : ElmM.sendAndParse d1 c = ElmM.sendAndParse d2 c := by
  unfold ElmM.sendAndParse; simp only [send_same h, normalPower_same h]

theorem setHeader_same' (h : SameBytes d1 d2) (c : Bytes) : ObdM.setHeader d1 c = ObdM.setHeader d2 c := by
  unfold ObdM.setHeader; simp only [sendAndParse_same h]

theorem query_same' (h : SameBytes d1 d2) (fl : ElmM.FloatFn) (c : OBDCommand) (f : Bool) : ObdM.query d1 fl c f = ObdM.query d2 fl c f := by
  unfold ObdM.query ObdM.exchange; simp only [sendAndParse_same h, setHeader_same' h]

theorem close_same (h : SameBytes d1 d2) : ObdM.close d1 = ObdM.close d2 := by
  unfold ObdM.close; simp only [eclose_same h, setHeader_same' h]

theorem obdNormal_same (h : SameBytes d1 d2) : ObdM.normalPower d1 = ObdM.normalPower d2 := by
  unfold ObdM.normalPower; simp only [normalPower_same h]

theorem loadLoop_same (h : SameBytes d1 d2) (fl : ElmM.FloatFn) (l : List OBDCommand) : ObdM.loadLoop d1 fl l = ObdM.loadLoop d2 fl l := by
  induction l with
  | nil => rfl
  | cons b l ih => unfold ObdM.loadLoop; simp only [query_same' h, ih]

theorem openInterface_same (h : SameBytes d1 d2) (fl : ElmM.FloatFn) (p : Str) (cfg : ElmM.Config) : ObdM.openInterface d1 fl p cfg = ObdM.openInterface d2 fl p cfg := by
  unfold ObdM.openInterface ElmM.construct; simp only [init_same h]
  rfl

theorem tryPorts_same (h : SameBytes d1 d2) (fl : ElmM.FloatFn) (cfg : ElmM.Config) (l : List Str) : ObdM.tryPorts d1 fl cfg l = ObdM.tryPorts d2 fl cfg l := by
  induction l with
  | nil => rfl
  | cons b l ih => unfold ObdM.tryPorts; simp only [openInterface_same h, ih]

theorem construct_same (h : SameBytes d1 d2) (fl : ElmM.FloatFn) (a : Args) :
    ObdM.construct d1 fl a.ports a.portstr a.fast a.cfg = ObdM.construct d2 fl a.ports a.portstr a.fast a.cfg := by
  unfold ObdM.construct ObdM.connect ObdM.closeIfFailed ObdM.loadCommands
  simp only [openInterface_same h, tryPorts_same h, close_same h, loadLoop_same h]

theorem session_same (h : SameBytes d1 d2) (fl : ElmM.FloatFn) (calls : List Call) (hn : ∀ c ∈ calls, c.notLow = true) (s : OW) :
    session d1 fl calls s = session d2 fl calls s := by
  induction calls generalizing s with
  | nil => rfl
  | cons c calls ih =>
    have hc : c.after d1 fl s = c.after d2 fl s := by
      have := hn c (by simp)
      cases c with
      | query c f => simp only [Call.after, query_same' h]
      | lowPower => cases this
      | normalPower => simp only [Call.after, obdNormal_same h]
      | close => simp only [Call.after, close_same h]
    show session d1 fl calls (c.after d1 fl s) = session d2 fl calls (c.after d2 fl s)
    rw [hc, ih (fun x hx => hn x (by simp [hx]))]

/-- C88: two adapters that send the same bytes in different chunks cannot be told apart: the constructor
returns or raises the same; after any calls but `low_power()` the object is in the same state, with the same lines
sent and the same bytes received, and the next query, `normal_power()` or `close()` has the same outcome. -/
theorem C88_chunks (d1 d2 : Device) (h : SameBytes d1 d2) (fl : Str → Option PyFloat) :
    (∀ a : Args, ObdM.construct d1 fl a.ports a.portstr a.fast a.cfg = ObdM.construct d2 fl a.ports a.portstr a.fast a.cfg) ∧
    ∀ (calls : List Call), (∀ c ∈ calls, c.notLow = true) → ∀ s : OW, session d1 fl calls s = session d2 fl calls s ∧
      (∀ c force, ObdM.query d1 fl c force (session d1 fl calls s) = ObdM.query d2 fl c force (session d2 fl calls s)) ∧
      ObdM.normalPower d1 (session d1 fl calls s) = ObdM.normalPower d2 (session d2 fl calls s) ∧
      ObdM.close d1 (session d1 fl calls s) = ObdM.close d2 (session d2 fl calls s) := by
  refine ⟨construct_same h fl, fun calls hn s => ?_⟩
  have e := session_same h fl calls hn s
  exact ⟨e, fun c f => by rw [e, query_same' h], by rw [e, obdNormal_same h], by rw [e, close_same h]⟩

/-- The actions of a schedule in which neither the user nor a callback calls `low_power()`. -/
def actionNotLow (s : AW) : Action → Bool
  | .cb _ op => notLowOp op
  | .caller => match s.caller with
    | .busy op _ => notLowOp op
    | .idle => true
  | _ => true

/-- C88, asynchronous: every step of every thread is the same, `low_power()` apart. -/
theorem C88_async (d1 d2 : Device) (h : SameBytes d1 d2) (fl : Str → Option PyFloat) (s : AW) (a : Action) (ha : actionNotLow s a = true) :
    s.step d1 fl a = s.step d2 fl a := by
  cases a with
  | call op => rfl
  | caller =>
    unfold AW.step
    cases hc : s.caller with
    | idle => rfl
    | busy op pc =>
      have hop : notLowOp op = true := by simpa [actionNotLow, hc] using ha
      have hp : ∀ o, AW.powerCall d1 op o = AW.powerCall d2 op o := by
        intro o
        cases op <;> first | exact absurd hop (by decide) | (simp only [AW.powerCall, obdNormal_same h])
      simp only
      unfold AW.callerStep
      simp only [close_same h, hp]
  | daemon t =>
    unfold AW.step AW.daemonStep
    simp only [query_same' h]
  | cb t op =>
    have hop : notLowOp op = true := ha
    have hcb : s.cbCall d1 t op = s.cbCall d2 t op := by
      cases op <;> first | exact absurd hop (by decide) | simp only [AW.cbCall, close_same h, obdNormal_same h]
    unfold AW.step
    simp only [hcb]
  | cbEnd t ok => rfl
  | reorder t rest => rfl

/-- The sample adapter, sending every reply byte by byte. -/
def dripping (table : List (String × String)) : Device :=
  { demo table with read := fun h => (reply table "?" (lastWrite h)).map (fun b => some [b]) }

theorem reply_prompt (t : List (String × String)) (ht : ∀ e ∈ t, (0x3E : UInt8) ∉ ascii e.2) (b : Bytes) :
    ∃ x, reply t "?" b = x ++ [0x3E] ∧ (0x3E : UInt8) ∉ x := by
  unfold reply
  have hend : ∀ s : Bytes, s ++ ascii "\r\r>" = (s ++ [0x0D, 0x0D]) ++ [0x3E] := fun s => by
    rw [List.append_assoc]; rfl
  cases hf : t.find? (fun e => ascii e.1 ++ [0x0D] == b) with
  | none => exact ⟨ascii "?" ++ [0x0D, 0x0D], hend _, by decide⟩
  | some e =>
    refine ⟨ascii e.2 ++ [0x0D, 0x0D], hend _, ?_⟩
    have := ht e (List.mem_of_find?_eq_some hf)
    simp [this]

theorem dripping_same (t : List (String × String)) (ht : ∀ e ∈ t, (0x3E : UInt8) ∉ ascii e.2) : SameBytes (demo t) (dripping t) where
  openPort := rfl
  setBaud := rfl
  probe := rfl
  write := rfl
  reads := by
    intro h
    obtain ⟨x, hx, hn⟩ := reply_prompt t ht (lastWrite h)
    refine ⟨.prompt x, ⟨hn, [x ++ [0x3E]], [], ⟨by simp, by simp⟩, ?_⟩, ⟨hn, (x ++ [0x3E]).map (fun b => [b]), [], ⟨?_, by simp only [List.mem_map]; rintro c ⟨b, _, rfl⟩; simp⟩, ?_⟩⟩
    · show [some (reply t "?" (lastWrite h))] = _
      rw [hx]; rfl
    · generalize x ++ [0x3E] = l
      induction l with
      | nil => rfl
      | cons a l ih => simpa using ih
    · show (reply t "?" (lastWrite h)).map (fun b => some [b]) = _
      rw [hx, List.append_nil, List.map_map]; rfl

/-- The hypotheses can be met: the sample car, its replies whole or byte by byte. -/
example : SameBytes (demo table) (dripping table) ∧ (demo table).read [.write (ascii "0100\r") true] ≠ (dripping table).read [.write (ascii "0100\r") true] :=
  ⟨dripping_same table (by decide +kernel), by decide +kernel⟩

end Props
