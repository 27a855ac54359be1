import Verif.Props.Query
import Verif.Props.Commands
/-!
# C89: custom commands
-/
namespace Props
open Py Model Spec Model.ObdM

/-- The connection after `supported_commands.add(c)` or other changes of that set by the user. -/
def withSupported (s : OW) (S : List OBDCommand) : OW := { s with supported := S }

/-- The call neither looks at nor changes the set of supported commands. -/
def Blind {α : Type} (m : ObdM α) : Prop := ∀ s S, m (withSupported s S) = ((m s).1, withSupported (m s).2 S)

theorem Blind.pure {α : Type} (a : α) : Blind (Pure.pure a : ObdM α) := fun _ _ => rfl

theorem Blind.bind {α β : Type} {m : ObdM α} {f : α → ObdM β} (hm : Blind m) (hf : ∀ a, Blind (f a)) : Blind (m >>= f) := by
  intro s S
  rw [PyM.bind_apply, PyM.bind_apply, hm]
  cases h : m s with
  | mk r s' =>
    cases r with
    | ok a => exact hf a s' S
    | error e => rfl

theorem blind_onInterface {α : Type} (m : ElmM α) : Blind (onInterface m) := by
  intro s S
  cases h : s.interface with
  | none => simp only [onInterface, withSupported, h]
  | some e => simp only [onInterface, withSupported, h]

theorem blind_setHeader (dev : Device) (hd : Bytes) : Blind (setHeader dev hd) := by
  intro s S
  unfold setHeader
  rw [PyM.bind_ok (PyM.get_apply _), PyM.bind_ok (PyM.get_apply _)]
  show (if hd = s.lastHeader then _ else _ : ObdM Unit) _ = _
  split
  · rfl
  · refine Blind.bind (blind_onInterface _) (fun r => ?_) s S
    intro s S
    split
    · rfl
    · split
      · rfl
      · split <;> rfl

theorem blind_noteCommand (b : Bytes) : Blind (noteCommand b) := by
  intro s S; unfold noteCommand; split <;> rfl

theorem blind_noteFrames (c : OBDCommand) (ms : Option (List Message)) : Blind (noteFrames c ms) := by
  intro s S
  unfold noteFrames
  show (if s.frameCounts.mem c.key then _ else _) = _
  by_cases h : s.frameCounts.mem c.key = true
  · simp only [h, if_true]
  · simp only [h]; cases ms <;> rfl

theorem blind_answer (fl : ElmM.FloatFn) (c : OBDCommand) (ms : Option (List Message)) : Blind (answer fl c ms) := by
  intro s S
  cases ms with
  | none => rfl
  | some ms => simp only [answer]; split <;> rfl

theorem blind_exchange (dev : Device) (fl : ElmM.FloatFn) (c : OBDCommand) : Blind (exchange dev fl c) := by
  unfold exchange
  refine Blind.bind (blind_setHeader dev _) (fun _ => ?_)
  intro s S
  rw [PyM.bind_ok (PyM.get_apply _), PyM.bind_ok (PyM.get_apply _)]
  have hb : buildCommand (withSupported s S) c = buildCommand s c := rfl
  rw [hb]
  exact Blind.bind (blind_onInterface _) (fun ms => Blind.bind (blind_noteCommand _) (fun _ => Blind.bind (blind_noteFrames c ms) (fun _ => blind_answer fl c ms))) s S

/-- C89, `force`: a forced query does not depend on the set of supported commands and leaves it alone. -/
theorem C89_forced (dev : Device) (fl : Str → Option PyFloat) (c : OBDCommand) (s : OW) (S : List OBDCommand) :
    query dev fl c true (withSupported s S) = ((query dev fl c true s).1, withSupported (query dev fl c true s).2 S) := by
  unfold query
  rw [PyM.bind_ok (PyM.get_apply _), PyM.bind_ok (PyM.get_apply _)]
  show (if status s = .notConnected then _ else _ : ObdM Response) _ = _
  split
  · rfl
  · exact blind_exchange dev fl c s S

/-- C89, `supported_commands.add(c)`: afterwards the query gives (or raises) what a forced query would have
given (or raised), and the object goes on as after the forced query, but for the added command; mode 06 under a
protocol without it is not sent (C45). -/
theorem C89_added (dev : Device) (fl : Str → Option PyFloat) (c : OBDCommand) (m : Option Nat) (hm : c.mode = .ok m) (s : OW)
    (h6 : m = some 6 → ∃ id, protocolId s = .ok id ∧ id ∈ ["6".toList, "7".toList, "8".toList, "9".toList])
    (S : List OBDCommand) (hS : ∃ d ∈ S, d.command = c.command ∧ d.header = c.header) :
    query dev fl c false (withSupported s S) = ((query dev fl c true s).1, withSupported (query dev fl c true s).2 S) := by
  rw [← C89_forced]
  unfold query
  rw [PyM.bind_ok (PyM.get_apply _), PyM.bind_ok (PyM.get_apply _)]
  by_cases hst : status (withSupported s S) = .notConnected
  · rw [if_pos hst, if_pos hst]
  · rw [if_neg hst, if_neg hst]
    have ht : testCmd (withSupported s S) c = .ok true := by
      have hsup : supports (withSupported s S) c = true := by
        obtain ⟨d, hd, h1, h2⟩ := hS
        unfold supports
        rw [List.any_eq_true]
        exact ⟨d, hd, by simp [OBDCommand.eq, h1, h2]⟩
      unfold testCmd
      rw [if_neg (by simp [hsup]), hm]
      simp only [Bind.bind, Except.bind]
      split
      · rename_i h
        obtain ⟨id, h7, h8⟩ := h6 h
        show (match s.interface with | none => _ | some e => _) = _
        cases he : s.interface with
        | none => exact absurd (by simp [status, withSupported, he]) hst
        | some e =>
          simp only [protocolId, he] at h7
          simp only [h7]
          have : decide (id ∈ canIds) = true := by simpa [canIds] using h8
          rw [this]; rfl
      · rfl
    rw [if_neg (by simp), ht]
    rfl

/-- The part of a query before the response is made. -/
def upToReply (dev : Device) (c : OBDCommand) : ObdM (Option (List Message)) := do
  setHeader dev c.header
  let s ← PyM.get
  let messages ← onInterface (ElmM.sendAndParse dev (buildCommand s c))
  noteCommand (buildCommand s c)
  noteFrames c messages
  return messages

theorem exchange_split (dev : Device) (fl : ElmM.FloatFn) (c : OBDCommand) (s : OW) :
    exchange dev fl c s = (upToReply dev c >>= answer fl c) s := by
  unfold exchange upToReply
  simp only [PyM.bind_apply]
  repeat' (first | rfl | split <;> try rfl)

/-- C89, the decoder: whatever function the user wrote, it decides the value and nothing else.  A query either raises before
it gets there, or gives a response without messages and value, in both cases the same for every decoder; or it calls the decoder on messages that do not
depend on it: at least one, each from an ECU the command listens to, each with exactly the declared number of bytes.  Then the
value of the response is the value of the decoder, and an exception of the decoder is raised by the query.  The object is left in the same state. -/
theorem C89_decoder (dev : Device) (fl : Str → Option PyFloat) (c : OBDCommand) (force : Bool) (s : OW) :
    ∃ s', (∃ x, ∀ f, query dev fl { c with decode := .custom f } force s = (.error x, s')) ∨
      (∀ f, query dev fl { c with decode := .custom f } force s = (.ok {}, s')) ∨
      (∀ f, query dev fl { c with decode := .custom f } force s = (.ok { command := some { c with decode := .custom f } }, s')) ∨
      (∃ ms : List Message, ms ≠ [] ∧ (∀ m ∈ ms, (c.ecu &&& m.ecu) > 0 ∧ (c.bytes > 0 → m.data.length = c.bytes)) ∧
        ∀ f, query dev fl { c with decode := .custom f } force s =
          ((f ms).map (fun v => { command := some { c with decode := .custom f }, messages := ms, value := v }), s')) := by
  by_cases hst : status s = .notConnected
  · exact ⟨s, Or.inr (Or.inl fun f => query_nc hst)⟩
  have hex : (∃ x, testCmd s c = .error x ∧ force = false) ∨ (testCmd s c = .ok false ∧ force = false) ∨
      ∀ f, query dev fl { c with decode := .custom f } force s = exchange dev fl { c with decode := .custom f } s := by
    have ht : ∀ f, testCmd s { c with decode := .custom f } = testCmd s c := fun f => rfl
    cases force with
    | true =>
      refine Or.inr (Or.inr fun f => ?_)
      rcases query_cases dev fl { c with decode := .custom f } true s with ⟨-, h⟩ | ⟨x, -, -, h, -⟩ | ⟨h, -⟩
      · rcases h with h | ⟨h, -⟩
        · exact absurd h hst
        · cases h
      · cases h
      · exact h
    | false =>
      cases h0 : testCmd s c with
      | error x => exact Or.inl ⟨x, rfl, rfl⟩
      | ok b =>
        cases b with
        | false => exact Or.inr (Or.inl ⟨rfl, rfl⟩)
        | true =>
          refine Or.inr (Or.inr fun f => ?_)
          rcases query_cases dev fl { c with decode := .custom f } false s with ⟨-, h⟩ | ⟨x, -, -, -, h⟩ | ⟨h, -⟩
          · rcases h with h | ⟨-, h⟩
            · exact absurd h hst
            · rw [ht, h0] at h; cases h
          · rw [ht, h0] at h; cases h
          · exact h
  rcases hex with ⟨x, h1, rfl⟩ | ⟨h1, rfl⟩ | hq
  · refine ⟨s, Or.inl ⟨x, fun f => ?_⟩⟩
    have ht : testCmd s { c with decode := .custom f } = .error x := h1
    rcases query_cases dev fl { c with decode := .custom f } false s with ⟨-, h⟩ | ⟨y, h, -, -, h2⟩ | ⟨-, -, h⟩
    · rcases h with h | ⟨-, h⟩
      · exact absurd h hst
      · rw [ht] at h; cases h
    · rw [ht] at h2; cases h2; exact h
    · rcases h with h | h
      · cases h
      · rw [ht] at h; cases h
  · refine ⟨s, Or.inr (Or.inl fun f => ?_)⟩
    have ht : testCmd s { c with decode := .custom f } = .ok false := h1
    rcases query_cases dev fl { c with decode := .custom f } false s with ⟨h, -⟩ | ⟨y, -, -, -, h2⟩ | ⟨-, -, h⟩
    · exact h
    · rw [ht] at h2; cases h2
    · rcases h with h | h
      · cases h
      · rw [ht] at h; cases h
  · have hpre : ∀ f, upToReply dev { c with decode := .custom f } = upToReply dev c := fun f => rfl
    simp only [hq, exchange_split, PyM.bind_apply, hpre]
    cases hp : upToReply dev c s with
    | mk r s' =>
      refine ⟨s', ?_⟩
      cases r with
      | error x => exact Or.inl ⟨x, fun _ => rfl⟩
      | ok o =>
        cases o with
        | none => exact Or.inr (Or.inl fun _ => rfl)
        | some ms =>
          by_cases hn : ms = []
          · subst hn; exact Or.inr (Or.inl fun _ => rfl)
          · have hn' : ms.isEmpty = false := by simpa using hn
            by_cases hk : (ms.filter (fun m => (c.ecu &&& m.ecu) > 0)).map c.constrain = []
            · refine Or.inr (Or.inr (Or.inl fun f => ?_))
              have hk' : (ms.filter (fun m => (c.ecu &&& m.ecu) > 0)).map ({ c with decode := .custom f } : OBDCommand).constrain = [] := hk
              simp only [answer, hn', OBDCommand.call, hk']
              rfl
            · refine Or.inr (Or.inr (Or.inr ⟨(ms.filter (fun m => (c.ecu &&& m.ecu) > 0)).map c.constrain, hk, ?_, fun f => ?_⟩))
              · intro m hm
                rw [List.mem_map] at hm
                obtain ⟨m0, h0, rfl⟩ := hm
                rw [List.mem_filter] at h0
                have h2 := h0.2
                refine ⟨?_, fun hb => ?_⟩
                · rw [constrain_eq]; simpa using h2
                · rw [constrain_eq]; show (fit c.bytes m0.data).length = c.bytes
                  unfold fit; rw [if_neg (by omega)]; simp
              · have hk' : ((ms.filter (fun m => (c.ecu &&& m.ecu) > 0)).map ({ c with decode := .custom f } : OBDCommand).constrain).isEmpty = false := by
                  simpa using hk
                simp only [answer, hn', OBDCommand.call, hk']
                show ((do
                  let v ← f ((ms.filter (fun m => (c.ecu &&& m.ecu) > 0)).map c.constrain)
                  return { command := some { c with decode := .custom f }, messages := (ms.filter (fun m => (c.ecu &&& m.ecu) > 0)).map c.constrain, value := v } : Except Exc Response), s') = _
                cases f ((ms.filter (fun m => (c.ecu &&& m.ecu) > 0)).map c.constrain) <;> rfl

/-- A custom command of the documentation: the engine speed, with the user's own decoder. -/
def customRpm (f : List Message → Except Exc Value) : OBDCommand :=
  { name := "RPM", desc := "Engine RPM", command := ascii "010C1", bytes := 4, decode := .custom f, ecu := ECU.engine, fast := true }

def firstByte : List Message → Except Exc Value := fun ms => do return .bytes ((← idx ms 0).data.drop 2)

/-- The hypotheses can be met: unknown to the car, not sent; forced or added, the decoder gets the four bytes of the engine. -/
example : (supports (demoObd false) (customRpm firstByte) = false) ∧ (customRpm firstByte).mode = .ok (some 1) ∧
    (match (query (demo table) fl0 (customRpm firstByte) false (demoObd false)).1 with | .ok r => r.isNull && r.command.isNone | .error _ => false) = true ∧
    (match (query (demo table) fl0 (customRpm firstByte) true (demoObd false)).1 with
      | .ok r => decide (r.value = .bytes [0x1A, 0xF8]) && r.messages.length == 1 | .error _ => false) = true ∧
    (match (query (demo table) fl0 (customRpm firstByte) false (withSupported (demoObd false) (addCmd (demoObd false).supported (customRpm firstByte)))).1 with
      | .ok r => decide (r.value = .bytes [0x1A, 0xF8]) | .error _ => false) = true := by
  refine ⟨?_, ?_, ?_, ?_, ?_⟩ <;> decide +kernel

/-- C89: the documentation says that a custom command is treated as unsupported until it is added.  A custom command with the bytes
and the header of a supported one is supported at once: this one was never added. -/
theorem C89_default_refuted : ¬ ∀ (dev : Device) (fl : Str → Option PyFloat) (a : Args) (s : OW), Constructed dev fl a s →
    ∀ (c : OBDCommand), (∀ d ∈ s.supported, d.name ≠ c.name) → supports s c = false := by
  intro h
  have := h _ _ _ _ (demoObd_constructed false) { customRpm firstByte with name := "my RPM", command := ascii "010C" } (by
    have : (demoObd false).supported.all (fun d => decide (d.name ≠ "my RPM")) = true := by decide +kernel
    intro d hd
    simpa using (List.all_eq_true.1 this) d hd)
  have h2 : supports (demoObd false) { customRpm firstByte with name := "my RPM", command := ascii "010C" } = true := by decide +kernel
  rw [h2] at this; cases this

/-- C89: it is supported exactly if its bytes and header are those of a supported command. -/
theorem C89_default_partial (s : OW) (c : OBDCommand) :
    supports s c = true ↔ ∃ d ∈ s.supported, d.command = c.command ∧ d.header = c.header := by
  unfold supports
  rw [List.any_eq_true]
  constructor
  · rintro ⟨d, hd, h⟩; exact ⟨d, hd, by simpa [OBDCommand.eq] using h⟩
  · rintro ⟨d, hd, h⟩; exact ⟨d, hd, by simpa [OBDCommand.eq] using h⟩

/-- Someone else's command with the bytes of the engine speed is supported by the demo car, under another header it is not. -/
example : supports (demoObd false) { customRpm firstByte with name := "my RPM", command := ascii "010C" } = true ∧
    supports (demoObd false) { customRpm firstByte with command := ascii "010C", header := ascii "7E1" } = false := by
  constructor <;> decide +kernel

end Props
