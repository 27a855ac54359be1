import Verif.Lemmas.Query
/-!
# The commands of a query, in order
-/
namespace Model
open Py Spec
namespace ObdM

/-- Everything a query of `c` would send. -/
def plan (s : OW) (e : Elm) (c : OBDCommand) : List Bytes :=
  wake e ++ ((if c.header = s.lastHeader then [] else [headerLine c.header]) ++ [buildCommand s c])

theorem buildCommand_attrs {s s' : OW} {c : OBDCommand} (h1 : s'.fast = s.fast) (h2 : s'.lastCommand = s.lastCommand)
    (h3 : s'.frameCounts = s.frameCounts) : buildCommand s' c = buildCommand s c := by
  unfold buildCommand withCount
  rw [h1, h2, h3]

theorem wake_off (e : Elm) : wake { e with lowPower := false } = [] := rfl

theorem status_dropped (s : OW) (e : Elm) (evs : History) : status (dropped s e evs) = .notConnected := rfl

theorem exchange_plan {dev : Device} {fl : ElmM.FloatFn} {c : OBDCommand} {s : OW} {e : Elm} {o : ProtoObj} (hl : Live s e o) :
    ∃ evs p q, (exchange dev fl c s).2.hist = s.hist ++ evs ∧ NoOpen evs ∧ plan s e c = p ++ q ∧ p ≠ [] ∧ sent evs = p.map line ∧
      (q ≠ [] → status (exchange dev fl c s).2 = .notConnected ∨ ∃ x, (exchange dev fl c s).1 = .error x) := by
  have hb : ∀ {s : OW} {e : Elm}, Live s e o → ∃ evs p q, (body dev fl c s).2.hist = s.hist ++ evs ∧ NoOpen evs ∧
      wake e ++ [buildCommand s c] = p ++ q ∧ p ≠ [] ∧ sent evs = p.map line ∧ (q ≠ [] → status (body dev fl c s).2 = .notConnected) := by
    intro s e hl
    rcases body_cases (dev := dev) (fl := fl) (c := c) hl with ⟨pre, l, evs, x, h1, h2, h3, h4⟩ | ⟨pre, l, evs, ms, h1, h2, h3, h4⟩ | ⟨evs, h1, h4⟩ <;> rw [h4]
    · refine ⟨evs, wake e ++ [buildCommand s c], [], rfl, Dialogue.noOpen h2, by simp, by simp, ?_, by simp⟩
      rw [sent_dialogue h2, ← h1]; simp
    · refine ⟨evs, wake e ++ [buildCommand s c], [], rfl, Dialogue.noOpen h2, by simp, by simp, ?_, by simp⟩
      rw [sent_dialogue h2, ← h1]; simp
    · obtain ⟨p, q, h5, h6, h7⟩ := sent_broken h1
      exact ⟨evs, p, q, rfl, Broken.noOpen h1, h5, h6, h7, fun _ => rfl⟩
  rw [exchange_eq]
  by_cases hh : c.header = s.lastHeader
  · have : (setHeader dev c.header >>= fun _ => body dev fl c) s = body dev fl c s := by
      rw [PyM.bind_ok (setHeader_same hh)]
    rw [this]
    obtain ⟨evs, p, q, h1, h2, h3, h4, h5, h6⟩ := hb hl
    refine ⟨evs, p, q, h1, h2, ?_, h4, h5, fun h => Or.inl (h6 h)⟩
    rw [plan, if_pos hh]; exact h3
  · have hpl : plan s e c = (wake e ++ [headerLine c.header]) ++ [buildCommand s c] := by rw [plan, if_neg hh]; simp
    rw [hpl]
    rcases setHeader_cases (dev := dev) hl hh with ⟨pre, l, evs, x, h1, h2, h3, h4⟩ | ⟨pre, l, evs, ms, h1, h2, h3, h4⟩ | ⟨evs, h1, h4⟩
    · have : (setHeader dev c.header >>= fun _ => body dev fl c) s = (.error x, woken s e evs) := by
        rw [PyM.bind_apply, h4]
      rw [this]
      refine ⟨evs, wake e ++ [headerLine c.header], [buildCommand s c], rfl, Dialogue.noOpen h2, rfl, by simp, ?_, fun _ => Or.inr ⟨x, rfl⟩⟩
      rw [sent_dialogue h2, ← h1]; simp
    · rw [PyM.bind_ok h4]
      obtain ⟨evs', p, q, h5, h6, h7, h8, h9, h10⟩ := hb (s := { woken s e evs with lastHeader := if ackd ms then c.header else s.lastHeader })
        (e := { e with lowPower := false }) ⟨rfl, hl.status, hl.port, hl.proto⟩
      refine ⟨evs ++ evs', wake e ++ [headerLine c.header] ++ p, q, ?_, ?_, ?_, ?_, ?_, fun h => Or.inl (h10 h)⟩
      · rw [h5]; simp [woken]
      · intro x hx pp r
        rcases List.mem_append.1 hx with hx | hx
        · exact Dialogue.noOpen h2 x hx pp r
        · exact h6 x hx pp r
      · rw [List.append_assoc _ p q, ← h7, wake_off]; rfl
      · simp
      · rw [sent_append, sent_dialogue h2, h9, ← h1]; simp
    · rw [PyM.bind_ok h4]
      rw [body_nc (e := { lost e with lowPower := false }) rfl rfl]
      obtain ⟨p, q, h5, h6, h7⟩ := sent_broken h1
      refine ⟨evs, p, q ++ [buildCommand s c], rfl, Broken.noOpen h1, by rw [h5]; simp, h6, h7, fun _ => Or.inl rfl⟩

/-! ## the `fast` flag never changes -/

theorem ostable_fast (dev : Device) (b : Bool) : OStable dev (fun s => s.fast = b) where
  send := by
    intro cmd _ s h
    unfold onInterface
    cases s.interface <;> exact h
  attrs := fun _ _ _ _ h => h
  sup := fun _ _ h => h

theorem fast_on {α : Type} {m : ElmM α} {b : Bool} : Kept (fun s : OW => s.fast = b) (onInterface m) := by
  intro s h
  unfold onInterface
  cases s.interface <;> exact h

theorem fast_close (dev : Device) (b : Bool) : Kept (fun s : OW => s.fast = b) (close dev) := by
  unfold close
  refine Kept.bind (P := fun s : OW => s.fast = b) (Kept.modify (fun s hs => hs)) (fun _ => ?_)
  refine Kept.bind (P := fun s : OW => s.fast = b) Kept.get (fun s => ?_)
  split
  · exact Kept.pure _
  · refine Kept.bind (P := fun s : OW => s.fast = b) (kept_setHeader (ostable_fast dev b) _) (fun _ => ?_)
    refine Kept.bind (P := fun s : OW => s.fast = b) fast_on (fun _ => ?_)
    exact Kept.modify (fun s hs => hs)

theorem fast_call (dev : Device) (fl : ElmM.FloatFn) (b : Bool) (c : Call) (s : OW) (h : s.fast = b) : (c.after dev fl s).fast = b := by
  cases c with
  | query c force => exact kept_query (ostable_fast dev b) fl c force s h
  | lowPower =>
    refine Kept.bind (P := fun s : OW => s.fast = b) Kept.get (fun s' => ?_) s h
    split
    · exact Kept.pure _
    · exact fast_on
  | normalPower =>
    refine Kept.bind (P := fun s : OW => s.fast = b) Kept.get (fun s' => ?_) s h
    split
    · exact Kept.pure _
    · exact fast_on
  | close => exact fast_close dev b s h

theorem fast_session (dev : Device) (fl : ElmM.FloatFn) (b : Bool) (cs : List Call) (s : OW) (h : s.fast = b) :
    (session dev fl cs s).fast = b := by
  induction cs generalizing s with
  | nil => exact h
  | cons c cs ih => exact ih _ (fast_call dev fl b c s h)

theorem fast_open (dev : Device) (fl : ElmM.FloatFn) (port : Str) (cfg : ElmM.Config) (b : Bool) :
    Kept (fun s : OW => s.fast = b) (openInterface dev fl port cfg) := by
  intro s h
  unfold openInterface
  simp only
  split <;> exact h

theorem fast_tryPorts (dev : Device) (fl : ElmM.FloatFn) (cfg : ElmM.Config) (b : Bool) (ports : List Str) :
    Kept (fun s : OW => s.fast = b) (tryPorts dev fl cfg ports) := by
  induction ports with
  | nil => exact Kept.pure _
  | cons p ports ih =>
    unfold tryPorts
    refine Kept.bind (P := fun s : OW => s.fast = b) (fast_open dev fl p cfg b) (fun _ => ?_)
    refine Kept.bind (P := fun s : OW => s.fast = b) Kept.get (fun s => ?_)
    split
    · exact Kept.pure _
    · exact ih

theorem fast_closeIfFailed (dev : Device) (b : Bool) : Kept (fun s : OW => s.fast = b) (closeIfFailed dev) := by
  unfold closeIfFailed
  refine Kept.bind (P := fun s : OW => s.fast = b) Kept.get (fun s => ?_)
  split
  · exact fast_close dev b
  · exact Kept.pure _

theorem fast_connect (dev : Device) (fl : ElmM.FloatFn) (ports : List Str) (portstr : Option Str) (cfg : ElmM.Config) (b : Bool) :
    Kept (fun s : OW => s.fast = b) (connect dev fl ports portstr cfg) := by
  unfold connect
  split
  · split
    · exact Kept.pure _
    · exact Kept.bind (P := fun s : OW => s.fast = b) (fast_tryPorts dev fl cfg b ports) (fun _ => fast_closeIfFailed dev b)
  · exact Kept.bind (P := fun s : OW => s.fast = b) (fast_open dev fl _ cfg b) (fun _ => fast_closeIfFailed dev b)

theorem constructed_fast {dev : Device} {fl : ElmM.FloatFn} {a : Args} {s : OW} (h : Constructed dev fl a s) : s.fast = a.fast := by
  unfold Constructed construct at h
  obtain ⟨_, s1, h1, h⟩ := bind_inv h
  have h2 := fast_connect dev fl a.ports a.portstr a.cfg a.fast { supported := baseCommands, fast := a.fast } rfl
  rw [h1] at h2
  have := kept_loadCommands (ostable_fast dev a.fast) fl s1 h2
  rw [h] at this; exact this

end ObdM
end Model
