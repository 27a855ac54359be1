import Verif.Lemmas.Serial
/-!
# Exchanges with the adapter
-/
namespace Model
open Py Spec

/-- The object after the device was lost. -/
def lost (e : Elm) : Elm := { e with status := .notConnected, port := none }

theorem read_none {dev : Device} {marker : Bytes} {w : EW} (h : w.elm.port = none) : w.read dev marker = ([], w) := by
  unfold EW.read; rw [h]

theorem read_some (dev : Device) (marker : Bytes) (w : EW) (p : Port) (h : w.elm.port = some p) :
    (∃ b, w.read dev marker = (cleanLines b, { w with hist := w.hist ++ [.read (some b)] })) ∨
    w.read dev marker = ([], { elm := lost w.elm, hist := w.hist ++ [.read none, .close] }) := by
  unfold EW.read
  rw [h]
  simp only
  cases readLoop marker [] (dev.read w.hist) with
  | some b => exact Or.inl ⟨b, rfl⟩
  | none => exact Or.inr rfl

theorem write_none {dev : Device} {cmd : Bytes} {w : EW} (h : w.elm.port = none) : w.write dev cmd = w := by
  unfold EW.write; rw [h]

theorem write_some (dev : Device) (cmd : Bytes) (w : EW) (p : Port) (h : w.elm.port = some p) :
    w.write dev cmd = { w with hist := w.hist ++ [.write (line cmd) true] } ∨
    w.write dev cmd = { elm := lost w.elm, hist := w.hist ++ [.write (line cmd) false, .close] } := by
  unfold EW.write
  rw [h]
  simp only
  split
  · exact Or.inl rfl
  · exact Or.inr rfl

theorem retry_none {dev : Device} {marker : Bytes} (n : Nat) (w : EW) (h : w.elm.port = none) :
    EW.retry dev marker n ([], w) = ([], w) := by
  induction n with
  | zero => rfl
  | succ n ih => rw [EW.retry, if_pos (by simp)]; simp only [read_none h, ih]

abbrev reads (bs : List Bytes) : List Event := bs.map (fun b => Event.read (some b))

/-- The retry loop, from a port that is open. -/
theorem retry_cases (dev : Device) (marker : Bytes) (n : Nat) (b : Bytes) (w : EW) (p : Port) (h : w.elm.port = some p) :
    (∃ bs b', EW.retry dev marker n (cleanLines b, { w with hist := w.hist ++ [.read (some b)] }) =
        (cleanLines b', { w with hist := w.hist ++ (reads bs ++ [.read (some b')]) }) ∧
        (∀ x ∈ bs, cleanLines x = []) ∧ bs.length ≤ n) ∨
    (∃ bs, EW.retry dev marker n (cleanLines b, { w with hist := w.hist ++ [.read (some b)] }) =
        ([], { elm := lost w.elm, hist := w.hist ++ (reads bs ++ [.read none, .close]) }) ∧
        (∀ x ∈ bs, cleanLines x = [])) := by
  induction n generalizing b w with
  | zero => exact Or.inl ⟨[], b, by simp [EW.retry, reads], by simp, by simp⟩
  | succ n ih =>
    rw [EW.retry]
    by_cases he : cleanLines b = []
    · rw [if_pos (by simp [he])]
      rcases read_some dev marker { w with hist := w.hist ++ [.read (some b)] } p h with ⟨b', h'⟩ | h'
      · simp only [h']
        have := ih b' { w with hist := w.hist ++ [.read (some b)] } h
        rcases this with ⟨bs, b'', e, h1, h2⟩ | ⟨bs, e, h1⟩
        · left
          refine ⟨b :: bs, b'', ?_, ?_, by simp; omega⟩
          · rw [e]; simp [reads]
          · intro x hx; rcases List.mem_cons.1 hx with rfl | hx
            · exact he
            · exact h1 x hx
        · right
          refine ⟨b :: bs, ?_, ?_⟩
          · rw [e]; simp [reads]
          · intro x hx; rcases List.mem_cons.1 hx with rfl | hx
            · exact he
            · exact h1 x hx
      · simp only [h']
        rw [retry_none n _ rfl]
        right
        exact ⟨[b], by simp [reads], by simpa using he⟩
    · rw [if_neg (by simpa using he)]
      exact Or.inl ⟨[], b, by simp [reads], by simp, by simp⟩

/-- The three outcomes of sending a command through an open port. -/
inductive SendResult (cmd : Bytes) (w : EW) : List Str → EW → Prop
  | replied (bs : List Bytes) (b : Bytes) (h : ∀ x ∈ bs, cleanLines x = []) :
      SendResult cmd w (cleanLines b)
        { w with hist := w.hist ++ .write (line cmd) true :: (reads bs ++ [.read (some b)]) }
  | writeFailed :
      SendResult cmd w [] { elm := lost w.elm, hist := w.hist ++ [.write (line cmd) false, .close] }
  | readFailed (bs : List Bytes) (h : ∀ x ∈ bs, cleanLines x = []) :
      SendResult cmd w [] { elm := lost w.elm, hist := w.hist ++ .write (line cmd) true :: (reads bs ++ [.read none, .close]) }

theorem send_none {dev : Device} {cmd marker : Bytes} {delay : Bool} {w : EW} (h : w.elm.port = none) :
    w.send dev cmd delay marker = ([], w) := by
  unfold EW.send
  rw [write_none h, read_none h, retry_none _ _ h]

theorem send_some (dev : Device) (cmd : Bytes) (delay : Bool) (marker : Bytes) (w : EW) (p : Port)
    (h : w.elm.port = some p) :
    SendResult cmd w (w.send dev cmd delay marker).1 (w.send dev cmd delay marker).2 := by
  unfold EW.send
  rcases write_some dev cmd w p h with e | e
  · rw [e]
    generalize (if delay then 0 else 11) = n
    rcases read_some dev marker { w with hist := w.hist ++ [.write (line cmd) true] } p h with ⟨b, h'⟩ | h'
    · rw [h']
      rcases retry_cases dev marker n b { w with hist := w.hist ++ [.write (line cmd) true] } p h with
        ⟨bs, b', e, h1, -⟩ | ⟨bs, e, h1⟩
      · rw [e]
        have := SendResult.replied (cmd := cmd) (w := w) bs b' h1
        simpa using this
      · rw [e]
        have := SendResult.readFailed (cmd := cmd) (w := w) bs h1
        simpa using this
    · rw [h', retry_none n _ rfl]
      have := SendResult.readFailed (cmd := cmd) (w := w) [] (by simp)
      simpa [reads] using this
  · rw [e, read_none rfl, retry_none _ _ rfl]
    exact SendResult.writeFailed

/-- If the port is still there after a command, the command was answered. -/
theorem send_replied (dev : Device) (cmd : Bytes) (delay : Bool) (marker : Bytes) (w : EW)
    (h : (w.send dev cmd delay marker).2.elm.port ≠ none) :
    ∃ bs b, (∀ x ∈ bs, cleanLines x = []) ∧ w.elm.port ≠ none ∧ w.send dev cmd delay marker = (cleanLines b,
      { w with hist := w.hist ++ .write (line cmd) true :: (reads bs ++ [.read (some b)]) }) := by
  cases hp : w.elm.port with
  | none => rw [send_none hp] at h; exact absurd hp h
  | some p =>
    have := send_some dev cmd delay marker w p hp
    generalize hr : w.send dev cmd delay marker = r at *
    obtain ⟨l, w'⟩ := r
    cases this with
    | replied bs b hb => exact ⟨bs, b, hb, by simp, rfl⟩
    | writeFailed => exact absurd rfl h
    | readFailed => exact absurd rfl h

theorem send_lines (dev : Device) (cmd : Bytes) (delay : Bool) (marker : Bytes) (w : EW)
    (h : (w.send dev cmd delay marker).1 ≠ []) : (w.send dev cmd delay marker).2.elm.port ≠ none := by
  cases hp : w.elm.port with
  | none => rw [send_none hp] at h; exact absurd rfl h
  | some p =>
    have := send_some dev cmd delay marker w p hp
    generalize hr : w.send dev cmd delay marker = r at *
    obtain ⟨l, w'⟩ := r
    cases this with
    | replied bs b hb => simp [hp]
    | writeFailed => exact absurd rfl h
    | readFailed => exact absurd rfl h

theorem replied_append {h h' : History} {cmd : Bytes} {l : List Str} (hr : Replied h cmd l) : Replied (h ++ h') cmd l := by
  obtain ⟨pre, bs, b, post, e, h1, h2⟩ := hr
  exact ⟨pre, bs, b, post ++ h', by rw [e]; simp, h1, h2⟩

theorem linesOf_nil {b : Bytes} (h : cleanLines b = []) : LinesOf b [] := h ▸ cleanLines_spec b

theorem replied_here (h : History) (cmd : Bytes) (bs : List Bytes) (b : Bytes) (hb : ∀ x ∈ bs, cleanLines x = []) :
    Replied (h ++ .write (line cmd) true :: (reads bs ++ [.read (some b)])) cmd (cleanLines b) :=
  ⟨h, bs, b, [], by simp, cleanLines_spec b, fun x hx => linesOf_nil (hb x hx)⟩

/-! ## inversion of sequencing -/

theorem bind_inv {σ α β : Type} {m : PyM σ α} {f : α → PyM σ β} {s s' : σ} {b : β}
    (h : (m >>= f) s = (.ok b, s')) : ∃ a s1, m s = (.ok a, s1) ∧ f a s1 = (.ok b, s') := by
  rw [PyM.bind_apply] at h
  cases hm : m s with
  | mk r s1 =>
    rw [hm] at h
    cases r with
    | ok a => exact ⟨a, s1, rfl, h⟩
    | error e => cases h

/-- After a call, whatever its outcome: the history was extended; and if the port is still
open, it was open before and nothing failed. -/
def Tame {α : Type} (m : ElmM α) : Prop :=
  ∀ w, ∃ evs, (m w).2.hist = w.hist ++ evs ∧
    ((m w).2.elm.port ≠ none → w.elm.port ≠ none ∧ ∀ e ∈ evs, ¬ Failed e)

theorem Tame.bind {α β : Type} {m : ElmM α} {f : α → ElmM β} (hm : Tame m) (hf : ∀ a, Tame (f a)) : Tame (m >>= f) := by
  intro w
  obtain ⟨evs, h1, h2⟩ := hm w
  rw [PyM.bind_apply]
  cases hr : m w with
  | mk r w1 =>
    rw [hr] at h1 h2
    cases r with
    | error e => exact ⟨evs, h1, h2⟩
    | ok a =>
      obtain ⟨evs', h3, h4⟩ := hf a w1
      refine ⟨evs ++ evs', by rw [h3, h1, List.append_assoc], fun hp => ?_⟩
      obtain ⟨h5, h6⟩ := h4 hp
      obtain ⟨h7, h8⟩ := h2 h5
      exact ⟨h7, fun e he => by
        rcases List.mem_append.1 he with h | h
        · exact h8 e h
        · exact h6 e h⟩

theorem Tame.pure {α : Type} (a : α) : Tame (Pure.pure a : ElmM α) := fun w => ⟨[], by simp, fun h => ⟨h, by simp⟩⟩
theorem Tame.throw {α : Type} (e : Exc) : Tame (PyM.throw e : ElmM α) := fun w => ⟨[], by simp, fun h => ⟨h, by simp⟩⟩
theorem Tame.getElm : Tame ElmM.getElm := fun w => ⟨[], by simp [ElmM.getElm], fun h => ⟨h, by simp⟩⟩
theorem Tame.ofExcept {α : Type} (x : Except Exc α) : Tame (PyM.ofExcept x : ElmM α) :=
  fun w => ⟨[], by simp, fun h => ⟨h, by simp⟩⟩
theorem Tame.modifyElm (f : Elm → Elm) (hf : ∀ e, (f e).port ≠ none → e.port ≠ none) : Tame (ElmM.modifyElm f) :=
  fun w => ⟨[], by simp [ElmM.modifyElm], fun h => ⟨hf _ h, by simp⟩⟩

theorem notFailed_reads (bs : List Bytes) (e : Event) (h : e ∈ reads bs) : ¬ Failed e := by
  obtain ⟨b, -, rfl⟩ := List.mem_map.1 h
  rintro (⟨b, h⟩ | h) <;> cases h

theorem notFailed_exchange (cmd : Bytes) (bs : List Bytes) (b : Bytes) :
    ∀ e ∈ Event.write (line cmd) true :: (reads bs ++ [.read (some b)]), ¬ Failed e := by
  intro e he
  rcases List.mem_cons.1 he with rfl | he
  · rintro (⟨b, h⟩ | h) <;> cases h
  · rcases List.mem_append.1 he with he | he
    · exact notFailed_reads bs e he
    · rw [List.mem_singleton] at he; subst he
      rintro (⟨b, h⟩ | h) <;> cases h

theorem Tame.send (dev : Device) (cmd : Bytes) (delay : Bool) (marker : Bytes) : Tame (ElmM.send dev cmd delay marker) := by
  intro w
  simp only [ElmM.send, PyM.lift_apply]
  cases hp : w.elm.port with
  | none => rw [send_none hp]; exact ⟨[], by simp, fun h => absurd hp h⟩
  | some p =>
    have := send_some dev cmd delay marker w p hp
    generalize hr : w.send dev cmd delay marker = r at *
    obtain ⟨l, w'⟩ := r
    cases this with
    | replied bs b hb => exact ⟨_, rfl, fun _ => ⟨by simp, notFailed_exchange cmd bs b⟩⟩
    | writeFailed => exact ⟨_, rfl, fun h => absurd rfl h⟩
    | readFailed => exact ⟨_, rfl, fun h => absurd rfl h⟩

theorem Tame.write (dev : Device) (cmd : Bytes) : Tame (ElmM.write dev cmd) := by
  intro w
  simp only [ElmM.write]
  cases hp : w.elm.port with
  | none => rw [write_none hp]; exact ⟨[], by simp, fun h => absurd hp h⟩
  | some p =>
    rcases write_some dev cmd w p hp with e | e
    · rw [e]; exact ⟨_, rfl, fun _ => ⟨by simp, by
        intro e he; rw [List.mem_singleton] at he; subst he
        rintro (⟨b, h⟩ | h) <;> cases h⟩⟩
    · rw [e]; exact ⟨_, rfl, fun h => absurd rfl h⟩

end Model
