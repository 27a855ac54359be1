import Verif.Spec.Commands
import Verif.Lemmas.Tables
import Verif.Lemmas.Can
/-!
# C22-C26: commands and the command tables
-/
namespace Props
open Py Model Spec

/-! ## C22, C23 -/

instance (bs : Bytes) (ds : List Nat) : Decidable (AsciiHex bs ds) := by unfold AsciiHex; infer_instance

theorem and_pos_iff (a b : Nat) : 0 < a &&& b ↔ Overlap a b := by
  rw [Nat.pos_iff_ne_zero]
  constructor
  · intro h
    obtain ⟨i, hi⟩ := Nat.exists_testBit_of_ne_zero h
    rw [Nat.testBit_and, Bool.and_eq_true] at hi
    exact ⟨i, hi⟩
  · rintro ⟨i, h1, h2⟩ h
    have : (a &&& b).testBit i = true := by rw [Nat.testBit_and, h1, h2]; rfl
    rw [h] at this; simp at this

instance (a b : Nat) : Decidable (Overlap a b) := decidable_of_iff _ (and_pos_iff a b)

theorem constrain_eq (c : OBDCommand) (m : Message) : c.constrain m = { m with data := fit c.bytes m.data } := by
  unfold OBDCommand.constrain fit
  by_cases h0 : c.bytes = 0
  · simp [h0]
  · rw [if_pos (by omega), if_neg h0]
    split
    · next h => rw [List.take_append_of_le_length (by omega)]
    · split
      · next h =>
        rw [List.take_append, List.take_of_length_le (by omega), List.take_replicate,
          Nat.min_eq_left (by omega)]
      · next h1 h2 =>
        have : m.data.length = c.bytes := by omega
        rw [← this]; simp

theorem call_eq (fl : Str → Option PyFloat) (c : OBDCommand) (ms : List Message) :
    c.call fl ms =
      let got := (ms.filter (fun m => decide (Overlap c.ecu m.ecu))).map (fun m => { m with data := fit c.bytes m.data })
      if got = [] then .ok { command := some c }
      else match c.decode.run fl got with
        | .ok v => .ok { command := some c, messages := got, value := v }
        | .error e => .error e := by
  unfold OBDCommand.call
  have h1 : ms.filter (fun m => decide ((c.ecu &&& m.ecu) > 0)) = ms.filter (fun m => decide (Overlap c.ecu m.ecu)) := by
    apply List.filter_congr
    intro m _
    exact decide_eq_decide.2 (and_pos_iff _ _)
  rw [h1, funext (constrain_eq c)]
  simp only [List.isEmpty_iff, bind, Except.bind, pure, Except.pure]
  split
  · next h => rw [h]
  · cases c.decode.run fl _ <;> rfl

/-- C22: the messages of a response are exactly those with a tag in the command's filter, in
order (same frames, hence same text, and same tag). -/
theorem C22_messages (fl : Str → Option PyFloat) (c : OBDCommand) (ms : List Message) (r : Response)
    (h : c.call fl ms = .ok r) :
    r.messages.map (fun m => (m.frames, m.ecu)) =
      (ms.filter (fun m => decide (Overlap c.ecu m.ecu))).map (fun m => (m.frames, m.ecu)) := by
  rw [call_eq] at h
  simp only at h
  split at h
  · next h0 =>
    injection h with h; subst h
    simp only [List.map_eq_nil_iff] at h0
    rw [h0]
  · split at h
    · injection h with h; subst h
      rw [List.map_map]
      apply List.map_congr_left
      intro m _
      rfl
    · simp at h

/-- Two messages, of which one is the transmission's: the engine command keeps the engine's. -/
example : ((mkCmd "RPM" "" "010C" 4 .drop ECU.engine true).call (fun _ => none) [{ frames := [], ecu := ECU.engine, data := [0x41, 0x0C, 0x1A] },
      { frames := [], ecu := ECU.transmission, data := [0x41, 0x0C, 0x1B, 0x00] }]).map (fun r => r.messages.map (fun m => (m.frames, m.ecu))) =
    .ok [([], ECU.engine)] := by decide +kernel

/-- C22: without such a message the decoder is not called, whatever it is, and the response
is null. -/
theorem C22_null (fl : Str → Option PyFloat) (c : OBDCommand) (ms : List Message)
    (h : ∀ m ∈ ms, ¬ Overlap c.ecu m.ecu) :
    ∃ r, c.call fl ms = .ok r ∧ r.isNull = true ∧ r.messages = [] ∧ r.value = .none := by
  refine ⟨{ command := some c }, ?_, rfl, rfl, rfl⟩
  rw [call_eq]
  have : ms.filter (fun m => decide (Overlap c.ecu m.ecu)) = [] := by
    rw [List.filter_eq_nil_iff]
    intro m hm; simpa using h m hm
  rw [this]
  rfl

/-- A decoder that raises: it is not called for the messages of other ECUs. -/
example : ∃ r, (mkCmd "X" "" "010C" 4 (.custom (fun _ => .error .typeError)) ECU.engine true).call (fun _ => none)
      [{ frames := [], ecu := ECU.transmission, data := [0x41, 0x0C, 0x1B, 0x00] }] = .ok r ∧ r.isNull = true ∧ r.messages = [] ∧ r.value = .none :=
  C22_null _ _ _ (by
    intro m hm
    rw [List.mem_singleton] at hm
    subst hm
    decide)

/-- C22, C23: a custom decoder is called once, with the messages of the command's ECUs whose
data is fitted to the declared size; its result (value or exception) is the result. -/
theorem C23_custom (fl : Str → Option PyFloat) (c : OBDCommand) (f : List Message → Except Exc Value)
    (hc : c.decode = .custom f) (ms : List Message) (h : ∃ m ∈ ms, Overlap c.ecu m.ecu) :
    (c.call fl ms).map Response.value =
      f ((ms.filter (fun m => decide (Overlap c.ecu m.ecu))).map (fun m => { m with data := fit c.bytes m.data })) := by
  rw [call_eq]
  simp only
  rw [if_neg]
  · rw [hc]
    show Except.map _ (match f _ with | .ok v => _ | .error e => _) = _
    cases f _ <;> rfl
  · rw [List.map_eq_nil_iff, List.filter_eq_nil_iff]
    obtain ⟨m, h1, h2⟩ := h
    intro h3
    exact h3 m h1 (by simpa using h2)

/-- C23: every message handed to the decoder of a command declaring `n > 0` bytes has
exactly `n` data bytes. -/
theorem C23_size (fl : Str → Option PyFloat) (c : OBDCommand) (hn : 0 < c.bytes) (ms : List Message)
    (r : Response) (h : c.call fl ms = .ok r) (m : Message) (hm : m ∈ r.messages) :
    m.data.length = c.bytes := by
  rw [call_eq] at h
  simp only at h
  split at h
  · injection h with h; subst h; simp at hm
  · split at h
    · injection h with h; subst h
      obtain ⟨m', _, rfl⟩ := List.mem_map.1 hm
      simp only [fit]
      rw [if_neg (by omega)]
      simp
    · simp at h

/-- C23: the received bytes are cut to `n`, or followed by zeros; unchanged for `n = 0`. -/
theorem C23_data (fl : Str → Option PyFloat) (c : OBDCommand) (ms : List Message) (r : Response)
    (h : c.call fl ms = .ok r) :
    r.messages.map Message.data =
      (ms.filter (fun m => decide (Overlap c.ecu m.ecu))).map (fun m => fit c.bytes m.data) ∧
    (c.bytes = 0 → ∀ m ∈ ms, fit c.bytes m.data = m.data) ∧
    (∀ m ∈ ms, 0 < c.bytes → c.bytes ≤ m.data.length → fit c.bytes m.data = m.data.take c.bytes) ∧
    (∀ m ∈ ms, 0 < c.bytes → m.data.length ≤ c.bytes →
      fit c.bytes m.data = m.data ++ List.replicate (c.bytes - m.data.length) 0) := by
  refine ⟨?_, ?_, ?_, ?_⟩
  · rw [call_eq] at h
    simp only at h
    split at h
    · next h0 =>
      injection h with h; subst h
      simp only [List.map_eq_nil_iff] at h0
      rw [h0]; rfl
    · split at h
      · injection h with h; subst h
        rw [List.map_map]; rfl
      · simp at h
  · intro h0 m _; simp [fit, h0]
  · intro m _ h1 h2
    rw [fit, if_neg (by omega), List.take_append_of_le_length h2]
  · intro m _ h1 h2
    rw [fit, if_neg (by omega), List.take_append, List.take_of_length_le h2, List.take_replicate,
      Nat.min_eq_left (by omega)]

/-- Hypotheses met: an engine command, an engine reply that is too short and another one. -/
example : ((mkCmd "RPM" "" "010C" 4 (.custom (fun ms => .ok (.bytes (ms.flatMap Message.data)))) ECU.engine true).call
    (fun _ => none) [{ frames := [], ecu := ECU.engine, data := [0x41, 0x0C, 0x1A] },
      { frames := [], ecu := ECU.transmission, data := [0x41, 0x0C, 0x1B, 0x00] },
      { frames := [], ecu := ECU.engine, data := [0x41, 0x0C, 0x1A, 0xF8, 0x55] }]).map
      (fun r => (r.messages.map Message.data, r.value)) =
    .ok ([[0x41, 0x0C, 0x1A, 0], [0x41, 0x0C, 0x1A, 0xF8]], .bytes [0x41, 0x0C, 0x1A, 0, 0x41, 0x0C, 0x1A, 0xF8]) := by
  decide +kernel

/-! ## C24 -/

/-- C24: equality is equality of command bytes and header. -/
theorem C24_eq (a b : OBDCommand) : a.eq b = true ↔ a.command = b.command ∧ a.header = b.header := by
  simp [OBDCommand.eq]

/-- C24: equality is an equivalence. -/
theorem C24_equivalence (a b c : OBDCommand) :
    a.eq a = true ∧ (a.eq b = true → b.eq a = true) ∧ (a.eq b = true → b.eq c = true → a.eq c = true) := by
  simp only [C24_eq]
  refine ⟨⟨trivial, trivial⟩, fun h => ⟨h.1.symm, h.2.symm⟩, fun h h' => ⟨h.1.trans h'.1, h.2.trans h'.2⟩⟩

/-- C24: equal commands hash equally. -/
theorem C24_hash (a b : OBDCommand) (h : a.eq b = true) : a.hashKey = b.hashKey := by
  obtain ⟨h1, h2⟩ := (C24_eq a b).1 h
  unfold OBDCommand.hashKey; rw [h1, h2]

/-- C24: a clone is equal to its original, and has the same attributes. -/
theorem C24_clone (a : OBDCommand) : a.clone.eq a = true ∧ a.clone = a := ⟨(C24_eq _ _).2 ⟨rfl, rfl⟩, rfl⟩

example : (mkCmd "A" "x" "010C" 4 .drop ECU.engine true).eq (mkCmd "B" "y" "010C" 2 .count ECU.all false) = true ∧
    (mkCmd "A" "x" "010C" 4 .drop ECU.engine true).eq
      { mkCmd "A" "x" "010C" 4 .drop ECU.engine true with header := ascii "7E1" } = false := by decide

/-! ## C25 -/

theorem utf8_ascii : ∀ (bs : Bytes), (∀ b ∈ bs, b.toNat < 128) →
    utf8Strict none bs = .ok (bs.map (fun b => Char.ofNat b.toNat))
  | [], _ => rfl
  | b :: bs, h => by
    have hb := h b (List.mem_cons_self ..)
    rw [utf8Strict]
    have : utf8Start b = .char (Char.ofNat b.toNat) := by unfold utf8Start; rw [if_pos hb]
    rw [this]
    simp only
    rw [utf8_ascii bs (fun x hx => h x (List.mem_cons_of_mem _ hx))]
    rfl

theorem digit_ascii : ∀ n : Fin 256, digit? (Char.ofNat n.val) ≠ none → n.val < 128 := by decide +kernel

theorem asciiHex_ascii {bs : Bytes} {ds : List Nat} (h : AsciiHex bs ds) : ∀ b ∈ bs, b.toNat < 128 := by
  intro b hb
  apply digit_ascii ⟨b.toNat, b.toNat_lt⟩
  intro hn
  have : digit? (Char.ofNat b.toNat) ∈ bs.map (fun b => digit? (Char.ofNat b.toNat)) :=
    List.mem_map.2 ⟨b, hb, rfl⟩
  rw [h] at this
  obtain ⟨d, _, hd⟩ := List.mem_map.1 this
  rw [← hd] at hn; simp at hn

theorem intOfHex_eq (s : Str) (ds : List Nat) (h : s.map digit? = ds.map some) : intOfHex s = hexValue ds := by
  have key : ∀ (s : Str) (ds : List Nat) (acc : Nat), s.map digit? = ds.map some →
      s.foldl (fun acc c => 16 * acc + (hexVal c).getD 0) acc = acc * 16 ^ ds.length + hexValue ds := by
    intro s
    induction s with
    | nil => intro ds acc h; cases ds <;> simp_all [hexValue]
    | cons c s ih =>
      intro ds acc h
      cases ds with
      | nil => simp at h
      | cons d ds =>
        simp only [List.map_cons, List.cons.injEq] at h
        rw [List.foldl_cons, ih ds _ h.2, ← digit?_eq, h.1, hexValue, List.length_cons, Nat.pow_succ]
        simp only [Option.getD_some]
        rw [Nat.add_mul]
        have : 16 * acc * 16 ^ ds.length = acc * (16 ^ ds.length * 16) := by
          rw [Nat.mul_comm 16 acc, Nat.mul_assoc, Nat.mul_comm 16]
        omega
  have := key s ds 0 h
  simpa [intOfHex] using this

/-- C25: mode and PID of a command of hex digits. -/
theorem C25_hex (c : OBDCommand) (ds : List Nat) (h : AsciiHex c.command ds) :
    c.mode = .ok (if ds.length < 2 then none else some (hexValue (ds.take 2))) ∧
    c.pid = .ok (if ds.length ≤ 2 then none else some (hexValue (ds.drop 2))) := by
  have hlen : c.command.length = ds.length := by
    have := congrArg List.length h; simpa using this
  have hhex : c.hexCommand = .ok true := by
    unfold OBDCommand.hexCommand
    rw [utf8_ascii _ (asciiHex_ascii h)]
    show Except.ok _ = _
    rw [isHex_of_digits _ ds (by rw [List.map_map]; exact h)]
  have htake : ((c.command.take 2).map OBDCommand.byteChar).map digit? = (ds.take 2).map some := by
    rw [List.map_take (f := some), ← h, List.map_map, List.map_take]; rfl
  have hdrop : ((c.command.drop 2).map OBDCommand.byteChar).map digit? = (ds.drop 2).map some := by
    rw [List.map_drop (f := some), ← h, List.map_map, List.map_drop]; rfl
  constructor
  · unfold OBDCommand.mode
    rw [hhex, hlen]
    simp only [bind, Except.bind, pure, Except.pure]
    by_cases h2 : ds.length < 2
    · rw [if_pos h2, if_neg (by omega)]
    · rw [if_neg h2, if_pos (by omega), if_pos trivial, intOfHex_eq _ _ htake]
  · unfold OBDCommand.pid
    rw [hhex, hlen]
    simp only [bind, Except.bind, pure, Except.pure]
    by_cases h2 : ds.length ≤ 2
    · rw [if_pos h2, if_neg (by omega)]
    · rw [if_neg h2, if_pos (by omega), if_pos trivial, intOfHex_eq _ _ hdrop]

/-- C25: any other ASCII command has neither. -/
theorem C25_other (c : OBDCommand) (hascii : ∀ b ∈ c.command, b.toNat < 128)
    (h : ∃ b ∈ c.command, digit? (Char.ofNat b.toNat) = none) : c.mode = .ok none ∧ c.pid = .ok none := by
  have hhex : c.hexCommand = .ok false := by
    unfold OBDCommand.hexCommand
    rw [utf8_ascii _ hascii]
    show Except.ok _ = _
    obtain ⟨b, hb, hd⟩ := h
    rw [digit?_eq] at hd
    have : isHex (c.command.map (fun b => Char.ofNat b.toNat)) = false := by
      unfold isHex
      rw [List.all_eq_false]
      exact ⟨_, List.mem_map.2 ⟨b, hb, rfl⟩, by simp [isHexDigit, hd]⟩
    rw [this]
  constructor
  · unfold OBDCommand.mode
    rw [hhex]
    simp only [bind, Except.bind, pure, Except.pure]
    split <;> rfl
  · unfold OBDCommand.pid
    rw [hhex]
    simp only [bind, Except.bind, pure, Except.pure]
    split <;> rfl

example : AsciiHex (ascii "220A1c") [2, 2, 0, 10, 1, 12] ∧ hexValue [0, 10, 1, 12] = 0x0A1C := by
  constructor <;> decide +kernel
example : (∀ b ∈ ascii "ATRV", b.toNat < 128) ∧ ∃ b ∈ ascii "ATRV", digit? (Char.ofNat b.toNat) = none := by
  decide +kernel

/-! ## C26 -/

/-- What is expected of the command at position (m, p) of the tables. -/
def EntryOk (m p : Nat) (c : OBDCommand) : Prop :=
  c.mode = .ok (some m) ∧ (c.pid = .ok (some p) ∨ (c.pid = .ok none ∧ p = 0))

instance (m p : Nat) (c : OBDCommand) : Decidable (EntryOk m p c) := by unfold EntryOk; infer_instance

theorem entries_ok : modes.zipIdx.all (fun x => x.1.zipIdx.all (fun y => match y.1 with
    | none => true
    | some c => decide (EntryOk x.2 y.2 c))) = true := by decide +kernel

/-- C26: `has_pid(m, p)` holds exactly when `commands[m][p]` is a command. -/
theorem C26_has_pid (m p : Int) : hasPid m p = true ↔
    ∃ (i j : Nat) (l : List (Option OBDCommand)) (c : OBDCommand),
      m = i ∧ p = j ∧ getMode i = .ok l ∧ l[j]? = some (some c) := by
  unfold hasPid getMode idx
  split
  · next h =>
    simp only [Bool.false_eq_true, false_iff]
    rintro ⟨i, j, _, _, rfl, rfl, _⟩
    omega
  · next h =>
    constructor
    · intro h2
      refine ⟨m.toNat, p.toNat, ?_⟩
      split at h2
      · simp at h2
      · next l hl =>
        split at h2
        · next c hc => exact ⟨l, c, by omega, by omega, by rw [hl], hc⟩
        · simp at h2
    · rintro ⟨i, j, l, c, rfl, rfl, h3, h4⟩
      simp only [Int.toNat_natCast]
      split at h3
      · next l' hl => injection h3 with h3; subst h3; rw [hl]; simp only; rw [h4]
      · simp at h3

/-- C26: the command at position (m, p) has mode m and PID p, or no PID and p = 0. -/
theorem C26_position (i j : Nat) (l : List (Option OBDCommand)) (c : OBDCommand)
    (h1 : getMode i = .ok l) (h2 : l[j]? = some (some c)) :
    c.mode = .ok (some i) ∧ (c.pid = .ok (some j) ∨ (c.pid = .ok none ∧ j = 0)) := by
  have hl : modes[i]? = some l := by
    unfold getMode idx at h1
    split at h1
    · next h => injection h1 with h1; rw [h, h1]
    · simp at h1
  have h := entries_ok
  rw [List.all_eq_true] at h
  have h3 := h (l, i) (by rw [List.mem_zipIdx_iff_getElem?]; exact hl)
  rw [List.all_eq_true] at h3
  have h4 := h3 (some c, j) (by rw [List.mem_zipIdx_iff_getElem?]; exact h2)
  exact of_decide_eq_true h4

/-- `commands[1][12]`, the engine speed, and `commands[3][0]`, the trouble codes, which have no PID. -/
example : (∃ l c, getMode 1 = .ok l ∧ l[12]? = some (some c) ∧ c.name = "RPM" ∧ c.pid = .ok (some 12)) ∧
    (∃ l c, getMode 3 = .ok l ∧ l[0]? = some (some c) ∧ c.name = "GET_DTC" ∧ c.pid = .ok none) :=
  ⟨⟨_, _, rfl, rfl, rfl, by decide +kernel⟩, ⟨_, _, rfl, rfl, rfl, by decide +kernel⟩⟩

/-- C26: a mode-02 command is the mode-01 command of the same PID: mode changed, PID digits,
size, ECU and decoder the same, except that PID listings are dropped. -/
theorem C26_mode2 (j : Nat) : (∃ l1 l2, getMode 1 = .ok l1 ∧ getMode 2 = .ok l2 ∧ l1.length = l2.length ∧
    (∀ c2, l2[j]? = some (some c2) → ∃ c1, l1[j]? = some (some c1) ∧
      c2.command = ascii "02" ++ c1.command.drop 2 ∧ c1.command.take 2 = ascii "01" ∧
      c2.bytes = c1.bytes ∧ c2.ecu = c1.ecu ∧ c2.fast = c1.fast ∧ c2.header = c1.header ∧
      c2.name = "DTC_" ++ c1.name ∧
      c2.decode = (if c1.decode.isPid then .drop else c1.decode)) ∧
    (∀ c1, l1[j]? = some (some c1) → ∃ c2, l2[j]? = some (some c2))) := by
  refine ⟨mode1, mode2, rfl, rfl, by simp [mode2], ?_, ?_⟩
  · intro c2 h
    simp only [mode2, List.getElem?_map, Option.map_eq_some_iff] at h
    obtain ⟨o, h1, c1, h2, h3⟩ := h
    subst h2; subst h3
    refine ⟨c1, h1, rfl, ?_, rfl, rfl, rfl, rfl, rfl, rfl⟩
    have ht : mode1.all (fun o => match o with
      | none => true
      | some c => c.command.take 2 == ascii "01") = true := by decide +kernel
    rw [List.all_eq_true] at ht
    have := ht (some c1) (List.mem_of_getElem? h1)
    simpa using this
  · intro c1 h
    exact ⟨toMode2 c1, by simp [mode2, List.getElem?_map, h]⟩

/-- The freeze frame command of the engine speed. -/
example : (∃ l c, getMode 2 = .ok l ∧ l[12]? = some (some c) ∧ c.name = "DTC_RPM" ∧ c.command = ascii "020C") :=
  ⟨_, _, rfl, rfl, by decide +kernel, by decide +kernel⟩

/-- C26: no two commands of the tables are equal (send the same bytes under the same header). -/
theorem C26_distinct : allCommands.Pairwise (fun a b => a.eq b = false) := by
  have h := commands_nodup
  rw [List.Nodup, List.pairwise_map] at h
  refine h.imp ?_
  intro a b hab
  cases he : a.eq b with
  | false => rfl
  | true =>
    obtain ⟨h1, h2⟩ := (C24_eq a b).1 he
    exact absurd (by rw [h1, h2]) hab

/-- C26: no two commands of the tables share a name. -/
theorem C26_names : (allCommands.map OBDCommand.name).Nodup := names_nodup

/-- C26: hence every command is found by its name. -/
theorem C26_by_name (c : OBDCommand) (h : c ∈ allCommands) : byName c.name = some c := by
  unfold byName
  have hn := C26_names
  generalize allCommands = l at h hn
  have hr : c ∈ l.reverse := by simpa using h
  have hn' : (l.reverse.map OBDCommand.name).Nodup := by
    rw [List.map_reverse]; exact List.pairwise_reverse.2 (hn.imp fun h h' => h h'.symm)
  generalize l.reverse = r at hr hn'
  induction r with
  | nil => simp at hr
  | cons x r ih =>
    rw [List.find?_cons]
    rw [List.map_cons, List.nodup_cons] at hn'
    rcases List.mem_cons.1 hr with rfl | hr
    · simp
    · have : (x.name == c.name) = false := by
        rw [beq_eq_false_iff_ne]
        intro h'
        exact hn'.1 (h' ▸ List.mem_map.2 ⟨c, hr, rfl⟩)
      rw [this]
      exact ih hr hn'.2

example : hasPid 1 12 = true ∧ hasPid 3 0 = true ∧ hasPid 5 0 = false ∧ hasPid (-1) 3 = false ∧
    hasPid 1 (-1) = false ∧ hasPid 6 0x1000 = false ∧ hasPid 100 0 = false := by decide +kernel
example : (byName "RPM").map (fun c => (c.command, c.bytes)) = some (ascii "010C", 4) := by decide +kernel

end Props
