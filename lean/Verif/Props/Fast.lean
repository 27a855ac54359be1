import Verif.Lemmas.Acked
import Verif.Lemmas.Counts
import Verif.Props.Query
/-!
# Fast mode: repeats and frame counts (C47, C48)
-/
namespace Props
open Py Model Spec ObdM

/-! ## C47: repeating with a carriage return -/

/-- The property in full: when a query sends only a carriage return, the last command that
arrived at the adapter before is the command being queried (perhaps with a frame count). -/
def C47_full : Prop :=
  ∀ (dev : Device) (fl : Str → Option PyFloat) (a : Args) (s0 : OW), Constructed dev fl a s0 →
  ∀ (calls : List Call) (c : OBDCommand) (force : Bool), c.command ≠ [] →
  ∀ s, s = session dev fl calls s0 → ∀ evs, (query dev fl c force s).2.hist = s.hist ++ evs →
  ∀ e1 ok e2, evs = e1 ++ .write (line []) ok :: e2 →
    ∃ str, CommandString c str ∧ LastCommand (s.hist ++ e1) str

theorem lastCommand_filter {h : History} {cmd : Bytes} (hl : LastCommand h cmd) (hc : cmd ≠ []) :
    ((written h).filter (fun b => b != line [])).getLast? = some (line cmd) := by
  obtain ⟨pre, post, rfl, hp⟩ := hl
  have h1 : written (Event.write (line cmd) true :: post) = line cmd :: written post := rfl
  rw [written_append, h1]
  have h2 : (written post).filter (fun b => b != line []) = [] := by
    rw [List.filter_eq_nil_iff]
    intro b hb; simp [hp b hb]
  have h3 : (line cmd != line []) = true := by
    rw [bne_iff_ne]; intro h; exact hc (line_inj h)
  rw [List.filter_append, List.filter_cons, h2, if_pos h3]
  simp

/-- It does not hold: after a change of the header the carriage return repeats that change
(010C under header 7E1, then under 7E0: `AT SH 7E0` and a carriage return are sent). -/
theorem C47_refuted : ¬ C47_full := by
  intro h
  obtain ⟨str, h1, h2⟩ := h (demo table) fl0 _ _ (demoObd_constructed true)
    [.query { rpmCommand with header := ascii "7E1" } true] rpmCommand true (by decide) _ rfl
    [.write (ascii "AT SH 7E0 \r") true, .read (some (ascii "OK\r\r>")), .write (ascii "\r") true, .read (some (ascii "7E8 04 41 0C 1A F8\r\r>"))]
    (by decide +kernel) [.write (ascii "AT SH 7E0 \r") true, .read (some (ascii "OK\r\r>"))] true _ rfl
  have hs : ∃ t, str = ascii "010C" ++ t := by
    rcases h1 with h1 | ⟨n, h1⟩
    · exact ⟨[], h1⟩
    · exact ⟨_, h1⟩
  obtain ⟨t, rfl⟩ := hs
  have h3 := lastCommand_filter h2 (by simp [ascii])
  have h4 : ((written ((session (demo table) fl0 [.query { rpmCommand with header := ascii "7E1" } true] (demoObd true)).hist ++
      [.write (ascii "AT SH 7E0 \r") true, .read (some (ascii "OK\r\r>"))])).filter (fun b => b != line [])).getLast? = some (ascii "AT SH 7E0 \r") := by decide +kernel
  rw [h4] at h3
  simp [line, ascii] at h3

/-- Also not after `low_power()`: the carriage return comes after the wake-up. -/
theorem C47_refuted_power : ¬ C47_full := by
  intro h
  obtain ⟨str, h1, h2⟩ := h (demo table) fl0 _ _ (demoObd_constructed true)
    [.query rpmCommand true, .query rpmCommand true, .lowPower] rpmCommand true (by decide) _ rfl
    [.write (ascii " \r") true, .read (some (ascii "OK\r\r>")), .write (ascii "\r") true, .read (some (ascii "7E8 04 41 0C 1A F8\r\r>"))]
    (by decide +kernel) [.write (ascii " \r") true, .read (some (ascii "OK\r\r>"))] true _ rfl
  have hs : ∃ t, str = ascii "010C" ++ t := by
    rcases h1 with h1 | ⟨n, h1⟩
    · exact ⟨[], h1⟩
    · exact ⟨_, h1⟩
  obtain ⟨t, rfl⟩ := hs
  have h3 := lastCommand_filter h2 (by simp [ascii])
  have h4 : ((written ((session (demo table) fl0 [.query rpmCommand true, .query rpmCommand true, .lowPower] (demoObd true)).hist ++
      [.write (ascii " \r") true, .read (some (ascii "OK\r\r>"))])).filter (fun b => b != line [])).getLast? = some (ascii " \r") := by decide +kernel
  rw [h4] at h3
  simp [line, ascii] at h3

/-- If every earlier query returned (an exception in the parser also leaves the library with
an outdated idea of the last command): the command being queried is the last one that
arrived, apart from repeats, header changes, wake-ups and `ATLP`.  So if none of these three
came in between, the property holds. -/
theorem C47_partial (dev : Device) (fl : Str → Option PyFloat) (a : Args) (s0 : OW) (hc : Constructed dev fl a s0)
    (calls : List Call) (s : OW) (hr : Ran dev fl s0 calls s) (c : OBDCommand) (force : Bool) (hcc : c.command ≠ []) :
    ∃ evs, (query dev fl c force s).2.hist = s.hist ++ evs ∧
      ∀ e1 ok e2, evs = e1 ++ .write (line []) ok :: e2 → ∃ str, CommandString c str ∧
        ∃ pre post, s.hist ++ e1 = pre ++ .write (line str) true :: post ∧ (∀ b ∈ written post, Housekeeping b) ∧
          ((∀ b ∈ written post, ¬ (SetsHeader b ∨ b = line (ascii " ") ∨ b = line (ascii "ATLP"))) → LastCommand (s.hist ++ e1) str) := by
  obtain ⟨h1, h2⟩ := constructed_recalls hc
  obtain ⟨hs, hrec⟩ := recalls_ran hr h1 h2
  rcases query_cases dev fl c force s with ⟨h3, -⟩ | ⟨x, h3, -⟩ | ⟨h3, hst, -⟩
  · rw [h3]; exact ⟨[], by simp, by simp⟩
  · rw [h3]; exact ⟨[], by simp, by simp⟩
  · obtain ⟨e, o, hl⟩ := live_of_sound hs hst
    obtain ⟨evs, p, q, h4, -, h5, -, h6, -⟩ := exchange_plan (dev := dev) (fl := fl) (c := c) hl
    rw [h3]
    refine ⟨evs, h4, ?_⟩
    intro e1 ok e2 he
    -- the only empty line is the command itself
    have hbuild : buildCommand s c = [] := by
      have hm : line [] ∈ sent evs := by rw [he, sent_append]; simp [sent]
      rw [h6] at hm
      obtain ⟨x, hx, hxe⟩ := List.mem_map.1 hm
      have := line_inj hxe
      subst this
      have hx' : [] ∈ plan s e c := by rw [h5]; simp [hx]
      rw [plan] at hx'
      rcases List.mem_append.1 hx' with hx | hx
      · unfold wake at hx
        split at hx
        · simp [ascii] at hx
        · cases hx
      · rcases List.mem_append.1 hx with hx | hx
        · split at hx
          · cases hx
          · simp [headerLine, ascii] at hx
        · rw [List.mem_singleton] at hx; exact hx.symm
    have hwc : withCount s c ≠ [] ∧ CommandString c (withCount s c) := by
      unfold withCount
      split
      · split
        · exact ⟨by simp [hcc], Or.inr ⟨_, rfl⟩⟩
        · exact ⟨hcc, Or.inl rfl⟩
      · exact ⟨hcc, Or.inl rfl⟩
    have hlc : withCount s c = s.lastCommand := by
      unfold buildCommand at hbuild
      split at hbuild
      · rename_i h; simp at h; exact h.2
      · exact absurd hbuild hwc.1
    obtain ⟨pre, post, h7, h8⟩ := hrec hst (hlc ▸ hwc.1)
    have hhouse : ∀ b ∈ sent evs, Housekeeping b := by
      intro b hb
      rw [h6] at hb
      obtain ⟨x, hx, rfl⟩ := List.mem_map.1 hb
      have hx' : x ∈ plan s e c := by rw [h5]; simp [hx]
      rw [plan, hbuild] at hx'
      rcases List.mem_append.1 hx' with hx | hx
      · exact house_wake e _ (List.mem_map.2 ⟨x, hx, rfl⟩)
      · rcases List.mem_append.1 hx with hx | hx
        · split at hx
          · cases hx
          · rw [List.mem_singleton] at hx; exact Or.inr (Or.inl ⟨c.header, by rw [hx]⟩)
        · rw [List.mem_singleton] at hx; exact Or.inl (by rw [hx])
    have hhp : ∀ b ∈ written (post ++ e1), Housekeeping b := by
      intro b hb
      rw [written_append] at hb
      rcases List.mem_append.1 hb with hb | hb
      · exact h8 b hb
      · refine hhouse b ?_
        rw [he, sent_append]
        exact List.mem_append_left _ (written_sent hb)
    refine ⟨withCount s c, hwc.2, pre, post ++ e1, ?_, hhp, ?_⟩
    · rw [h7, hlc]; simp
    · intro hno
      refine ⟨pre, post ++ e1, by rw [h7, hlc]; simp, ?_⟩
      intro b hb
      rcases hhp b hb with h | h
      · exact h
      · exact absurd h (hno b hb)

/-- The third query of the demo car is a repeat, and rightly so. -/
example : (∃ s, Ran (demo table) fl0 (demoObd true) [.query rpmCommand false, .query rpmCommand false] s) ∧
    sent ((session (demo table) fl0 [.query rpmCommand false, .query rpmCommand false, .query rpmCommand false] (demoObd true)).hist.drop
      (demoObd true).hist.length) = [line (ascii "010C"), line (ascii "010C1"), line []] := by
  constructor
  · have h1 : (query (demo table) fl0 rpmCommand false (demoObd true)).1.isOk = true := by decide +kernel
    have h2 : (query (demo table) fl0 rpmCommand false (query (demo table) fl0 rpmCommand false (demoObd true)).2).1.isOk = true := by decide +kernel
    cases g1 : query (demo table) fl0 rpmCommand false (demoObd true) with
    | mk r1 s1 =>
      rw [g1] at h1 h2
      cases r1 with
      | error x => cases h1
      | ok r1 =>
        cases g2 : query (demo table) fl0 rpmCommand false s1 with
        | mk r2 s2 =>
          rw [g2] at h2
          cases r2 with
          | error x => cases h2
          | ok r2 => exact ⟨s2, .query _ _ _ _ _ _ _ g1 (.query _ _ _ _ _ _ _ g2 (.nil _))⟩
  · decide +kernel

/-! ## C48: the frame count -/

/-- The property in full: the only alteration of a command that is not repeated is one
trailing hexadecimal digit from 1 to F. -/
def C48_full : Prop :=
  ∀ (dev : Device) (fl : Str → Option PyFloat) (a : Args) (s0 : OW), Constructed dev fl a s0 →
  ∀ (calls : List Call) (c : OBDCommand) (force : Bool) (s : OW), s = session dev fl calls s0 →
  ∀ evs, (query dev fl c force s).2.hist = s.hist ++ evs →
  ∀ b ∈ sent evs, b = line (ascii " ") ∨ b = line (headerLine c.header) ∨ b = line [] ∨ b = line c.command ∨
    ∃ d ∈ ascii "123456789ABCDEF", b = line (c.command ++ [d])

/-- It does not hold: if the first reply has no lines, the digit is 0; with ten frames or more
there are two decimal digits. -/
theorem C48_refuted : ¬ C48_full := by
  intro h
  have hcon : Constructed (demo (("010C", "") :: table)) fl0 { ports := ["COM1".toList] }
      (ObdM.construct (demo (("010C", "") :: table)) fl0 ["COM1".toList] none true {}).2 := by
    have : (ObdM.construct (demo (("010C", "") :: table)) fl0 ["COM1".toList] none true {}).1 = .ok () := by decide +kernel
    unfold Constructed
    show ObdM.construct (demo (("010C", "") :: table)) fl0 ["COM1".toList] none true {} = _
    rw [← this]
  have h := h _ fl0 _ _ hcon [.query rpmCommand true] rpmCommand true _ rfl [.write (ascii "010C0\r") true, .read (some (ascii "?\r\r>"))]
    (by decide +kernel) (ascii "010C0\r") (by decide)
  revert h
  decide

/-- A message of ten frames. -/
def tenFrames : String := "7E8 10 45 41 0C 00 00 00 00\r7E8 21 00 00 00 00 00 00 00\r7E8 22 00 00 00 00 00 00 00\r7E8 23 00 00 00 00 00 00 00\r7E8 24 00 00 00 00 00 00 00\r7E8 25 00 00 00 00 00 00 00\r7E8 26 00 00 00 00 00 00 00\r7E8 27 00 00 00 00 00 00 00\r7E8 28 00 00 00 00 00 00 00\r7E8 29 00 00 00 00 00 00 00"

/-- A reply of ten frames: a two-digit count. -/
theorem C48_refuted_ten : ¬ C48_full := by
  intro h
  have hcon : Constructed (demo (("010C", tenFrames) :: table)) fl0 { ports := ["COM1".toList] }
      (ObdM.construct (demo (("010C", tenFrames) :: table)) fl0 ["COM1".toList] none true {}).2 := by
    have : (ObdM.construct (demo (("010C", tenFrames) :: table)) fl0 ["COM1".toList] none true {}).1 = .ok () := by decide +kernel
    unfold Constructed
    show ObdM.construct (demo (("010C", tenFrames) :: table)) fl0 ["COM1".toList] none true {} = _
    rw [← this]
  have h := h _ fl0 _ _ hcon [.query rpmCommand true] rpmCommand true _ rfl [.write (ascii "010C10\r") true, .read (some (ascii "?\r\r>"))]
    (by decide +kernel) (ascii "010C10\r") (by decide)
  revert h
  decide

/-- What a query sends: a wake-up, the header, a carriage return, the command, or the command
with the decimal number of frames that a reply to this command (or its repeat) had; this
number is at most the number of lines of that reply, and a single digit if at most 9. -/
theorem C48_partial (dev : Device) (fl : Str → Option PyFloat) (a : Args) (s0 : OW) (hc : Constructed dev fl a s0)
    (calls : List Call) (c : OBDCommand) (force : Bool) (s : OW) (hs : s = session dev fl calls s0) :
    ∃ evs, (query dev fl c force s).2.hist = s.hist ++ evs ∧
      ∀ b ∈ sent evs, b = line (ascii " ") ∨ b = line (headerLine c.header) ∨ b = line [] ∨ b = line c.command ∨
        ∃ n, b = line (c.command ++ decBytes n) ∧ s.fast = true ∧ c.fast = true ∧
          (∃ e o str lines ms, s.interface = some e ∧ e.protocol = some o ∧ Replied s.hist str lines ∧ (str = [] ∨ str = c.command) ∧
            o.call lines = .ok ms ∧ n = (ms.map (fun m => m.frames.length)).sum ∧ n ≤ lines.length) ∧
          (n ≤ 9 → decBytes n = [UInt8.ofNat (0x30 + n)]) := by
  obtain ⟨g1, g2⟩ := constructed_counts hc
  have hcnt := counts_session dev fl calls s0 g1 g2
  have hsnd := osound_session dev fl calls s0 g1
  rw [← hs] at hcnt hsnd
  rcases query_cases dev fl c force s with ⟨h3, -⟩ | ⟨x, h3, -⟩ | ⟨h3, hst, -⟩
  · rw [h3]; exact ⟨[], by simp, by simp [sent]⟩
  · rw [h3]; exact ⟨[], by simp, by simp [sent]⟩
  · obtain ⟨e, o, hl⟩ := live_of_sound hsnd hst
    obtain ⟨evs, p, q, h4, -, h5, -, h6, -⟩ := exchange_plan (dev := dev) (fl := fl) (c := c) hl
    rw [h3]
    refine ⟨evs, h4, ?_⟩
    intro b hb
    rw [h6] at hb
    obtain ⟨x, hx, rfl⟩ := List.mem_map.1 hb
    have hx' : x ∈ plan s e c := by rw [h5]; simp [hx]
    rw [plan] at hx'
    rcases List.mem_append.1 hx' with hx | hx
    · left
      unfold wake at hx
      split at hx
      · rw [List.mem_singleton] at hx; rw [hx]
      · cases hx
    · rcases List.mem_append.1 hx with hx | hx
      · right; left
        split at hx
        · cases hx
        · rw [List.mem_singleton] at hx; rw [hx]
      · rw [List.mem_singleton] at hx
        subst hx
        right; right
        unfold buildCommand
        split
        · exact Or.inl rfl
        · right
          unfold withCount
          split
          · rename_i hf
            cases hg : s.frameCounts.get? c.key with
            | none => exact Or.inl rfl
            | some n =>
              right
              obtain ⟨str, lines, ms, k1, k2, k3, k4⟩ := hcnt e o hl.iface hl.status hl.proto _ n hg
              simp only [Bool.and_eq_true] at hf
              refine ⟨n, rfl, hf.1, hf.2, ⟨e, o, str, lines, ms, hl.iface, hl.proto, k1, k2, k3, k4, k4 ▸ countFrames_le k3⟩, ?_⟩
              have : ∀ n, n ≤ 9 → decBytes n = [UInt8.ofNat (0x30 + n)] := by
                intro n hn
                have : ∀ n : Fin 10, decBytes n = [UInt8.ofNat (0x30 + n)] := by decide
                exact this ⟨n, by omega⟩
              exact this n
          · exact Or.inl rfl

theorem decBytes_inj {n m : Nat} (h : decBytes n = decBytes m) : n = m := by
  have hd : ∀ k, ∀ c ∈ Nat.toDigits 10 k, c.toNat < 256 := by
    intro k c hc
    have := Nat.isDigit_of_mem_toDigits (b := 10) (by decide) (by decide) hc
    rw [Char.isDigit_iff_toNat] at this
    simp at this; omega
  have key : ∀ l1 l2 : List Char, (∀ c ∈ l1, c.toNat < 256) → (∀ c ∈ l2, c.toNat < 256) →
      l1.map (fun c => UInt8.ofNat c.toNat) = l2.map (fun c => UInt8.ofNat c.toNat) → l1 = l2 := by
    intro l1
    induction l1 with
    | nil => intro l2 _ _ h; cases l2 with
      | nil => rfl
      | cons _ _ => cases h
    | cons a l1 ih =>
      intro l2 h1 h2 h
      cases l2 with
      | nil => cases h
      | cons b l2 =>
        simp only [List.map_cons, List.cons.injEq] at h
        have ha := h1 a (by simp)
        have hb := h2 b (by simp)
        have := congrArg UInt8.toNat h.1
        rw [UInt8.toNat_ofNat_of_lt' ha, UInt8.toNat_ofNat_of_lt' hb] at this
        rw [Char.ext (UInt32.toNat_inj.1 this), ih l2 (fun c hc => h1 c (by simp [hc])) (fun c hc => h2 c (by simp [hc])) h.2]
  have := key _ _ (hd n) (hd m) h
  rw [← Nat.ofDigitChars_ten_toDigits (n := n), ← Nat.ofDigitChars_ten_toDigits (n := m), this]

theorem sent_count {dev : Device} {fl : ElmM.FloatFn} {c : OBDCommand} {force : Bool} {s : OW} {evs : History} {n : Nat} (hs : OSound s)
    (he : (query dev fl c force s).2.hist = s.hist ++ evs) (hb : line (c.command ++ decBytes n) ∈ sent evs) :
    s.frameCounts.get? c.key = some n := by
  obtain ⟨ds, d, hdec, hd1, hd2⟩ := decBytes_last n
  rcases query_cases dev fl c force s with ⟨h3, -⟩ | ⟨x, h3, -⟩ | ⟨h3, hst, -⟩
  · rw [h3] at he; rw [List.self_eq_append_right.1 he] at hb; cases hb
  · rw [h3] at he; rw [List.self_eq_append_right.1 he] at hb; cases hb
  · obtain ⟨e, o, hl⟩ := live_of_sound hs hst
    obtain ⟨evs', p, q, h4, -, h5, -, h6, -⟩ := exchange_plan (dev := dev) (fl := fl) (c := c) hl
    rw [h3, h4] at he
    rw [← List.append_cancel_left he, h6] at hb
    obtain ⟨x, hx, hxe⟩ := List.mem_map.1 hb
    have := line_inj hxe
    subst this
    have hx' : c.command ++ decBytes n ∈ plan s e c := by rw [h5]; simp [hx]
    rw [plan] at hx'
    rcases List.mem_append.1 hx' with hx | hx
    · exfalso
      unfold wake at hx
      split at hx
      · rw [List.mem_singleton] at hx
        exact append_dec_ne (b := ascii " ") (x := 0x20) rfl (by decide) hx
      · cases hx
    · rcases List.mem_append.1 hx with hx | hx
      · exfalso
        split at hx
        · cases hx
        · rw [List.mem_singleton] at hx
          exact append_dec_ne (b := headerLine c.header) (x := 0x20) (by rw [headerLine]; exact List.getLast?_concat ..) (by decide) hx
      · rw [List.mem_singleton] at hx
        unfold buildCommand at hx
        split at hx
        · rw [hdec] at hx; simp at hx
        · unfold withCount at hx
          split at hx
          · cases hg : s.frameCounts.get? c.key with
            | none => rw [hg, hdec] at hx; simp at hx
            | some k =>
              rw [hg] at hx
              rw [decBytes_inj (List.append_cancel_left hx)]
          · rw [hdec] at hx; simp at hx

/-- The count is determined once: whenever the command is sent with a count, it is the same. -/
theorem C48_once_partial (dev : Device) (fl : Str → Option PyFloat) (a : Args) (s0 : OW) (hc : Constructed dev fl a s0)
    (calls1 calls2 : List Call) (c : OBDCommand) (f1 f2 : Bool) (s1 s2 : OW) (evs1 evs2 : History) (n m : Nat)
    (hs1 : s1 = session dev fl calls1 s0) (hs2 : s2 = session dev fl (calls1 ++ .query c f1 :: calls2) s0)
    (h1 : (query dev fl c f1 s1).2.hist = s1.hist ++ evs1) (h2 : (query dev fl c f2 s2).2.hist = s2.hist ++ evs2)
    (hn : line (c.command ++ decBytes n) ∈ sent evs1) (hm : line (c.command ++ decBytes m) ∈ sent evs2) : n = m := by
  have hs := constructed_sound hc
  have hsnd1 := osound_session dev fl calls1 s0 hs
  have hsnd2 := osound_session dev fl (calls1 ++ .query c f1 :: calls2) s0 hs
  rw [← hs1] at hsnd1
  rw [← hs2] at hsnd2
  have g1 := sent_count hsnd1 h1 hn
  have g2 := sent_count hsnd2 h2 hm
  have g3 := count_session (dev := dev) (fl := fl) (.query c f1 :: calls2) hsnd1 g1
  have : s2 = session dev fl (.query c f1 :: calls2) s1 := by
    rw [hs2, hs1]; unfold session; rw [List.foldl_append]
  rw [← this, g2] at g3
  exact (Option.some.inj g3).symm

/-- The demo car: the reply to 010C has one frame, which is the count used later. -/
example : sent ((session (demo table) fl0 [.query rpmCommand false, .lowPower, .query rpmCommand false] (demoObd true)).hist.drop
      (demoObd true).hist.length) = [line (ascii "010C"), line (ascii "ATLP"), line (ascii " "), line (ascii "010C" ++ decBytes 1)] := by
  decide +kernel

end Props
