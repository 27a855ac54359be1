import Verif.Lemmas.Plan
/-!
# Low-power mode over all histories of calls
-/
namespace Model
open Py Spec

/-! ## decimal digits -/

theorem decBytes_last (n : Nat) : ∃ ds d, decBytes n = ds ++ [d] ∧ 48 ≤ d.toNat ∧ d.toNat ≤ 57 := by
  have hne : Nat.toDigits 10 n ≠ [] := Nat.toDigits_ne_nil
  refine ⟨((Nat.toDigits 10 n).dropLast).map (fun c => UInt8.ofNat c.toNat), UInt8.ofNat ((Nat.toDigits 10 n).getLast hne).toNat, ?_, ?_⟩
  · unfold decBytes
    conv_lhs => rw [← List.dropLast_append_getLast hne]
    simp
  · have := Nat.isDigit_of_mem_toDigits (b := 10) (by decide) (by decide) (List.getLast_mem hne)
    rw [Char.isDigit_iff_toNat] at this
    rw [UInt8.toNat_ofNat_of_lt' (by simp at this; show _ < 256; omega)]
    simpa using this

theorem append_dec_ne {a b : Bytes} {x : UInt8} {n : Nat} (hb : b.getLast? = some x) (hx : ¬ (48 ≤ x.toNat ∧ x.toNat ≤ 57)) :
    a ++ decBytes n ≠ b := by
  intro h
  obtain ⟨ds, d, hd, h1⟩ := decBytes_last n
  rw [hd] at h
  rw [← h] at hb
  simp at hb
  rw [hb] at h1
  exact hx h1

namespace ObdM

theorem buildCommand_forms (s : OW) (c : OBDCommand) :
    buildCommand s c = [] ∨ buildCommand s c = c.command ∨ ∃ n, s.frameCounts.get? c.key = some n ∧ buildCommand s c = c.command ++ decBytes n := by
  unfold buildCommand
  split
  · exact Or.inl rfl
  · right
    unfold withCount
    split
    · cases h : s.frameCounts.get? c.key with
      | none => exact Or.inl rfl
      | some n => exact Or.inr ⟨n, rfl, rfl⟩
    · exact Or.inl rfl

/-- Commands that leave the power mode alone. -/
def Calm (cmd : Bytes) : Prop := cmd ≠ ascii "ATLP" ∧ cmd ≠ ascii " "

theorem calm_header (h : Bytes) : Calm (ascii "AT SH " ++ h ++ ascii " ") := by
  constructor <;> intro e
  · have := congrArg (fun l => l[2]?) e
    simp [ascii] at this
  · have := congrArg List.length e
    simp [ascii] at this

theorem calm_build (s : OW) (c : OBDCommand) (h : Calm c.command) : Calm (buildCommand s c) := by
  rcases buildCommand_forms s c with e | e | ⟨n, -, e⟩ <;> rw [e]
  · constructor <;> simp [ascii]
  · exact h
  · exact ⟨append_dec_ne (x := 0x50) (by decide) (by decide), append_dec_ne (x := 0x20) (by decide) (by decide)⟩

theorem sends_calm (c : OBDCommand) (h : Calm c.command) : Sends Calm c := ⟨calm_header _, fun s => calm_build s c h⟩

theorem line_inj {a b : Bytes} (h : line a = line b) : a = b := by
  unfold line at h
  exact List.append_cancel_right h

/-! ## sleeping -/

theorem asleep_append {h evs : History} (b : Bytes) (ok : Bool) (t : History) (he : evs = .write b ok :: t) (hn : NoOpen evs)
    (hl : line (ascii "ATLP") ∉ sent evs) : Asleep (h ++ evs) ↔ Asleep h ∧ line (ascii " ") ∉ sent evs := by
  constructor
  · rintro ⟨pre, r, lines, post, heq, h1, h2, h3, h4⟩
    rcases append_cases heq with ⟨post', e1, e2⟩ | ⟨pre', e1, e2⟩
    · cases post' with
      | nil => rw [he] at e2; cases e2
      | cons x post' =>
        simp only [List.cons_append, List.cons.injEq] at e2
        obtain ⟨rfl, rfl⟩ := e2
        rw [sent_append, List.mem_append] at h4
        refine ⟨⟨pre, r, lines, post', e1, h1, h2, fun e he => h3 e (by simp [he]), fun h => h4 (Or.inl h)⟩, fun h => h4 (Or.inr h)⟩
    · exfalso
      apply hl
      rw [e1, sent_append]
      simp [sent]
  · rintro ⟨⟨pre, r, lines, post, rfl, h1, h2, h3, h4⟩, h5⟩
    refine ⟨pre, r, lines, post ++ evs, by simp, h1, h2, ?_, ?_⟩
    · intro e he
      rcases List.mem_append.1 he with he | he
      · exact h3 e he
      · exact hn e he
    · rw [sent_append, List.mem_append]
      rintro (h | h)
      · exact h4 h
      · exact h5 h

theorem dialogue_head {evs : History} {x : Bytes × List Str} {xs : List (Bytes × List Str)} (h : Dialogue evs (x :: xs)) :
    ∃ b t, evs = .write b true :: t := by
  cases h with
  | cons hl hbs h => exact ⟨_, _, rfl⟩

theorem dialogue_head' {evs : History} {pre : List (Bytes × List Str)} {x : Bytes × List Str} (h : Dialogue evs (pre ++ [x])) :
    ∃ b t, evs = .write b true :: t := by
  cases pre with
  | nil => exact dialogue_head h
  | cons y pre => exact dialogue_head h

theorem broken_head {evs : History} {cmds : List Bytes} (h : Broken evs cmds) : ∃ b ok t, evs = .write b ok :: t := by
  obtain ⟨xs, c, suf, e1, e2, -, rfl, h1, h2⟩ := h
  cases xs with
  | nil =>
    cases h1
    cases h2 with
    | onWrite => exact ⟨_, _, _, rfl⟩
    | onRead bs hb => exact ⟨_, _, _, rfl⟩
  | cons x xs =>
    obtain ⟨b, t, rfl⟩ := dialogue_head h1
    exact ⟨_, _, _, rfl⟩

theorem exchange_head {dev : Device} {fl : ElmM.FloatFn} {c : OBDCommand} {s : OW} {e : Elm} {o : ProtoObj} (hl : Live s e o) :
    ∃ evs, (exchange dev fl c s).2.hist = s.hist ++ evs ∧ ∃ b ok t, evs = .write b ok :: t := by
  have hb : ∀ {s : OW} {e : Elm}, Live s e o → ∃ evs, (body dev fl c s).2.hist = s.hist ++ evs ∧ ∃ b ok t, evs = .write b ok :: t := by
    intro s e hl
    rcases body_cases (dev := dev) (fl := fl) (c := c) hl with ⟨pre, l, evs, x, h1, h2, h3, h4⟩ | ⟨pre, l, evs, ms, h1, h2, h3, h4⟩ | ⟨evs, h1, h4⟩ <;> rw [h4]
    · obtain ⟨b, t, rfl⟩ := dialogue_head' h2
      exact ⟨_, rfl, _, _, _, rfl⟩
    · obtain ⟨b, t, rfl⟩ := dialogue_head' h2
      exact ⟨_, rfl, _, _, _, rfl⟩
    · exact ⟨_, rfl, broken_head h1⟩
  rw [exchange_eq]
  by_cases hh : c.header = s.lastHeader
  · rw [PyM.bind_ok (setHeader_same hh)]; exact hb hl
  · rcases setHeader_cases (dev := dev) hl hh with ⟨pre, l, evs, x, h1, h2, h3, h4⟩ | ⟨pre, l, evs, ms, h1, h2, h3, h4⟩ | ⟨evs, h1, h4⟩
    · have : (setHeader dev c.header >>= fun _ => body dev fl c) s = (.error x, woken s e evs) := by
        rw [PyM.bind_apply, h4]
      rw [this]
      obtain ⟨b, t, rfl⟩ := dialogue_head' h2
      exact ⟨_, rfl, _, _, _, rfl⟩
    · rw [PyM.bind_ok h4]
      obtain ⟨evs', h5, -⟩ := hb (s := { woken s e evs with lastHeader := if ackd ms then c.header else s.lastHeader })
        (e := { e with lowPower := false }) ⟨rfl, hl.status, hl.port, hl.proto⟩
      obtain ⟨b, t, rfl⟩ := dialogue_head' h2
      exact ⟨_, h5.trans (List.append_assoc _ _ _), _, _, _, rfl⟩
    · rw [PyM.bind_ok h4, body_nc (e := { lost e with lowPower := false }) rfl rfl]
      exact ⟨_, rfl, broken_head h1⟩

/-- The library's idea of the power mode is right. -/
def Power (s : OW) : Prop := ∀ e, s.interface = some e → e.status ≠ .notConnected → (e.lowPower = true ↔ Asleep s.hist)

theorem power_send {dev : Device} {cmd : Bytes} (hc : Calm cmd) :
    Kept (fun s => OSound s ∧ Power s) (onInterface (ElmM.sendAndParse dev cmd)) := by
  rintro s ⟨h1, h2⟩
  refine ⟨(ostable_sound dev).send cmd trivial s h1, ?_⟩
  by_cases hs : status s = .notConnected
  · cases he : s.interface with
    | none =>
      have : onInterface (ElmM.sendAndParse dev cmd) s = (.error .attributeError, s) := by unfold onInterface; rw [he]
      rw [this]; exact h2
    | some e => rw [onInterface_nc he (status_none hs e he)]; exact h2
  · obtain ⟨e, o, hl⟩ := live_of_sound h1 hs
    have hp := h2 e hl.iface hl.status
    rcases onSend (dev := dev) (cmd := cmd) hl with ⟨pre, l, evs, g1, g2, g3⟩ | ⟨evs, g1, g2⟩
    · rw [g3]
      intro e' he' _
      simp only [woken, Option.some.injEq] at he'
      subst he'
      obtain ⟨b, t, ht⟩ := dialogue_head' g2
      have hsent : sent evs = (wake e ++ [cmd]).map line := by rw [sent_dialogue g2, ← g1]; simp
      have hlp : line (ascii "ATLP") ∉ sent evs := by
        rw [hsent]
        intro hm
        obtain ⟨x, hx, hxe⟩ := List.mem_map.1 hm
        have := line_inj hxe
        subst this
        rcases List.mem_append.1 hx with hx | hx
        · unfold wake at hx
          split at hx
          · simp [ascii] at hx
          · cases hx
        · rw [List.mem_singleton] at hx; exact hc.1 hx.symm
      show false = true ↔ Asleep (s.hist ++ evs)
      rw [asleep_append b true t ht (Dialogue.noOpen g2) hlp, ← hp, hsent]
      simp only [Bool.false_eq_true, false_iff, not_and, not_not]
      intro hlow
      simp [wake, hlow]
    · rw [g2]
      intro e' he' hne
      simp only [dropped, Option.some.injEq] at he'
      subst he'
      exact absurd rfl hne

theorem ostable_power (dev : Device) : OStableOn dev Calm (fun s => OSound s ∧ Power s) where
  send := fun _ hc => power_send hc
  attrs := fun _ _ _ _ h => h
  sup := fun _ _ h => h

theorem send_delay (dev : Device) (cmd m : Bytes) (w : EW) (p : Port) (hp : w.elm.port = some p) :
    (∃ b, ElmM.send dev cmd true m w = (.ok (cleanLines b), { w with hist := w.hist ++ [.write (line cmd) true, .read (some b)] })) ∨
    (∃ h, ElmM.send dev cmd true m w = (.ok [], { elm := lost w.elm, hist := h })) := by
  unfold ElmM.send
  rw [PyM.lift_apply]
  unfold EW.send
  rcases write_some dev cmd w p hp with e | e <;> rw [e]
  · rcases read_some dev m { w with hist := w.hist ++ [.write (line cmd) true] } p hp with ⟨b, e2⟩ | e2 <;> rw [e2]
    · left; exact ⟨b, by simp [EW.retry]⟩
    · right; exact ⟨_, rfl⟩
  · right
    rw [read_none (by rfl)]
    exact ⟨_, rfl⟩

theorem power_lowPower (dev : Device) : Kept (fun s => OSound s ∧ Power s) (lowPower dev) := by
  rintro s ⟨h1, h2⟩
  refine ⟨osound_lowPower dev s h1, ?_⟩
  by_cases hs : status s = .notConnected
  · rw [lowPower_nc hs]; exact h2
  · obtain ⟨e, o, hl⟩ := live_of_sound h1 hs
    have hp := h2 e hl.iface hl.status
    unfold lowPower
    rw [PyM.bind_ok (show PyM.get s = (.ok s, s) from rfl), hl.iface]
    simp only [onInterface, hl.iface]
    unfold ElmM.lowPower
    rw [PyM.bind_ok (show ElmM.getElm _ = (.ok e, _) from rfl), if_neg hl.status]
    obtain ⟨p, hport⟩ := Option.ne_none_iff_exists'.1 hl.port
    rcases send_delay dev (ascii "ATLP") elmLpActive ⟨e, s.hist⟩ p hport with ⟨b, g⟩ | ⟨h, g⟩
    · rw [PyM.bind_ok g]
      by_cases hok : "OK".toList ∈ cleanLines b
      · rw [if_pos hok, PyM.bind_ok (show ElmM.modifyElm _ _ = (.ok (), _) from rfl)]
        intro e' he' _
        have : e' = { e with lowPower := true } := (Option.some.inj he').symm
        subst this
        simp only [true_iff]
        exact ⟨s.hist, b, cleanLines b, [], rfl, cleanLines_spec b, hok, by simp [NoOpen], by simp [sent]⟩
      · rw [if_neg hok]
        intro e' he' _
        have : e' = e := (Option.some.inj he').symm
        subst this
        rw [hp]
        show Asleep s.hist ↔ Asleep (s.hist ++ [.write (line (ascii "ATLP")) true, .read (some b)])
        constructor
        · rintro ⟨pre, r, lines, post, e1, h1, h2, h3, h4⟩
          refine ⟨pre, r, lines, post ++ [.write (line (ascii "ATLP")) true, .read (some b)], by rw [e1]; simp, h1, h2, ?_, ?_⟩
          · intro x hx
            rcases List.mem_append.1 hx with hx | hx
            · exact h3 x hx
            · simp at hx
              rcases hx with rfl | rfl <;> simp
          · rw [sent_append, List.mem_append]
            rintro (h | h)
            · exact h4 h
            · simp [sent, line, ascii] at h
        · rintro ⟨pre, r, lines, post, e1, h1, h2, h3, h4⟩
          rcases append_cases e1 with ⟨post', e2, e3⟩ | ⟨pre', e2, e3⟩
          · cases post' with
            | nil => cases e3
            | cons x post' =>
              simp only [List.cons_append, List.cons.injEq] at e3
              obtain ⟨rfl, rfl⟩ := e3
              rw [sent_append, List.mem_append] at h4
              exact ⟨pre, r, lines, post', e2, h1, h2, fun e he => h3 e (by simp [he]), fun h => h4 (Or.inl h)⟩
          · exfalso
            cases pre' with
            | nil =>
              simp only [List.nil_append, List.cons.injEq, Event.read.injEq, Option.some.injEq] at e2
              obtain ⟨-, rfl, -⟩ := e2
              rw [linesOf_unique h1] at h2
              exact hok h2
            | cons x pre' =>
              simp only [List.cons_append, List.cons.injEq] at e2
              obtain ⟨-, e2⟩ := e2
              cases pre' with
              | nil => cases e2
              | cons y pre' =>
                simp only [List.cons_append, List.cons.injEq] at e2
                obtain ⟨-, e2⟩ := e2
                simp at e2
    · rw [PyM.bind_ok g, if_neg (by simp)]
      intro e' he' hne
      have : e' = lost e := (Option.some.inj he').symm
      subst this
      exact absurd rfl hne

theorem power_normalPower (dev : Device) : Kept (fun s => OSound s ∧ Power s) (normalPower dev) := by
  rintro s ⟨h1, h2⟩
  refine ⟨osound_normalPower dev s h1, ?_⟩
  by_cases hs : status s = .notConnected
  · rw [normalPower_nc hs]; exact h2
  · obtain ⟨e, o, hl⟩ := live_of_sound h1 hs
    have hp := h2 e hl.iface hl.status
    unfold normalPower
    rw [PyM.bind_ok (show PyM.get s = (.ok s, s) from rfl), hl.iface]
    simp only [onInterface, hl.iface]
    unfold ElmM.normalPower
    rw [PyM.bind_ok (show ElmM.getElm _ = (.ok e, _) from rfl), if_neg hl.status]
    rcases send_cases dev (ascii " ") false elmPrompt ⟨e, s.hist⟩ hl.port with ⟨l, evs, g1, g⟩ | ⟨evs, g1, g⟩
    · rw [PyM.bind_ok g, PyM.bind_ok (show ElmM.modifyElm _ _ = (.ok (), _) from rfl)]
      intro e' he' _
      have : e' = { e with lowPower := false } := (Option.some.inj he').symm
      subst this
      show false = true ↔ Asleep (s.hist ++ evs)
      obtain ⟨b, t, ht⟩ := dialogue_head g1
      have hsent : sent evs = [line (ascii " ")] := by rw [sent_dialogue g1]; rfl
      rw [asleep_append b true t ht (Dialogue.noOpen g1) (by rw [hsent]; decide), hsent]
      simp
    · rw [PyM.bind_ok g, PyM.bind_ok (show ElmM.modifyElm _ _ = (.ok (), _) from rfl)]
      intro e' he' hne
      have : e' = { lost e with lowPower := false } := (Option.some.inj he').symm
      subst this
      exact absurd rfl hne

theorem power_close (dev : Device) : Kept (fun s => OSound s ∧ Power s) (close dev) := by
  intro s h
  refine ⟨osound_close dev s h.1, ?_⟩
  have : status (close dev s).2 = .notConnected ∨ Power (close dev s).2 := by
    unfold close
    rw [PyM.bind_ok (show PyM.modify _ s = (.ok (), _) from rfl), PyM.bind_ok (show PyM.get _ = (.ok _, _) from rfl)]
    cases hi : s.interface with
    | none => left; rfl
    | some e =>
      simp only
      rw [PyM.bind_apply]
      have hk := kept_setHeaderOn (ostable_power dev) engineHeader (calm_header _) { s with supported := [] } h
      rw [hi] at hk
      cases hh : setHeader dev engineHeader { s with interface := some e, supported := [] } with
      | mk r s1 =>
        rw [hh] at hk
        cases r with
        | error x => right; exact hk.2
        | ok u =>
          left
          simp only
          rw [PyM.bind_apply]
          cases hi1 : s1.interface with
          | none => simp [onInterface, hi1, status]
          | some e1 =>
            have hca := ElmM.close_any dev ⟨e1, s1.hist⟩
            simp only [onInterface, hi1]
            cases hcl : ElmM.close dev ⟨e1, s1.hist⟩ with
            | mk r w =>
              rw [hcl] at hca
              cases r with
              | error x => exact hca.1
              | ok u => rfl
  rcases this with hs | hp
  · intro e he hne
    exact absurd (status_none hs e he) hne
  · exact hp

theorem power_call (dev : Device) (fl : ElmM.FloatFn) (c : Call) (hc : PlainCall c) (s : OW) (h : OSound s ∧ Power s) :
    OSound (c.after dev fl s) ∧ Power (c.after dev fl s) := by
  cases c with
  | query c force => exact kept_queryOn (ostable_power dev) fl c (sends_calm c hc) force s h
  | lowPower => exact power_lowPower dev s h
  | normalPower => exact power_normalPower dev s h
  | close => exact power_close dev s h

theorem power_session (dev : Device) (fl : ElmM.FloatFn) (cs : List Call) (hc : ∀ c ∈ cs, PlainCall c) (s : OW) (h : OSound s ∧ Power s) :
    OSound (session dev fl cs s) ∧ Power (session dev fl cs s) := by
  induction cs generalizing s with
  | nil => exact h
  | cons c cs ih => exact ih (fun c hcc => hc c (by simp [hcc])) _ (power_call dev fl c (hc c (by simp)) s h)

theorem getters_calm : ∀ c ∈ pidGetters, Calm c.command := by
  have : (pidGetters.all (fun c => decide (c.command ≠ ascii "ATLP" ∧ c.command ≠ ascii " "))) = true := by decide +kernel
  intro c hc
  simpa [Calm] using List.all_eq_true.1 this c hc

theorem writes_not_asleep {h : History} (hw : Writes (· ≠ line (ascii "ATLP")) h) : ¬ Asleep h := by
  rintro ⟨pre, b, lines, post, rfl, -⟩
  exact hw _ true (by simp) rfl

theorem stable_writes (dev : Device) (W : Bytes → Prop) : Stable dev (fun cmd => W (line cmd)) (fun w => Writes W w.hist) where
  send := fun cmd d m h => writes_send dev cmd h d m
  proto := fun _ _ h => h

theorem constructed_power {dev : Device} {fl : ElmM.FloatFn} {a : Args} {s : OW} (h : Constructed dev fl a s) : OSound s ∧ Power s := by
  unfold Constructed construct at h
  obtain ⟨_, s1, h1, h⟩ := bind_inv h
  have hk : OSound s1 ∧ Power s1 := by
    refine ⟨connect_sound h1 ⟨shape_nil, by simp⟩, ?_⟩
    have hw := connect_hist (R := Writes (· ≠ line (ascii "ATLP"))) (dev := dev) (fl := fl) (cfg := a.cfg) (fun port hist hh =>
      ElmM.kept_construct (steps_writes dev a.cfg.protocol (by decide)
        (ElmM.kept_setProtocol (stable_writes dev _) a.cfg.protocol (by
          intro id he
          have := congrArg (fun l => l[2]?) he
          simp [ascii, line] at this) (by decide) (by decide) (by decide))) fl port hist
        (fun e err => writes_append hh (by intro b ok h; simp at h))) h1 ⟨shape_nil, by simp⟩ (by intro b ok h; simp at h)
    intro e he hne
    have hna := writes_not_asleep hw
    simp only [hna, iff_false, Bool.not_eq_true]
    obtain ⟨port, t, -, -, -, -, -, -, ho⟩ := connect_opened h1 rfl (by simpa [status, he] using hne)
    obtain ⟨w, hcw, rfl⟩ := openInterface_ok ho
    simp only [Option.some.injEq] at he
    subst he
    rcases ElmM.construct_lowPower hcw with h | h
    · exact h
    · exact absurd h.1 hne
  have := kept_loadCommandsOn (ostable_power dev) fl (fun c hc => sends_calm c (getters_calm c hc)) s1 hk
  rw [h] at this; exact this

end ObdM
end Model
