import Verif.Spec.Session
import Verif.Lemmas.Baud
/-!
# Failures in the I/O history
-/
namespace Model
open Py Spec

/-- After a failure the port is closed, and nothing happens until another port is opened. -/
def Shape (h : History) : Prop :=
  ∀ pre e post, h = pre ++ e :: post → Failed e → ∃ post', post = .close :: post' ∧ (post' = [] ∨ ∃ p r t, post' = .open_ p r :: t)

def EndsFailed (h : History) : Prop := ∃ pre e, Failed e ∧ h = pre ++ [e, .close]

theorem append_cases {α : Type} {a b pre post : List α} {e : α} (h : a ++ b = pre ++ e :: post) :
    (∃ post', a = pre ++ e :: post' ∧ post = post' ++ b) ∨ (∃ pre', b = pre' ++ e :: post ∧ pre = a ++ pre') := by
  rw [List.append_eq_append_iff] at h
  rcases h with ⟨x, h1, h2⟩ | ⟨x, h1, h2⟩
  · right; exact ⟨x, h2, h1⟩
  · cases x with
    | nil => right; exact ⟨[], by simpa using h2.symm, by simpa using h1.symm⟩
    | cons y x =>
      simp only [List.cons_append, List.cons.injEq] at h2
      obtain ⟨rfl, h2⟩ := h2
      left; exact ⟨x, h1, h2⟩

theorem notFailed_close : ¬ Failed .close := by rintro (⟨b, h⟩ | h) <;> cases h
theorem notFailed_open (p : Str) (r : Option Exc) : ¬ Failed (.open_ p r) := by rintro (⟨b, h⟩ | h) <;> cases h

theorem Shape.append {h evs : History} (hs : Shape h) (he : ¬ EndsFailed h) (hn : ∀ e ∈ evs, ¬ Failed e) :
    Shape (h ++ evs) := by
  intro pre e post heq hf
  rcases append_cases heq with ⟨post', h1, h2⟩ | ⟨pre', h1, h2⟩
  · obtain ⟨p', h3, h4⟩ := hs pre e post' h1 hf
    subst h3
    rcases h4 with rfl | ⟨p, r, t, rfl⟩
    · exact absurd ⟨pre, e, hf, h1⟩ he
    · exact ⟨.open_ p r :: t ++ evs, by simp [h2], Or.inr ⟨p, r, t ++ evs, rfl⟩⟩
  · exact absurd hf (hn e (by rw [h1]; simp))

theorem Shape.fail {h evs : History} {f : Event} (hs : Shape h) (he : ¬ EndsFailed h) (hn : ∀ e ∈ evs, ¬ Failed e) :
    Shape (h ++ (evs ++ [f, .close])) := by
  intro pre e post heq hf
  rw [← List.append_assoc] at heq
  rcases append_cases heq with ⟨post', h1, h2⟩ | ⟨pre', h1, h2⟩
  · rcases append_cases h1 with ⟨post'', h3, h4⟩ | ⟨pre'', h3, h4⟩
    · obtain ⟨p', h5, h6⟩ := hs pre e post'' h3 hf
      subst h5
      rcases h6 with rfl | ⟨p, r, t, rfl⟩
      · exact absurd ⟨pre, e, hf, h3⟩ he
      · exact ⟨.open_ p r :: t ++ evs ++ [f, .close], by simp [h2, h4], Or.inr ⟨p, r, t ++ evs ++ [f, .close], by simp⟩⟩
    · exact absurd hf (hn e (by rw [h3]; simp))
  · match pre' with
    | [] =>
      simp only [List.nil_append, List.cons.injEq] at h1
      exact ⟨[], h1.2.symm, Or.inl rfl⟩
    | [x] =>
      simp only [List.cons_append, List.nil_append, List.cons.injEq] at h1
      exact absurd (h1.2.1 ▸ hf) notFailed_close
    | x :: y :: t => simp at h1

theorem Shape.open_ {h : History} {p : Str} {r : Option Exc} (hs : Shape h) : Shape (h ++ [.open_ p r]) := by
  intro pre e post heq hf
  rcases append_cases heq with ⟨post', h1, h2⟩ | ⟨pre', h1, h2⟩
  · obtain ⟨p', h3, h4⟩ := hs pre e post' h1 hf
    subst h3
    rcases h4 with rfl | ⟨p', r', t, rfl⟩
    · exact ⟨[.open_ p r], h2, Or.inr ⟨p, r, [], rfl⟩⟩
    · exact ⟨.open_ p' r' :: t ++ [.open_ p r], by simp [h2], Or.inr ⟨p', r', t ++ [.open_ p r], rfl⟩⟩
  · have : e ∈ [Event.open_ p r] := by rw [h1]; simp
    rw [List.mem_singleton] at this
    subst this
    exact absurd hf (notFailed_open _ _)

theorem endsFailed_append {h evs : History} (hs : Shape h) (hne : ¬ EndsFailed h) (hn : ∀ e ∈ evs, ¬ Failed e) :
    ¬ EndsFailed (h ++ evs) := by
  rintro ⟨pre, e, hf, heq⟩
  have heq' : h ++ evs = pre ++ e :: [.close] := heq
  rcases append_cases heq' with ⟨post', h1, h2⟩ | ⟨pre', h1, h2⟩
  · obtain ⟨p', h3, -⟩ := hs pre e post' h1 hf
    subst h3
    simp only [List.cons_append, List.cons.injEq, true_and] at h2
    have := h2.symm
    simp only [List.append_eq_nil_iff] at this
    rw [this.1] at h1
    exact hne ⟨pre, e, hf, h1⟩
  · exact hn e (by rw [h1]; simp) hf

theorem endsFailed_open {h : History} {p : Str} {r : Option Exc} : ¬ EndsFailed (h ++ [.open_ p r]) := by
  rintro ⟨pre, e, -, heq⟩
  have : (h ++ [Event.open_ p r]).getLast? = some .close := by rw [heq]; simp
  simp at this

theorem shape_nil : Shape [] := by intro pre e post h; simp at h

/-- The invariant on a world. -/
def Tidy (w : EW) : Prop := Shape w.hist ∧ (EndsFailed w.hist → w.elm.port = none)

theorem Tidy.not_ended {w : EW} {p : Port} (h : Tidy w) (hp : w.elm.port = some p) : ¬ EndsFailed w.hist :=
  fun he => by rw [h.2 he] at hp; cases hp

theorem Tidy.elm {w : EW} {e : Elm} (h : Tidy w) (hp : w.elm.port = none → e.port = none) : Tidy { w with elm := e } :=
  ⟨h.1, fun he => hp (h.2 he)⟩

/-- Appending events that do not fail to a world with an open port. -/
theorem Tidy.more {w : EW} {p : Port} {evs : History} {e : Elm} (h : Tidy w) (hp : w.elm.port = some p)
    (hn : ∀ e ∈ evs, ¬ Failed e) : Tidy { elm := e, hist := w.hist ++ evs } :=
  ⟨h.1.append (h.not_ended hp) hn, fun he => absurd he (endsFailed_append h.1 (h.not_ended hp) hn)⟩

theorem Tidy.failed {w : EW} {p : Port} {evs : History} {f : Event} {e : Elm} (h : Tidy w) (hp : w.elm.port = some p)
    (hn : ∀ e ∈ evs, ¬ Failed e) (hpe : e.port = none) : Tidy { elm := e, hist := w.hist ++ (evs ++ [f, .close]) } :=
  ⟨h.1.fail (h.not_ended hp) hn, fun _ => hpe⟩

theorem notFailed_written (cmd : Bytes) (bs : List Bytes) :
    ∀ e ∈ Event.write (line cmd) true :: reads bs, ¬ Failed e := by
  intro e he
  rcases List.mem_cons.1 he with rfl | he
  · rintro (⟨b, h⟩ | h) <;> cases h
  · exact notFailed_reads bs e he

namespace ElmM

theorem tidy_send (dev : Device) (cmd : Bytes) (d : Bool) (m : Bytes) : Kept Tidy (send dev cmd d m) := by
  intro w hw
  rcases send_outcome dev cmd d m w with ⟨-, h⟩ | ⟨p, l, w', hp, h, hr⟩ <;> rw [h]
  · exact hw
  · cases hr with
    | replied bs b hb => exact hw.more hp (notFailed_exchange cmd bs b)
    | writeFailed => exact hw.failed (evs := []) hp (by simp) rfl
    | readFailed bs hb =>
      have := hw.failed (evs := .write (line cmd) true :: reads bs) (f := .read none) (e := lost w.elm) hp (notFailed_written cmd bs) rfl
      simpa using this

theorem tidy_write (dev : Device) (cmd : Bytes) : Kept Tidy (write dev cmd) := by
  intro w hw
  show Tidy (w.write dev cmd)
  cases hp : w.elm.port with
  | none => rw [write_none hp]; exact hw
  | some p =>
    rcases write_some dev cmd w p hp with e | e <;> rw [e]
    · exact hw.more hp (by simpa [reads] using notFailed_written cmd [])
    · exact hw.failed (evs := []) hp (by simp) rfl

theorem stable_tidy (dev : Device) : Stable dev (fun _ => True) Tidy where
  send := fun cmd d m _ => tidy_send dev cmd d m
  proto := fun _ _ h => h.elm (fun hp => hp)

theorem tidy_close (dev : Device) : Kept Tidy (close dev) := by
  unfold close
  refine Kept.bind (P := Tidy) (Kept.modifyElm (fun w h => Tidy.elm h (fun hp => hp))) ?_
  intro _
  refine Kept.bind (P := Tidy) Kept.getElm ?_
  intro e
  split
  · exact Kept.pure _
  · apply Kept.bind (tidy_write dev _)
    intro _
    intro w hw
    rw [PyM.bind_ok (show getElm w = (.ok w.elm, w) from rfl)]
    cases hp : w.elm.port with
    | none => exact hw
    | some p =>
      exact hw.more hp (by intro e he; rw [List.mem_singleton] at he; subst he; exact notFailed_close)

theorem tidy_setTimeout (t : Rat) : Kept Tidy (setTimeout t) :=
  Kept.modifyElm (fun w h => h.elm (fun hp => by simp [hp]))

theorem tidy_tryRates (dev : Device) (t : Rat) (l : List Nat) (w : EW) (h : Tidy w) (hp : w.elm.port ≠ none) :
    Tidy (tryRates dev t l w).2 := by
  have sil : ∀ l evs, Silent l evs → ∀ e ∈ evs, ¬ Failed e := by
    intro l evs hs
    induction hs with
    | nil => simp
    | cons hb _ ih =>
      intro e he
      rcases List.mem_cons.1 he with rfl | he
      · rintro (⟨b, h⟩ | h) <;> cases h
      · exact ih e he
  have one : ∀ l evs r x, Silent l evs → ∀ e ∈ evs ++ [.probe r x], ¬ Failed e := by
    intro l evs r x hs e he
    rcases List.mem_append.1 he with he | he
    · exact sil l evs hs e he
    · rw [List.mem_singleton] at he; subst he
      rintro (⟨b, h⟩ | h) <;> cases h
  cases hp' : w.elm.port with
  | none => exact absurd hp' hp
  | some p =>
    rcases tryRates_spec dev t l w p hp' with
      ⟨before, after, rate, b, evs, q, hl, hs, hpr, hq, he⟩ | ⟨evs, rate, q, hs, hq, he⟩ | ⟨before, after, rate, e, evs, q, hl, hs, he⟩
    · rw [he]; exact h.more hp' (one _ _ _ _ hs)
    · rw [he]; exact h.more hp' (sil _ _ hs)
    · rw [he]; exact h.more hp' (one _ _ _ _ hs)

theorem tidy_setBaudrate (dev : Device) (b : Option Nat) : Kept Tidy (setBaudrate dev b) := by
  intro w hw
  unfold setBaudrate
  rw [PyM.bind_ok (show getElm w = (.ok w.elm, w) from rfl)]
  cases b with
  | none =>
    simp only
    split
    · exact hw
    · cases hp : w.elm.port with
      | none =>
        unfold autoBaudrate
        rw [PyM.bind_ok (show getElm w = (.ok w.elm, w) from rfl), hp]
        exact hw
      | some p =>
        rw [autoBaudrate_eq dev w p hp]
        exact tidy_tryRates dev _ _ _ (hw.elm (fun h => by rw [hp] at h; cases h)) (by simp)
  | some b =>
    simp only
    cases hp : w.elm.port with
    | none => exact hw
    | some p =>
      simp only
      split
      all_goals
        exact hw.more hp (by
          intro e he; rw [List.mem_singleton] at he; subst he
          rintro (⟨b, h⟩ | h) <;> cases h)

theorem tidy_status (x : Status) : Kept Tidy (modifyElm (fun e => { e with status := x })) :=
  Kept.modifyElm (fun _ h => h.elm (fun hp => hp))

theorem tidy_initProtocol (dev : Device) (p : Option Str) : Kept Tidy (initProtocol dev p) := by
  unfold initProtocol
  apply Kept.bind (kept_setProtocol (stable_tidy dev) p (fun _ => trivial) trivial trivial trivial)
  intro b
  split
  · apply Kept.bind (tidy_status _)
    intro _
    unfold logConnected
    refine Kept.bind (P := Tidy) Kept.getElm ?_
    intro e
    split
    · exact Kept.throw _
    · exact Kept.pure _
  · exact Kept.pure _

theorem tidy_initVoltage (dev : Device) (fl : FloatFn) (p : Option Str) (cv : Bool) : Kept Tidy (initVoltage dev fl p cv) := by
  unfold initVoltage
  split
  · apply Kept.bind (tidy_send dev _ _ _)
    intro r
    split
    · split
      · exact tidy_close dev
      · split
        · exact tidy_close dev
        · split
          · exact Kept.pure _
          · exact Kept.bind (tidy_status _) (fun _ => tidy_initProtocol dev p)
    · exact tidy_close dev
  · exact tidy_initProtocol dev p

theorem tidy_initAt (dev : Device) (fl : FloatFn) (p : Option Str) (cv : Bool) : Kept Tidy (initAt dev fl p cv) := by
  unfold initAt
  apply Kept.bind (tidy_send dev _ _ _)
  intro _
  apply Kept.bind (tidy_send dev _ _ _)
  intro r
  split
  · exact tidy_close dev
  · apply Kept.bind (tidy_send dev _ _ _)
    intro r
    split
    · exact tidy_close dev
    · apply Kept.bind (tidy_send dev _ _ _)
      intro r
      split
      · exact tidy_close dev
      · exact Kept.bind (tidy_status _) (fun _ => tidy_initVoltage dev fl p cv)

theorem tidy_construct (dev : Device) (fl : FloatFn) (port : Str) (cfg : Config) (hist : History) (hs : Shape hist) :
    Tidy (construct dev fl port cfg hist).2 := by
  have main : Kept Tidy (do
      if ¬ (← setBaudrate dev cfg.baudrate) then error dev
      else initAt dev fl cfg.protocol cfg.checkVoltage) := by
    apply Kept.bind (tidy_setBaudrate dev _)
    intro b
    split
    · exact tidy_close dev
    · exact tidy_initAt dev fl _ _
  have h1 : ∀ e : Elm, ∀ err, Tidy { elm := e, hist := hist ++ [.open_ port err] } :=
    fun e err => ⟨hs.open_, fun he => absurd he endsFailed_open⟩
  unfold construct init
  simp only
  split
  · exact tidy_close dev _ (h1 _ _)
  · exact tidy_close dev _ (h1 _ _)
  · exact h1 _ _
  · rw [PyM.bind_ok (show modifyElm _ _ = (.ok (), _) from rfl)]
    split
    · exact Kept.bind (tidy_write dev _) (fun _ => main) _ (h1 _ _)
    · exact main _ (h1 _ _)

/-! ## connected exactly if the port is open -/

theorem error_linked {dev : Device} {w w' : EW} (h : error dev w = (.ok (), w')) : Linked w' := by
  have := close_ok h
  exact ⟨fun _ => this.2.1, fun _ => this.1⟩

theorem initProtocol_linked {dev : Device} {pr : Option Str} {w w' : EW} (h : initProtocol dev pr w = (.ok (), w'))
    (hl : Linked w) : Linked w' := by
  unfold initProtocol at h
  obtain ⟨b, w1, h2, h3⟩ := bind_inv h
  cases b with
  | false =>
    cases h3
    have := kept_setProtocol (stable_linked dev) pr (fun _ => trivial) trivial trivial trivial w hl
    rw [h2] at this
    exact this
  | true =>
    simp only [if_true] at h3
    obtain ⟨_, w2, h4, h5⟩ := bind_inv h3
    have hw2 : w2 = { w1 with elm := { w1.elm with status := .carConnected } } := (congrArg Prod.snd h4).symm
    unfold logConnected at h5
    obtain ⟨e, w3, h6, h7⟩ := bind_inv h5
    have hw3 : w3 = w2 := (congrArg Prod.snd h6).symm
    have he : e = w2.elm := by cases h6; rfl
    subst hw3 he
    cases hp : w3.elm.port with
    | none => rw [hp] at h7; cases h7
    | some p =>
      rw [hp] at h7
      cases h7
      unfold Linked
      rw [hp, hw2]
      simp

theorem initVoltage_linked {dev : Device} {fl : FloatFn} {pr : Option Str} {cv : Bool} {w w' : EW}
    (h : initVoltage dev fl pr cv w = (.ok (), w')) (hl : Linked w) : Linked w' := by
  unfold initVoltage at h
  cases cv with
  | false =>
    simp only [Bool.false_eq_true, if_false] at h
    exact initProtocol_linked h hl
  | true =>
    simp only [if_true] at h
    obtain ⟨l, w1, h2, h3⟩ := bind_inv h
    have hl1 : Linked w1 := by
      have := (stable_linked dev).send (ascii "AT RV") false elmPrompt trivial w hl
      rw [h2] at this; exact this
    match l with
    | [] => exact error_linked h3
    | _ :: _ :: _ => exact error_linked h3
    | [l] =>
      simp only at h3
      split at h3
      · exact error_linked h3
      · cases hf : fl ((lower l).filter (fun c => c != 'v')) with
        | none => rw [hf] at h3; exact error_linked h3
        | some x =>
          rw [hf] at h3
          simp only at h3
          split at h3
          · cases h3; exact hl1
          · obtain ⟨_, w2, h4, h5⟩ := bind_inv h3
            have hw2 : w2 = { w1 with elm := { w1.elm with status := .obdConnected } } := (congrArg Prod.snd h4).symm
            apply initProtocol_linked h5
            have hp1 := send_lines_port h2 (by simp)
            unfold Linked
            rw [hw2]
            simp [hp1]

theorem construct_linked {dev : Device} {fl : FloatFn} {port : Str} {cfg : Config} {hist : History} {w : EW}
    (h : construct dev fl port cfg hist = (.ok (), w)) : Linked w := by
  have key : ∀ w0 : EW, ((do
        if ¬ (← setBaudrate dev cfg.baudrate) then error dev
        else initAt dev fl cfg.protocol cfg.checkVoltage) : ElmM Unit) w0 = (.ok (), w) → Linked w := by
    intro w0 h
    obtain ⟨b, w1, h1, h2⟩ := bind_inv h
    cases b with
    | false => exact error_linked (show error dev w1 = (.ok (), w) from h2)
    | true =>
      have h : initAt dev fl cfg.protocol cfg.checkVoltage w1 = (.ok (), w) := h2
      unfold initAt at h
      obtain ⟨r1, w1, s1, h⟩ := bind_inv h
      obtain ⟨r2, w2, s2, h⟩ := bind_inv h
      split at h
      · exact error_linked h
      · obtain ⟨r3, w3, s3, h⟩ := bind_inv h
        split at h
        · exact error_linked h
        · obtain ⟨r4, w4, s4, h⟩ := bind_inv h
          split at h
          · exact error_linked h
          · next ok4 =>
            rw [not_not] at ok4
            have ok4 := isOk_false ok4
            subst ok4
            have hp4 := send_lines_port s4 (by simp)
            obtain ⟨_, w5, s5, h⟩ := bind_inv h
            have q5 : w5 = { w4 with elm := { w4.elm with status := .elmConnected } } := (congrArg Prod.snd s5).symm
            apply initVoltage_linked h
            unfold Linked
            rw [q5]
            simp [hp4]
  unfold construct init at h
  simp only at h
  split at h
  · exact error_linked h
  · exact error_linked h
  · cases h
  · rw [PyM.bind_ok (show modifyElm _ _ = (.ok (), _) from rfl)] at h
    split at h
    · obtain ⟨_, w1, h1, h2⟩ := bind_inv h
      exact key _ h2
    · exact key _ h

/-! ## what a constructor call keeps until it gives up -/

def Closed (w : EW) : Prop := w.elm.status = .notConnected ∧ w.elm.port = none ∧ w.elm.protocol = none

structure Base (dev : Device) (C : Bytes → Prop) (P : EW → Prop) : Prop extends Stable dev C P where
  status : ∀ w x, P w → P { w with elm := { w.elm with status := x } }
  baud : ∀ b, Kept P (setBaudrate dev b)
  wake : Kept P (write dev (ascii " "))

variable {dev : Device} {C : Bytes → Prop} {P : EW → Prop}

theorem initProtocol_keeps (hB : Base dev C P) (hC : ∀ id, C (ascii "ATTP" ++ encodeAscii id))
    (hC' : ∀ c ∈ ["0100", "ATSP0", "ATDPN"], C (ascii c)) (pr : Option Str) : Kept P (initProtocol dev pr) := by
  unfold initProtocol
  refine Kept.bind (kept_setProtocol hB.toStable pr hC (hC' _ (by simp)) (hC' _ (by simp)) (hC' _ (by simp))) (fun b => ?_)
  split
  · refine Kept.bind (Kept.modifyElm (fun w h => hB.status w _ h)) (fun _ => ?_)
    unfold logConnected
    refine Kept.bind Kept.getElm (fun e => ?_)
    split
    · exact Kept.throw _
    · exact Kept.pure _
  · exact Kept.pure _

theorem Kept.ok_ {σ α : Type} {P : σ → Prop} {m : PyM σ α} (h : Kept P m) {w w' : σ} {a : α} (hm : m w = (.ok a, w')) (hw : P w) : P w' := by
  have := h w hw
  rw [hm] at this; exact this

theorem initVoltage_keeps (hB : Base dev C P) (hC : ∀ id, C (ascii "ATTP" ++ encodeAscii id))
    (hC' : ∀ c ∈ ["0100", "ATSP0", "ATDPN"], C (ascii c)) (hV : C (ascii "AT RV")) {fl : FloatFn} {pr : Option Str} {cv : Bool} {w w' : EW}
    (h : initVoltage dev fl pr cv w = (.ok (), w')) (hl : P w) : P w' ∨ Closed w' := by
  unfold initVoltage at h
  cases cv with
  | false =>
    simp only [Bool.false_eq_true, if_false] at h
    exact Or.inl (Kept.ok_ (initProtocol_keeps hB hC hC' pr) h hl)
  | true =>
    simp only [if_true] at h
    obtain ⟨l, w1, h2, h3⟩ := bind_inv h
    have hl1 := Kept.ok_ (hB.send _ _ _ hV) h2 hl
    match l with
    | [] => exact Or.inr (close_ok h3)
    | _ :: _ :: _ => exact Or.inr (close_ok h3)
    | [l] =>
      simp only at h3
      split at h3
      · exact Or.inr (close_ok h3)
      · cases hf : fl ((lower l).filter (fun c => c != 'v')) with
        | none => rw [hf] at h3; exact Or.inr (close_ok h3)
        | some x =>
          rw [hf] at h3
          simp only at h3
          split at h3
          · cases h3; exact Or.inl hl1
          · obtain ⟨_, w2, h4, h5⟩ := bind_inv h3
            have hw2 : w2 = { w1 with elm := { w1.elm with status := .obdConnected } } := (congrArg Prod.snd h4).symm
            exact Or.inl (Kept.ok_ (initProtocol_keeps hB hC hC' pr) h5 (by rw [hw2]; exact hB.status _ _ hl1))

theorem construct_keeps (hB : Base dev C P) (hC : ∀ id, C (ascii "ATTP" ++ encodeAscii id))
    (hC' : ∀ c ∈ ["0100", "ATSP0", "ATDPN"], C (ascii c)) (hC2 : ∀ c ∈ ["AT RV", "ATZ", "ATE0", "ATH1", "ATL0"], C (ascii c))
    {fl : FloatFn} {port : Str} {cfg : Config} {hist : History} {w : EW}
    (h : construct dev fl port cfg hist = (.ok (), w)) (h0 : P (opened port cfg hist)) : P w ∨ Closed w := by
  have key : ∀ w0 : EW, P w0 → ((do
        if ¬ (← setBaudrate dev cfg.baudrate) then error dev
        else initAt dev fl cfg.protocol cfg.checkVoltage) : ElmM Unit) w0 = (.ok (), w) → P w ∨ Closed w := by
    intro w0 h0 h
    obtain ⟨b, w1, h1, h2⟩ := bind_inv h
    have p1 := Kept.ok_ (hB.baud _) h1 h0
    cases b with
    | false => exact Or.inr (close_ok (show error dev w1 = (.ok (), w) from h2))
    | true =>
      have h : initAt dev fl cfg.protocol cfg.checkVoltage w1 = (.ok (), w) := h2
      unfold initAt at h
      obtain ⟨r1, w1, s1, h⟩ := bind_inv h
      have p1 := Kept.ok_ (hB.send _ _ _ (hC2 _ (by simp))) s1 p1
      obtain ⟨r2, w2, s2, h⟩ := bind_inv h
      have p2 := Kept.ok_ (hB.send _ _ _ (hC2 _ (by simp))) s2 p1
      split at h
      · exact Or.inr (close_ok h)
      · obtain ⟨r3, w3, s3, h⟩ := bind_inv h
        have p3 := Kept.ok_ (hB.send _ _ _ (hC2 _ (by simp))) s3 p2
        split at h
        · exact Or.inr (close_ok h)
        · obtain ⟨r4, w4, s4, h⟩ := bind_inv h
          have p4 := Kept.ok_ (hB.send _ _ _ (hC2 _ (by simp))) s4 p3
          split at h
          · exact Or.inr (close_ok h)
          · obtain ⟨_, w5, s5, h⟩ := bind_inv h
            have q5 : w5 = { w4 with elm := { w4.elm with status := .elmConnected } } := (congrArg Prod.snd s5).symm
            exact initVoltage_keeps hB hC hC' (hC2 _ (by simp)) h (by rw [q5]; exact hB.status _ _ p4)
  unfold construct init at h
  simp only at h
  split at h
  · exact Or.inr (close_ok h)
  · exact Or.inr (close_ok h)
  · cases h
  · next ho =>
    rw [PyM.bind_ok (show modifyElm _ _ = (.ok (), _) from rfl)] at h
    split at h
    · obtain ⟨_, w1, h1, h2⟩ := bind_inv h
      exact key _ (Kept.ok_ hB.wake h1 (by rw [ho]; exact h0)) h2
    · exact key _ (by rw [ho]; exact h0) h

/-- A property of the object that only the rate of the port, the status or a lost port may change. -/
theorem base_elm (dev : Device) (Q : Elm → Prop) (hlost : ∀ e, Q e → Q (lost e)) (hproto : ∀ e o, Q e → Q { e with protocol := some o })
    (hstatus : ∀ e x, Q e → Q { e with status := x })
    (hport : ∀ e p, Q e → Q { e with port := p }) : Base dev (fun _ => True) (fun w => Q w.elm) where
  send := by
    intro cmd d m _ w hw
    rcases send_outcome dev cmd d m w with ⟨-, h⟩ | ⟨p, l, w', hp, h, hr⟩ <;> rw [h]
    · exact hw
    · cases hr with
      | replied => exact hw
      | writeFailed => exact hlost _ hw
      | readFailed => exact hlost _ hw
  proto := fun w o h => hproto _ _ h
  status := fun w x h => hstatus _ _ h
  wake := by
    intro w hw
    show Q (w.write dev (ascii " ")).elm
    cases hp : w.elm.port with
    | none => rw [write_none hp]; exact hw
    | some p =>
      rcases write_some dev (ascii " ") w p hp with e | e <;> rw [e]
      · exact hw
      · exact hlost _ hw
  baud := by
    intro b
    have ht : ∀ t, Kept (fun w : EW => Q w.elm) (setTimeout t) := fun t => Kept.modifyElm (P := fun w => Q w.elm) (fun w h => hport _ _ h)
    have htr : ∀ t l, Kept (fun w : EW => Q w.elm) (tryRates dev t l) := by
      intro t l
      induction l with
      | nil => exact Kept.bind (P := fun w : EW => Q w.elm) (ht t) (fun _ => Kept.pure _)
      | cons r l ih =>
        unfold tryRates
        refine Kept.bind (P := fun w : EW => Q w.elm) (fun w h => hport _ _ h) (fun b => ?_)
        split
        · exact Kept.bind (P := fun w : EW => Q w.elm) (ht t) (fun _ => Kept.pure _)
        · exact ih
    unfold setBaudrate
    refine Kept.bind (P := fun w : EW => Q w.elm) Kept.getElm (fun e => ?_)
    cases b with
    | none =>
      simp only
      split
      · exact Kept.pure _
      · unfold autoBaudrate
        refine Kept.bind (P := fun w : EW => Q w.elm) Kept.getElm (fun e => ?_)
        split
        · exact Kept.throw _
        · exact Kept.bind (P := fun w : EW => Q w.elm) (ht _) (fun _ => htr _ _)
    | some b =>
      simp only
      split
      · exact Kept.throw _
      · intro w hw
        simp only
        split
        · exact hw
        · exact hport _ _ hw

theorem construct_proto {fl : FloatFn} {port : Str} {cfg : Config} {hist : History} {w : EW}
    (h : construct dev fl port cfg hist = (.ok (), w)) : w.elm.protocol = none → w.elm.status = .notConnected := by
  have hB := base_elm dev (fun e => e.protocol ≠ none) (fun e h => h) (fun e o h => by simp) (fun e x h => h) (fun e p h => h)
  rcases construct_keeps hB (fun _ => trivial) (fun _ _ => trivial) (fun _ _ => trivial) h (by simp [opened, fresh]) with h | h
  · exact fun hn => absurd hn h
  · exact fun _ => h.1

theorem construct_lowPower {fl : FloatFn} {port : Str} {cfg : Config} {hist : History} {w : EW}
    (h : construct dev fl port cfg hist = (.ok (), w)) : w.elm.lowPower = false ∨ Closed w := by
  have hB := base_elm dev (fun e => e.lowPower = false) (fun e h => h) (fun e o h => h) (fun e x h => h) (fun e p h => h)
  exact construct_keeps hB (fun _ => trivial) (fun _ _ => trivial) (fun _ _ => trivial) h rfl

end ElmM
end Model
