import Verif.Spec.Start
import Verif.Props.Robust
import Verif.Props.EcuMap
import Verif.Lemmas.Hist
/-!
# Why the constructor may raise
-/
namespace Model
open Py Spec Props

/-! ### The protocol in use -/

theorem _root_.Spec.NoChoice.append {a b : History} (ha : NoChoice a) (hb : NoChoice b) : NoChoice (a ++ b) := by
  refine ⟨?_, ?_⟩
  · intro e he
    rcases List.mem_append.1 he with he | he
    · exact ha.1 e he
    · exact hb.1 e he
  · intro x ok he
    rcases List.mem_append.1 he with he | he
    · exact ha.2 x ok he
    · exact hb.2 x ok he

theorem _root_.Spec.Requested.more {h evs : History} {id : Str} (hr : Requested h id) (he : NoChoice evs) : Requested (h ++ evs) id := by
  obtain ⟨pre, ok, post, rfl, hn⟩ := hr
  exact ⟨pre, ok, post ++ evs, by simp, hn.append he⟩

theorem _root_.Spec.Selected.more {h evs : History} {id : Str} (hr : Selected h id) (he : NoChoice evs) : Selected (h ++ evs) id := by
  rcases hr with hr | ⟨pre, bs, b, l, post, rfl, h1, h2, hn⟩
  · exact Or.inl (hr.more he)
  · exact Or.inr ⟨pre, bs, b, l, post ++ evs, by simp, h1, h2, hn.append he⟩

/-- Events that are not lines. -/
theorem noChoice_quiet {evs : History} (h1 : NoOpen evs) (h2 : ∀ b ok, .write b ok ∉ evs) : NoChoice evs :=
  ⟨h1, fun b ok h => absurd h (h2 b ok)⟩

theorem noChoice_dialogue {evs : History} {cmd : Bytes} {l : List Str} (hd : Dialogue evs [(cmd, l)]) (hc : ¬ Chooses (line cmd)) : NoChoice evs := by
  refine ⟨Dialogue.noOpen hd, ?_⟩
  intro b ok hb
  cases hd with
  | cons hl hbs h =>
    cases h
    simp only [List.mem_cons, List.mem_append, List.mem_map, Event.write.injEq] at hb
    rcases hb with ⟨rfl, -⟩ | ⟨x, -, hx⟩ | hx | hx
    · exact hc
    · cases hx
    · cases hx
    · cases hx

theorem noChoice_abort {evs : History} {cmd : Bytes} (hd : Abort cmd evs) (hc : ¬ Chooses (line cmd)) : NoChoice evs := by
  refine ⟨Abort.noOpen hd, ?_⟩
  intro b ok hb
  cases hd with
  | onWrite =>
    simp only [List.mem_cons, List.not_mem_nil, or_false, Event.write.injEq, reduceCtorEq] at hb
    rw [hb.1]; exact hc
  | onRead bs hbs =>
    simp only [List.mem_cons, List.mem_append, List.mem_map, Event.write.injEq, List.not_mem_nil, or_false, reduceCtorEq] at hb
    rcases hb with ⟨rfl, -⟩ | ⟨x, -, hx⟩
    · exact hc
    · cases hx

theorem requested_dialogue {evs : History} {id : Str} {l : List Str} (h : History) (hd : Dialogue evs [(selects id, l)]) : Requested (h ++ evs) id := by
  cases hd with
  | cons hl hbs hd =>
    cases hd
    refine ⟨h, true, _, rfl, noChoice_quiet ?_ ?_⟩
    · intro e he p r
      simp only [List.mem_append, List.mem_map, List.mem_singleton] at he
      rcases he with ⟨x, -, rfl⟩ | rfl <;> simp
    · intro b ok hb
      simp at hb

theorem requested_abort {evs : History} {id : Str} (h : History) (hd : Abort (selects id) evs) : Requested (h ++ evs) id := by
  cases hd with
  | onWrite => exact ⟨h, false, [.close], rfl, noChoice_quiet (by intro e he p r; simp at he; subst he; simp) (by simp)⟩
  | onRead bs hbs =>
    refine ⟨h, true, _, rfl, noChoice_quiet ?_ ?_⟩
    · intro e he p r
      simp only [List.mem_append, List.mem_map, List.mem_cons, List.not_mem_nil, or_false] at he
      rcases he with ⟨x, -, rfl⟩ | rfl | rfl <;> simp
    · intro b ok hb
      simp at hb

theorem announced_dialogue {evs : History} {id l : Str} (h : History) (hd : Dialogue evs [(ascii "ATDPN", [l])]) (ha : Announces l id) :
    Selected (h ++ evs) id := by
  cases hd with
  | cons hl hbs hd =>
    cases hd
    exact Or.inr ⟨h, _, _, l, [], rfl, hl, ha, noChoice_quiet (by intro e he; simp at he) (by simp)⟩

/-- The first character of a line that chooses. -/
theorem not_chooses {cmd : Bytes} (h : cmd.head? ≠ some 0x41) : ¬ Chooses (line cmd) := by
  have hc : ∀ c : Bytes, c.head? = some 0x41 → line cmd ≠ line c := by
    intro c hc he
    rw [ObdM.line_inj he] at h
    exact h hc
  rintro (h1 | ⟨id, -, h1⟩)
  · exact hc _ (by decide) h1
  · exact hc _ (by simp [selects, ascii]) h1

theorem not_chooses_0100 : ¬ Chooses (line (ascii "0100")) := not_chooses (by decide)

theorem ends_dialogue {h evs : History} {cmd : Bytes} {l : List Str} (hd : Dialogue evs [(cmd, l)]) : Ends (h ++ evs) cmd l := by
  cases hd with
  | @cons _ _ bs b _ _ hl hbs hd =>
    cases hd
    exact ⟨h, bs, b, rfl, hl, hbs⟩

/-- If `m` raises from a state with `P`, then the history tells why. -/
def Raises {α : Type} (P : EW → Prop) (m : ElmM α) : Prop := ∀ w x w', P w → m w = (.error x, w') → StartFails w'.hist x

/-- The port is open. -/
abbrev Live0 (w : EW) : Prop := w.elm.port ≠ none

namespace Raises
variable {α β : Type} {P : EW → Prop}

theorem bind {Q : EW → Prop} {m : ElmM α} {f : α → ElmM β} (hk : ∀ w, P w → Q (m w).2) (hm : Raises P m) (hf : ∀ a, Raises Q (f a)) : Raises P (m >>= f) := by
  intro w x w' hw h
  rw [PyM.bind_apply] at h
  cases hr : m w with
  | mk r w1 =>
    rw [hr] at h
    cases r with
    | error e => cases h; exact hm w _ _ hw hr
    | ok a =>
      have := hk w hw
      rw [hr] at this
      exact hf a w1 _ _ this h

theorem weaken {Q : EW → Prop} {m : ElmM α} (h : Raises Q m) (hPQ : ∀ w, P w → Q w) : Raises P m := fun w x w' hw he => h w x w' (hPQ w hw) he

theorem pure (a : α) : Raises P (Pure.pure a : ElmM α) := by intro w x w' _ h; cases h
theorem send (dev : Device) (c : Bytes) (d : Bool) (m : Bytes) : Raises P (ElmM.send dev c d m) := by intro w x w' _ h; cases h
theorem modifyElm (f : Elm → Elm) : Raises P (ElmM.modifyElm f) := by intro w x w' _ h; cases h
theorem getElm : Raises P ElmM.getElm := by intro w x w' _ h; cases h
theorem write (dev : Device) (c : Bytes) : Raises P (ElmM.write dev c) := by intro w x w' _ h; cases h

/-- After a reply the port is open. -/
theorem sent {dev : Device} {c : Bytes} {d : Bool} {mk : Bytes} {f : List Str → ElmM β} (hf : ∀ r, Raises (fun w => r ≠ [] → Live0 w) (f r)) :
    Raises P (ElmM.send dev c d mk >>= f) := by
  intro w x w' hw h
  by_cases hp : w.elm.port = none
  · rcases ElmM.send_outcome dev c d mk w with ⟨-, h1⟩ | ⟨p, l, w1, hp1, -⟩
    · rw [PyM.bind_ok h1] at h
      exact hf _ _ _ _ (by simp) h
    · rw [hp] at hp1; cases hp1
  · rcases send_cases dev c d mk w hp with ⟨l, evs, -, h1⟩ | ⟨evs, -, h1⟩
    · rw [PyM.bind_ok h1] at h
      exact hf l { w with hist := w.hist ++ evs } _ _ (fun _ => hp) h
    · rw [PyM.bind_ok h1] at h
      exact hf _ _ _ _ (by simp) h
end Raises

namespace ElmM
variable {dev : Device}

theorem raises_close {P : EW → Prop} : Raises P (close dev) := by
  intro w x w' hw h
  unfold close at h
  rw [PyM.bind_ok (show modifyElm _ w = (.ok (), _) from rfl), PyM.bind_ok (show getElm _ = (.ok _, _) from rfl)] at h
  cases hp : w.elm.port with
  | none => simp only [hp] at h; cases h
  | some p =>
    simp only [hp] at h
    rw [PyM.bind_ok (show write dev (ascii "ATZ") _ = (.ok (), _) from rfl), PyM.bind_ok (show getElm _ = (.ok _, _) from rfl)] at h
    rcases write_some dev (ascii "ATZ") { w with elm := { w.elm with status := .notConnected, protocol := none, port := some p } } p rfl with h1 | h1
    all_goals
      rw [h1] at h
      cases h
    exact .lost (ascii "ATZ") ⟨w.hist, _, rfl, .onWrite⟩ (Or.inr (Or.inl rfl))

theorem raises_tryRates {P : EW → Prop} (hP : ∀ w, P w) (t : Rat) (l : List Nat) : Raises P (tryRates dev t l) := by
  induction l with
  | nil => exact Raises.bind (Q := P) (fun w _ => hP _) (Raises.modifyElm _) (fun _ => Raises.pure _)
  | cons b l ih =>
    refine Raises.bind (Q := P) (fun w _ => hP _) ?_ (fun r => ?_)
    · intro w x w' hw h
      unfold probe at h
      have h1 := congrArg Prod.fst h
      have h2 := congrArg Prod.snd h
      simp only at h1 h2
      rw [← h2, h1]
      exact .probing b x (by simp)
    · split
      · exact Raises.bind (Q := P) (fun w _ => hP _) (Raises.modifyElm _) (fun _ => Raises.pure _)
      · exact ih

theorem raises_setBaudrate (b : Option Nat) : Raises (fun w => w.elm.port = none → LostAt w.hist (ascii " ")) (setBaudrate dev b) := by
  intro w x w' hw h
  have lost : w.elm.port = none → StartFails w.hist .attributeError := fun hp => .lost _ (hw hp) (Or.inl rfl)
  unfold setBaudrate at h
  rw [PyM.bind_ok (show getElm _ = (.ok _, _) from rfl)] at h
  cases b with
  | none =>
    simp only at h
    split at h
    · cases h
    · unfold autoBaudrate at h
      rw [PyM.bind_ok (show getElm _ = (.ok _, _) from rfl)] at h
      cases hp : w.elm.port with
      | none => simp only [hp] at h; cases h; exact lost hp
      | some p =>
        simp only [hp] at h
        exact Raises.bind (P := fun _ => True) (Q := fun _ => True) (fun _ _ => trivial) (Raises.modifyElm _)
          (fun _ => raises_tryRates (fun _ => trivial) _ _) w x w' trivial h
  | some b =>
    simp only at h
    cases hp : w.elm.port with
    | none => simp only [hp] at h; cases h; exact lost hp
    | some p =>
      simp only [hp] at h
      cases he : dev.setBaud w.hist b with
      | none => simp only [he] at h; cases h
      | some y => simp only [he] at h; cases h; exact .rate b x (by simp)

theorem init_nil (p : Proto) : ∃ o, p.init [] = .ok o := by
  obtain ⟨o, ho, -⟩ := C20_no_answer p [] [] (by rfl) (by rintro t d ⟨m, hm, -⟩; simp at hm)
  exact ⟨o, ho⟩

theorem raises_init {h : History} {p : Proto} {r : List Str} (hs : Selected h p.elmId) (hr : Latest h (ascii "0100") r) {x : Exc}
    (hi : p.init r = .error x) : StartFails h x := by
  cases hc : p.call p.defaultMap r with
  | error y =>
    have hx : y = x := by
      unfold Proto.init at hi
      simp only [bind, Except.bind, hc] at hi
      cases hi; rfl
    subst hx
    obtain ⟨h1, h2⟩ := trips_of (o := ⟨p, p.defaultMap⟩) hc
    subst h1
    exact .parsing p _ r hs hr h2
  | ok ms =>
    have hx : x = .typeError := by
      unfold Proto.init at hi
      simp only [bind, Except.bind, hc, pure, Except.pure] at hi
      split at hi
      · cases hi
      · cases hi; rfl
    subst hx
    obtain ⟨⟨t, t', d, d', h1, h2, h3⟩, h4, h5⟩ := (C20_raises p r ms hc).1 ⟨_, hi⟩
    exact .ecus p r ms hs hr hc t t' d d' h1 h2 h3 h4 h5

/-- What choosing a protocol does: it raises for one of the reasons; or it returns, and if the line was lost on the way,
then when a protocol was requested; or the line is there. -/
def Choosing (m : ElmM Bool) : Prop := ∀ w, Live0 w →
  (∀ x w', m w = (.error x, w') → StartFails w'.hist x) ∧
  (∀ w', m w = (.ok true, w') → w'.elm.port = none → StartFails w'.hist .attributeError) ∧
  (∀ w', m w = (.ok false, w') → True)

theorem unable_nil : EW.hasMessage [] unableToConnect = false := rfl

theorem manual_cases {id : Str} {p : Proto} (hg : supportedProtocols.get? id = some p) (w : EW) (hw : Live0 w) :
    (∀ x w', manualProtocol dev id p w = (.error x, w') → StartFails w'.hist x) ∧
    (∀ w', manualProtocol dev id p w = (.ok true, w') → w'.elm.port = none → StartFails w'.hist .attributeError) ∧
    (∀ w', manualProtocol dev id p w = (.ok false, w') → Live0 w') := by
  have hk : id ∈ knownIds := (known_iff id).2 ⟨p, hg⟩
  have hid : p.elmId = id := get_elmId hg
  obtain ⟨o, ho⟩ := init_nil p
  have e1 : manualProtocol dev id p w = (do
      let r0100 ← send dev (ascii "0100")
      if EW.hasMessage r0100 unableToConnect then return false
      else
        loadProtocol p r0100
        return true : ElmM Bool) (send dev (selects id) false elmPrompt w).2 := by
    unfold manualProtocol
    rw [PyM.bind_ok (show send dev (ascii "ATTP" ++ encodeAscii id) false elmPrompt w = (.ok _, _) from rfl)]
    rfl
  rcases send_cases dev (selects id) false elmPrompt w hw with ⟨l, evs, hd, h1⟩ | ⟨evs, hd, h1⟩ <;> rw [h1] at e1
  · have hR := requested_dialogue w.hist hd
    rcases send_cases dev (ascii "0100") false elmPrompt { w with hist := w.hist ++ evs } hw with ⟨l', evs', hd', h2⟩ | ⟨evs', hd', h2⟩ <;>
      rw [PyM.bind_ok h2] at e1
    · have hR' := hR.more (noChoice_dialogue hd' not_chooses_0100)
      by_cases hu : EW.hasMessage l' unableToConnect = true
      · rw [if_pos hu] at e1
        rw [e1]
        refine ⟨?_, ?_, ?_⟩
        · intro x w' h; cases h
        · intro w' h; cases h
        · intro w' h; cases h; exact hw
      · rw [if_neg hu] at e1
        unfold loadProtocol at e1
        cases hi : p.init l' with
        | error y =>
          rw [hi] at e1
          rw [e1]
          refine ⟨?_, ?_, ?_⟩
          · intro x w' h; cases h
            exact raises_init (Or.inl (hid.symm ▸ hR')) (Or.inl (ends_dialogue hd')) hi
          · intro w' h; cases h
          · intro w' h; cases h
        | ok o' =>
          rw [hi] at e1
          rw [e1]
          refine ⟨?_, ?_, ?_⟩
          · intro x w' h; cases h
          · intro w' h hp; cases h; exact absurd hp hw
          · intro w' h; cases h
    · have hR' := hR.more (noChoice_abort hd' not_chooses_0100)
      rw [unable_nil] at e1
      unfold loadProtocol at e1
      rw [ho] at e1
      rw [e1]
      refine ⟨?_, ?_, ?_⟩
      · intro x w' h; cases h
      · intro w' h _; cases h
        exact .lost _ ⟨_, _, rfl, hd'⟩ (Or.inr (Or.inr ⟨id, hk, hR', Or.inr rfl⟩))
      · intro w' h; cases h
  · have hR := requested_abort w.hist hd
    rcases send_outcome dev (ascii "0100") false elmPrompt { elm := lost w.elm, hist := w.hist ++ evs } with ⟨-, h2⟩ | ⟨q, l, w', hq, -⟩
    · rw [PyM.bind_ok h2, unable_nil] at e1
      unfold loadProtocol at e1
      rw [ho] at e1
      rw [e1]
      refine ⟨?_, ?_, ?_⟩
      · intro x w' h; cases h
      · intro w' h _; cases h
        exact .lost _ ⟨_, _, rfl, hd⟩ (Or.inr (Or.inr ⟨id, hk, hR, Or.inl rfl⟩))
      · intro w' h; cases h
    · cases hq

theorem choosing_manual {id : Str} {p : Proto} (hg : supportedProtocols.get? id = some p) : Choosing (manualProtocol dev id p) := by
  intro w hw
  obtain ⟨h1, h2, -⟩ := manual_cases (dev := dev) hg w hw
  exact ⟨h1, h2, fun _ _ => trivial⟩

theorem choosing_try (l : List Str) (hl : ∀ id ∈ l, supportedProtocols.get? id ≠ none) : Choosing (tryProtocols dev l) := by
  induction l with
  | nil =>
    intro w _
    refine ⟨?_, ?_, fun _ _ => trivial⟩
    · intro x w' h; cases h
    · intro w' h; cases h
  | cons id l ih =>
    have ih := ih (fun id h => hl id (by simp [h]))
    unfold tryProtocols
    cases hg : supportedProtocols.get? id with
    | none => exact absurd hg (hl id (by simp))
    | some p =>
      simp only
      intro w hw
      obtain ⟨h1, h2, h3⟩ := manual_cases (dev := dev) hg w hw
      rw [PyM.bind_apply]
      cases hm : manualProtocol dev id p w with
      | mk r w1 =>
        cases r with
        | error y =>
          refine ⟨?_, ?_, fun _ _ => trivial⟩
          · intro x w' h; cases h; exact h1 _ _ hm
          · intro w' h; cases h
        | ok b =>
          cases b with
          | true =>
            refine ⟨?_, ?_, fun _ _ => trivial⟩
            · intro x w' h; cases h
            · intro w' h hp; cases h; exact h2 _ hm hp
          | false => exact ih w1 (h3 _ hm)

theorem choosing_set (pr : Option Str) : Choosing (setProtocol dev pr) := by
  unfold setProtocol
  cases pr with
  | some id =>
    simp only
    cases hg : supportedProtocols.get? id with
    | none =>
      intro w _
      refine ⟨?_, ?_, fun _ _ => trivial⟩
      · intro x w' h; cases h
      · intro w' h; cases h
    | some p => exact choosing_manual hg
  | none =>
    simp only
    intro w hw
    have no : ∀ w1 : EW, ((pure false : ElmM Bool) w1 = (.ok false, w1)) := fun _ => rfl
    have triv : ∀ w1 : EW, autoProtocol dev w = (.ok false, w1) →
        (∀ x w', autoProtocol dev w = (.error x, w') → StartFails w'.hist x) ∧
        (∀ w', autoProtocol dev w = (.ok true, w') → w'.elm.port = none → StartFails w'.hist .attributeError) ∧
        (∀ w', autoProtocol dev w = (.ok false, w') → True) := by
      intro w1 h
      rw [h]
      refine ⟨?_, ?_, fun _ _ => trivial⟩
      · intro x w' h; cases h
      · intro w' h; cases h
    -- once the port is gone, nothing is announced
    have gone : ∀ (c : Bytes) (d : Bool) (w1 : EW), w1.elm.port = none → send dev c d elmPrompt w1 = (.ok [], w1) := by
      intro c d w1 hp
      rcases send_outcome dev c d elmPrompt w1 with ⟨-, h⟩ | ⟨q, l, w', hq, -⟩
      · exact h
      · rw [hp] at hq; cases hq
    unfold autoProtocol at triv ⊢
    rcases send_cases dev (ascii "ATSP0") true elmPrompt w hw with ⟨l, evs, hd, h1⟩ | ⟨evs, hd, h1⟩
    · rw [PyM.bind_ok h1] at triv ⊢
      rcases send_cases dev (ascii "0100") true elmPrompt { w with hist := w.hist ++ evs } hw with ⟨l', evs', hd', h2⟩ | ⟨evs', hd', h2⟩
      · rw [PyM.bind_ok h2] at triv ⊢
        by_cases hu : EW.hasMessage l' unableToConnect = true
        · rw [if_pos hu] at triv ⊢
          exact triv _ rfl
        · rw [if_neg hu] at triv ⊢
          rcases send_cases dev (ascii "ATDPN") false elmPrompt { w with hist := w.hist ++ evs ++ evs' } hw with ⟨l'', evs'', hd'', h3⟩ | ⟨evs'', hd'', h3⟩
          · rw [PyM.bind_ok h3] at triv ⊢
            match l'', hd'' with
            | [], _ => exact triv _ rfl
            | _ :: _ :: _, _ => exact triv _ rfl
            | [l], hd'' =>
              simp only
              cases hg : supportedProtocols.get? (stripAuto l) with
              | none => exact choosing_try _ (by decide) _ hw
              | some p =>
                simp only
                have hS : Selected (w.hist ++ evs ++ evs' ++ evs'') p.elmId := by
                  rw [get_elmId hg]
                  exact announced_dialogue _ hd'' (stripAuto_announces l)
                unfold loadProtocol
                cases hi : p.init l' with
                | error y =>
                  refine ⟨?_, ?_, fun _ _ => trivial⟩
                  · intro x w' h; cases h
                    exact raises_init hS (Or.inr ⟨_, evs'', l, rfl, ends_dialogue hd', hd''⟩) hi
                  · intro w' h; cases h
                | ok o =>
                  refine ⟨?_, ?_, fun _ _ => trivial⟩
                  · intro x w' h; cases h
                  · intro w' h hp; cases h; exact absurd hp hw
          · rw [PyM.bind_ok h3] at triv ⊢
            exact triv _ rfl
      · rw [PyM.bind_ok h2, unable_nil] at triv ⊢
        simp only [Bool.false_eq_true, if_false] at triv ⊢
        rw [PyM.bind_ok (gone _ _ _ rfl)] at triv ⊢
        exact triv _ rfl
    · rw [PyM.bind_ok h1, PyM.bind_ok (gone _ _ _ rfl), unable_nil] at triv ⊢
      simp only [Bool.false_eq_true, if_false] at triv ⊢
      rw [PyM.bind_ok (gone _ _ _ rfl)] at triv ⊢
      exact triv _ rfl

theorem raises_initProtocol (pr : Option Str) : Raises Live0 (initProtocol dev pr) := by
  intro w x w' hw h
  unfold initProtocol at h
  obtain ⟨h1, h2, -⟩ := choosing_set (dev := dev) pr w hw
  rw [PyM.bind_apply] at h
  cases hm : setProtocol dev pr w with
  | mk r w1 =>
    rw [hm] at h
    cases r with
    | error y => cases h; exact h1 _ _ hm
    | ok b =>
      cases b with
      | false => cases h
      | true =>
        simp only [if_true] at h
        rw [PyM.bind_ok (show modifyElm _ w1 = (.ok (), _) from rfl)] at h
        unfold logConnected at h
        rw [PyM.bind_ok (show getElm _ = (.ok _, _) from rfl)] at h
        cases hp : w1.elm.port with
        | none => simp only [hp] at h; cases h; exact h2 w1 hm hp
        | some p => simp only [hp] at h; cases h

theorem raises_initVoltage (fl : FloatFn) (pr : Option Str) (cv : Bool) : Raises Live0 (initVoltage dev fl pr cv) := by
  unfold initVoltage
  split
  · refine Raises.sent (fun r => ?_)
    split
    · split
      · exact raises_close
      · split
        · exact raises_close
        · split
          · exact Raises.pure _
          · exact Raises.bind (Q := Live0) (fun w h => h (by simp)) (Raises.modifyElm _) (fun _ => raises_initProtocol pr)
    · exact raises_close
  · exact raises_initProtocol pr

theorem raises_initAt {P : EW → Prop} (fl : FloatFn) (pr : Option Str) (cv : Bool) : Raises P (initAt dev fl pr cv) := by
  unfold initAt
  refine Raises.sent (fun _ => Raises.sent (fun r => ?_))
  split
  · exact raises_close
  · refine Raises.sent (fun r => ?_)
    split
    · exact raises_close
    · refine Raises.sent (fun r => ?_)
      split
      · exact raises_close
      · next hok =>
        refine Raises.bind (Q := Live0) (fun w h => h ?_) (Raises.modifyElm _) (fun _ => raises_initVoltage fl pr cv)
        rintro rfl
        simp [EW.isOk] at hok

theorem raises_construct {fl : FloatFn} {port : Str} {cfg : Config} {hist : History} {x : Exc} {w : EW}
    (h : construct dev fl port cfg hist = (.error x, w)) : StartFails w.hist x := by
  have main : Raises (fun w => w.elm.port = none → LostAt w.hist (ascii " ")) (do
      if ¬ (← setBaudrate dev cfg.baudrate) then error dev
      else initAt dev fl cfg.protocol cfg.checkVoltage) := by
    refine Raises.bind (Q := fun _ => True) (fun _ _ => trivial) (raises_setBaudrate _) (fun b => ?_)
    split
    · exact raises_close
    · exact raises_initAt fl _ _
  unfold construct init at h
  simp only at h
  cases ho : dev.openPort hist port with
  | none =>
    rw [ho] at h
    simp only at h
    rw [PyM.bind_ok (show modifyElm _ _ = (.ok (), _) from rfl)] at h
    split at h
    · refine Raises.bind (P := fun w => ∃ p, w.elm.port = some p) ?_ (Raises.write _ _) (fun _ => main) _ x w ⟨_, rfl⟩ h
      rintro w ⟨p, hp⟩
      simp only [write]
      rcases write_some dev (ascii " ") w p hp with h1 | h1 <;> simp only [PyM.lift, PyM.modify, h1]
      · intro h2; rw [hp] at h2; cases h2
      · intro _; exact ⟨_, _, rfl, .onWrite⟩
    · exact main _ x w (by simp) h
  | some y =>
    rw [ho] at h
    have hcl : ∀ hh, close dev ⟨fresh cfg.timeout, hh⟩ ≠ (.error x, w) := by
      intro hh hc
      simp [close, fresh, modifyElm, getElm, PyM.bind_apply] at hc
    cases y with
    | serialException => exact absurd h (hcl _)
    | osError => exact absurd h (hcl _)
    | _ => cases h; exact .opening port _ (by simp) (by simp) (by simp)

end ElmM

theorem dialogue_split {evs : History} {xs ys : List (Bytes × List Str)} (h : Dialogue evs (xs ++ ys)) :
    ∃ a b, evs = a ++ b ∧ Dialogue a xs ∧ Dialogue b ys := by
  induction xs generalizing evs with
  | nil => exact ⟨[], evs, rfl, .nil, h⟩
  | cons x xs ih =>
    rw [List.cons_append] at h
    cases h with
    | cons hl hbs h =>
      obtain ⟨a, b, rfl, h1, h2⟩ := ih h
      exact ⟨_, b, by simp, .cons hl hbs h1, h2⟩

/-- After a successful set-up the agreed protocol is the one in use. -/
theorem selected_connects {fl : Str → Option PyFloat} {port : Str} {cfg : ElmM.Config} {evs : History} {rate : Nat} {xs : List (Bytes × List Str)}
    {id : Str} {r : List Str} (h : History) (hc : Connects fl port cfg evs rate xs id r) : Selected (h ++ evs) id := by
  obtain ⟨e1, e2, rfl, -, hd, r1, r2, volt, ys, rfl, -, -, hn⟩ := hc
  generalize cfg.protocol = pr at hn
  have key : ∀ (zs : List (Bytes × List Str)) (q q' : List Str), ys = zs ++ [(selects id, q)] ++ [(ascii "0100", q')] → ∀ h, Selected (h ++ e2) id := by
    intro zs q q' hy h
    obtain ⟨a, b, rfl, -, h2⟩ := dialogue_split (xs := _ :: _ :: _ :: _ :: (volt ++ zs)) (ys := [(selects id, q), (ascii "0100", q')]) (by simpa [hy] using hd)
    obtain ⟨b1, b2, rfl, h3, h4⟩ := dialogue_split (xs := [(selects id, q)]) (ys := [(ascii "0100", q')]) h2
    have := (requested_dialogue (h ++ a) h3).more (noChoice_dialogue h4 not_chooses_0100)
    exact Or.inl (by simpa using this)
  have main : ∀ h, Selected (h ++ e2) id := by
    cases hn with
    | requested _ q _ hk hu => exact key [] q r rfl
    | announced l _ q _ ha hk hu =>
      intro h
      obtain ⟨a, b, rfl, -, h2⟩ := dialogue_split (xs := _ :: _ :: _ :: _ :: (volt ++ [(ascii "ATSP0", q), (ascii "0100", r)])) (ys := [(ascii "ATDPN", [l])])
        (by simpa using hd)
      have := announced_dialogue (h ++ a) h2 ha
      simpa using this
    | tried l id' _ before after q q' q'' _ ts ha hn hu ho ht hu3 =>
      exact key ([(ascii "ATSP0", q), (ascii "0100", q'), (ascii "ATDPN", [l])] ++ ts) q'' r (by simp)
  have := main (h ++ (.open_ port none :: ((if cfg.startLowPower then [.write (line (ascii " ")) true] else []) ++ e1)))
  simpa using this

namespace ObdM
variable {dev : Device} {fl : ElmM.FloatFn}

theorem raises_open {port : Str} {cfg : ElmM.Config} {s s' : OW} {x : Exc} (h : openInterface dev fl port cfg s = (.error x, s')) :
    StartFails s'.hist x := by
  unfold openInterface at h
  cases hc : ElmM.construct dev fl port cfg s.hist with
  | mk r w =>
    rw [hc] at h
    cases r with
    | ok _ => cases h
    | error e => cases h; exact ElmM.raises_construct hc

theorem raises_tryPorts {cfg : ElmM.Config} (ports : List Str) {s s' : OW} {x : Exc} (h : tryPorts dev fl cfg ports s = (.error x, s')) :
    StartFails s'.hist x := by
  induction ports generalizing s with
  | nil => cases h
  | cons p ports ih =>
    unfold tryPorts at h
    rw [PyM.bind_apply] at h
    cases ho : openInterface dev fl p cfg s with
    | mk r s1 =>
      rw [ho] at h
      cases r with
      | error y => cases h; exact raises_open ho
      | ok _ =>
        simp only at h
        rw [PyM.bind_ok (show PyM.get _ = (.ok _, _) from rfl)] at h
        split at h
        · cases h
        · exact ih h

theorem closeIfFailed_ok {s : OW} (hs : OSound s) : ∃ s', closeIfFailed dev s = (.ok (), s') := by
  unfold closeIfFailed
  rw [PyM.bind_ok (show PyM.get _ = (.ok _, _) from rfl)]
  split
  · next h => exact ⟨_, close_nc hs h⟩
  · exact ⟨_, rfl⟩

theorem raises_connect {ports : List Str} {portstr : Option Str} {cfg : ElmM.Config} {s s' : OW} {x : Exc} (hs : OSound s)
    (h : connect dev fl ports portstr cfg s = (.error x, s')) : StartFails s'.hist x := by
  have fin : ∀ m : ObdM Unit, (∀ s1, m s = (.ok (), s1) → OSound s1) → (∀ y s1, m s = (.error y, s1) → StartFails s1.hist y) →
      (m >>= fun _ => closeIfFailed dev) s = (.error x, s') → StartFails s'.hist x := by
    intro m h1 h2 h
    rw [PyM.bind_apply] at h
    cases hm : m s with
    | mk r s1 =>
      rw [hm] at h
      cases r with
      | error y => cases h; exact h2 _ _ hm
      | ok _ =>
        obtain ⟨s2, h3⟩ := closeIfFailed_ok (dev := dev) (h1 s1 hm)
        have h : closeIfFailed dev s1 = (.error x, s') := h
        rw [h3] at h; cases h
  unfold connect at h
  cases portstr with
  | none =>
    simp only at h
    split at h
    · cases h
    · exact fin _ (fun s1 h1 => tryPorts_sound ports h1 hs) (fun y s1 h1 => raises_tryPorts ports h1) h
  | some p =>
    exact fin _ (fun s1 h1 => openInterface_sound h1 hs) (fun y s1 h1 => raises_open h1) h

theorem getters_table : ∀ c ∈ pidGetters, c ∈ allCommands ∧ c.header = engineHeader ∧ ¬ (c.name = "AIR_STATUS" ∨ c.name = "DTC_AIR_STATUS") ∧
    (∃ m, c.mode = .ok m) ∧ (∃ m, c.pid = .ok m) := by
  have h1 : ∀ c ∈ pidGetters, ¬ (c.name = "AIR_STATUS" ∨ c.name = "DTC_AIR_STATUS") := by decide +kernel
  have h2 : ∀ c ∈ pidGetters, c.pid.toOption.isSome = true := by decide +kernel
  intro c hc
  have hall : c ∈ allCommands := by
    unfold pidGetters at hc
    obtain ⟨c', h3, h4⟩ := List.mem_filterMap.1 hc
    cases c' with
    | none => cases h4
    | some d =>
      simp only [Option.filter] at h4
      split at h4
      · cases h4
        unfold allCommands
        exact List.mem_filterMap.2 ⟨some c, List.mem_append_left _ h3, rfl⟩
      · cases h4
  refine ⟨hall, table_headers c hall, h1 c hc, table_modes c hall, ?_⟩
  have := h2 c hc
  cases hp : c.pid with
  | ok m => exact ⟨m, rfl⟩
  | error e => rw [hp] at this; cases this

/-- Querying a list of PIDs does not change the protocol. -/
theorem getter_sends {c : OBDCommand} (hc : c ∈ pidGetters) : Sends (fun b => ¬ Chooses (line b)) c := by
  have h1 : ∀ c ∈ pidGetters, c.command.head? = some 0x30 := by decide +kernel
  refine ⟨?_, fun s => ?_⟩
  · have hsp : ∀ c : Bytes, c[2]? ≠ some 0x20 → line (ascii "AT SH " ++ (engineHeader ++ ascii " ")) ≠ line c := by
      intro c hc he
      apply hc
      rw [← line_inj he]
      decide
    rw [(getters_table c hc).2.1, List.append_assoc]
    rintro (h | ⟨id, hid, h⟩)
    · exact hsp _ (by decide) h
    · refine hsp _ ?_ h
      simp only [knownIds, List.mem_cons, List.not_mem_nil, or_false] at hid
      rcases hid with rfl | rfl | rfl | rfl | rfl | rfl | rfl | rfl | rfl | rfl <;> decide
  · apply not_chooses
    rcases build_string s c with h | h
    · rw [h]; decide
    · have h2 := h1 c hc
      rcases h with h | ⟨n, h⟩ <;> rw [h]
      · rw [h2]; decide
      · cases hcc : c.command with
        | nil => rw [hcc] at h2; cases h2
        | cons x t => rw [hcc] at h2; simp only [List.head?_cons, Option.some.injEq] at h2; subst h2; simp

theorem selected_stable (dev : Device) (id : Str) : HStable dev (fun b => ¬ Chooses (line b)) (fun h => Selected h id) where
  write_ok := fun h cmd hR hW _ => hR.more ⟨by intro e he p r; simp at he; subst he; simp, by intro b ok hb; simp at hb; rw [hb.1]; exact hW⟩
  write_fail := fun h cmd hR hW _ => hR.more ⟨by intro e he p r; simp at he; rcases he with rfl | rfl <;> simp, by intro b ok hb; simp at hb; rw [hb.1]; exact hW⟩
  read_ok := fun h m b hR _ => hR.more (noChoice_quiet (by intro e he p r; simp at he; subst he; simp) (by simp))
  read_fail := fun h m hR _ => hR.more (noChoice_quiet (by intro e he p r; simp at he; rcases he with rfl | rfl <;> simp) (by simp))
  close := fun h hR => hR.more (noChoice_quiet (by intro e he p r; simp at he; subst he; simp) (by simp))
  probe := fun h b hR => hR.more (noChoice_quiet (by intro e he p r; simp at he; subst he; simp) (by simp))
  setBaud := fun h b hR => hR.more (noChoice_quiet (by intro e he p r; simp at he; subst he; simp) (by simp))

theorem raises_getter {c : OBDCommand} (hc : c ∈ pidGetters) {id : Str} {s s' : OW} {x : Exc} (hs : OSound s) (hh : s.lastHeader = engineHeader)
    (hsel : Selected s.hist id) (hid : ∀ e o, s.interface = some e → e.protocol = some o → o.cls.elmId = id)
    (h : query dev fl c false s = (.error x, s')) : StartFails s'.hist x := by
  have hsel' := kept_queryOn ((selected_stable dev id).ostable (not_chooses (by decide))) fl c (getter_sends hc) false s hsel
  rw [h] at hsel'
  obtain ⟨h1, h2, h3, ⟨m, h4⟩, -⟩ := getters_table c hc
  rcases query_cases dev fl c false s with ⟨hq, -⟩ | ⟨y, hq, hst, -, ht⟩ | ⟨hq, hst, -⟩
  · rw [hq] at h; cases h
  · exfalso
    obtain ⟨e, o, hl⟩ := live_of_sound hs hst
    unfold testCmd at ht
    simp only [h4, hl.iface, Elm.protocolId, hl.proto, bind, Except.bind, pure, Except.pure] at ht
    split at ht
    · cases ht
    · split at ht <;> cases ht
  · obtain ⟨e, o, hl⟩ := live_of_sound hs hst
    rw [hq, exchange_eq, PyM.bind_ok (setHeader_same (by rw [h2, hh]))] at h
    obtain ⟨rfl, cmd, -, ⟨p, evs, lines, hp, hh', hf, ht⟩ | ⟨hn, -⟩⟩ := body_error h1 hl h
    · rw [protocolOf_live hl] at hp
      cases hp
      exact .parsing o.cls cmd lines (by rw [hid e o hl.iface hl.proto]; exact hsel') (Or.inl (by rw [hh']; exact ends_append hf)) ht
    · exact absurd hn h3

/-- While the lists of commands are read. -/
structure Reading (id : Str) (h0 : History) (e0 : Elm) (s : OW) : Prop where
  sound : OSound s
  header : s.lastHeader = engineHeader
  line : SameLine h0 e0 s
  selected : Selected s.hist id

theorem reading_query {id : Str} {h0 : History} {e0 : Elm} {c : OBDCommand} (hc : c ∈ pidGetters) : Kept (Reading id h0 e0) (query dev fl c false) := by
  intro s hs
  exact ⟨kept_query (ostable_sound dev) fl c false s hs.sound, kept_header dev fl c (getters_table c hc).2.1 false s hs.header,
    kept_query (ostable_sameLine dev h0 e0) fl c false s hs.line,
    kept_queryOn ((selected_stable dev id).ostable (not_chooses (by decide))) fl c (getter_sends hc) false s hs.selected⟩

theorem raises_load {id : Str} {h0 : History} {e0 : Elm} (he : e0.protocol ≠ none) (hid : ∀ o, e0.protocol = some o → o.cls.elmId = id) (l : List OBDCommand) (hl : ∀ c ∈ l, c ∈ pidGetters) {s s' : OW} {x : Exc}
    (hs : Reading id h0 e0 s) (h : loadLoop dev fl l s = (.error x, s')) : StartFails s'.hist x := by
  induction l generalizing s with
  | nil => cases h
  | cons g l ih =>
    have ih := fun {s} => ih (s := s) (fun c hc => hl c (by simp [hc]))
    have hg := hl g (by simp)
    obtain ⟨-, -, -, ⟨m, hm⟩, ⟨p, hp⟩⟩ := getters_table g hg
    unfold loadLoop at h
    rw [PyM.bind_ok (show PyM.get _ = (.ok _, _) from rfl)] at h
    have ht : ∃ b, testCmd s g = .ok b := by
      obtain ⟨-, e, hi, hpr, -⟩ := hs.line
      unfold testCmd
      simp only [hm, hi, Elm.protocolId, bind, Except.bind, pure, Except.pure]
      split
      · exact ⟨_, rfl⟩
      · split
        · cases ho : e.protocol with
          | none => rw [hpr] at ho; exact absurd ho he
          | some o => exact ⟨_, rfl⟩
        · exact ⟨_, rfl⟩
    obtain ⟨b, hb⟩ := ht
    rw [PyM.bind_ok (show PyM.ofExcept (testCmd s g) s = (.ok b, s) by rw [hb]; rfl)] at h
    split at h
    · exact ih hs h
    · rw [PyM.bind_apply] at h
      have hk := reading_query (dev := dev) (fl := fl) hg s hs
      cases hq : query dev fl g false s with
      | mk r s1 =>
        rw [hq] at h hk
        cases r with
        | error y => 
          cases h
          refine raises_getter hg hs.sound hs.header hs.selected ?_ hq
          intro e o h1 h2
          obtain ⟨-, e', hi, hpr, -⟩ := hs.line
          rw [hi] at h1
          cases h1
          exact hid o (by rw [← hpr, h2])
        | ok r =>
          simp only at h
          split at h
          · exact ih hk h
          · rw [PyM.bind_ok (show PyM.ofExcept g.mode s1 = (.ok m, s1) by rw [hm]; rfl),
              PyM.bind_ok (show PyM.ofExcept g.pid s1 = (.ok p, s1) by rw [hp]; rfl),
              PyM.bind_ok (show PyM.modify _ s1 = (.ok (), _) from rfl)] at h
            exact ih (s := { s1 with supported := addSupported (m.getD 0) (p.getD 0) (valueBits r.value) s1.supported })
              ⟨hk.sound, hk.header, hk.line, hk.selected⟩ h

theorem raises_all {a : Args} {s' : OW} {x : Exc} (h : construct dev fl a.ports a.portstr a.fast a.cfg = (.error x, s')) : StartFails s'.hist x := by
  unfold construct at h
  rw [PyM.bind_apply] at h
  have h0 : OSound { supported := baseCommands, fast := a.fast } := ⟨shape_nil, by simp⟩
  cases hc : connect dev fl a.ports a.portstr a.cfg { supported := baseCommands, fast := a.fast } with
  | mk r s1 =>
    rw [hc] at h
    cases r with
    | error y => cases h; exact raises_connect h0 hc
    | ok _ =>
      have h : loadCommands dev fl s1 = (.error x, s') := h
      have hs1 := connect_sound hc h0
      unfold loadCommands at h
      rw [PyM.bind_ok (show PyM.get _ = (.ok _, _) from rfl)] at h
      split at h
      · cases h
      · next hst =>
        have hst : status s1 = .carConnected := by simpa using hst
        obtain ⟨e, o, hl⟩ := live_of_sound hs1 (by rw [hst]; decide)
        rcases connect_attrs hc with h2 | ⟨h2, -⟩
        · rw [hst] at h2; cases h2
        · obtain ⟨port, t, -, -, -, -, -, -, hop⟩ := connect_opened hc rfl (by rw [hst]; simp)
          obtain ⟨w, hw, rfl⟩ := openInterface_ok hop
          obtain ⟨evs, rate, xs, id, r, obj, hh, hcon, -, -, hpr, hid, -⟩ := ElmM.construct_car hw (by simpa [status] using hst)
          have hwe : w.elm = e := Option.some.inj hl.iface
          refine raises_load (id := id) (by rw [hl.proto]; simp) ?_ pidGetters (fun _ h => h)
            ⟨hs1, h2, ⟨Ext.refl _, e, hl.iface, rfl, rfl, Or.inl ⟨rfl, rfl⟩⟩, ?_⟩ h
          · intro o' ho'
            rw [← hwe, hpr] at ho'
            cases ho'
            exact hid
          · show Selected w.hist id
            rw [hh]
            exact selected_connects _ hcon

end ObdM
end Model
