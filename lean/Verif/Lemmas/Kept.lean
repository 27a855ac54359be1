import Verif.Lemmas.Dialogue
/-!
# Invariants kept by calls, whatever their outcome
-/
namespace Model
open Py Spec

/-- `m` keeps `P`, whether it returns or raises. -/
def Kept {σ α : Type} (P : σ → Prop) (m : PyM σ α) : Prop := ∀ w, P w → P (m w).2

namespace Kept
variable {σ α β : Type} {P : σ → Prop}

theorem bind {m : PyM σ α} {f : α → PyM σ β} (hm : Kept P m) (hf : ∀ a, Kept P (f a)) : Kept P (m >>= f) := by
  intro w hw
  have h1 := hm w hw
  rw [PyM.bind_apply]
  cases hr : m w with
  | mk r w1 =>
    rw [hr] at h1
    cases r with
    | error e => exact h1
    | ok a => exact hf a w1 h1

theorem pure (a : α) : Kept P (Pure.pure a : PyM σ α) := fun _ h => h
theorem throw (e : Exc) : Kept P (PyM.throw e : PyM σ α) := fun _ h => h
theorem get : Kept P (PyM.get : PyM σ σ) := fun _ h => h
theorem ofExcept (x : Except Exc α) : Kept P (PyM.ofExcept x : PyM σ α) := fun _ h => h
theorem modify {f : σ → σ} (h : ∀ s, P s → P (f s)) : Kept P (PyM.modify f) := h
end Kept

theorem Kept.getElm {P : EW → Prop} : Kept P ElmM.getElm := fun _ h => h
theorem Kept.modifyElm {P : EW → Prop} {f : Elm → Elm} (h : ∀ w, P w → P { w with elm := f w.elm }) :
    Kept P (ElmM.modifyElm f) := h

/-- `P` is kept by sending commands in `C`, and does not depend on the protocol. -/
structure Stable (dev : Device) (C : Bytes → Prop) (P : EW → Prop) : Prop where
  send : ∀ cmd d m, C cmd → Kept P (ElmM.send dev cmd d m)
  proto : ∀ w o, P w → P { w with elm := { w.elm with protocol := some o } }

namespace ElmM
variable {dev : Device} {C : Bytes → Prop} {P : EW → Prop}

theorem kept_loadProtocol (hS : Stable dev C P) (p : Proto) (l : List Str) : Kept P (loadProtocol p l) :=
  Kept.bind (Kept.ofExcept _) (fun _ => Kept.modifyElm (fun w h => hS.proto w _ h))

theorem kept_manualProtocol (hS : Stable dev C P) (id : Str) (p : Proto) (h1 : C (ascii "ATTP" ++ encodeAscii id))
    (h2 : C (ascii "0100")) : Kept P (manualProtocol dev id p) := by
  unfold manualProtocol
  apply Kept.bind (hS.send _ _ _ h1)
  intro _
  apply Kept.bind (hS.send _ _ _ h2)
  intro r
  split
  · exact Kept.pure _
  · exact Kept.bind (kept_loadProtocol hS _ _) (fun _ => Kept.pure _)

theorem kept_tryProtocols (hS : Stable dev C P) (l : List Str) (h1 : ∀ id, C (ascii "ATTP" ++ encodeAscii id))
    (h2 : C (ascii "0100")) : Kept P (tryProtocols dev l) := by
  induction l with
  | nil => exact Kept.pure _
  | cons id l ih =>
    unfold tryProtocols
    split
    · exact Kept.throw _
    · apply Kept.bind (kept_manualProtocol hS _ _ (h1 _) h2)
      intro b
      split
      · exact Kept.pure _
      · exact ih

theorem kept_setProtocol (hS : Stable dev C P) (pr : Option Str) (h1 : ∀ id, C (ascii "ATTP" ++ encodeAscii id))
    (h2 : C (ascii "0100")) (h3 : C (ascii "ATSP0")) (h4 : C (ascii "ATDPN")) : Kept P (setProtocol dev pr) := by
  unfold setProtocol
  split
  · split
    · exact Kept.pure _
    · exact kept_manualProtocol hS _ _ (h1 _) h2
  · unfold autoProtocol
    apply Kept.bind (hS.send _ _ _ h3)
    intro _
    apply Kept.bind (hS.send _ _ _ h2)
    intro r
    split
    · exact Kept.pure _
    · apply Kept.bind (hS.send _ _ _ h4)
      intro r
      split
      · split
        · exact Kept.bind (kept_loadProtocol hS _ _) (fun _ => Kept.pure _)
        · exact kept_tryProtocols hS _ h1 h2
      · exact Kept.pure _

/-- Every outcome of sending a command, from any state. -/
theorem send_outcome (dev : Device) (cmd : Bytes) (d : Bool) (m : Bytes) (w : EW) :
    (w.elm.port = none ∧ send dev cmd d m w = (.ok [], w)) ∨
    (∃ p l w', w.elm.port = some p ∧ send dev cmd d m w = (.ok l, w') ∧ SendResult cmd w l w') := by
  cases hp : w.elm.port with
  | none => left; exact ⟨rfl, by simp [send, PyM.lift, send_none hp]⟩
  | some p => right; exact ⟨p, _, _, rfl, rfl, send_some dev cmd d m w p hp⟩

theorem stable_status (dev : Device) (x : Status) :
    Stable dev (fun _ => True) (fun w => w.elm.status = x ∨ w.elm.status = .notConnected) where
  send := by
    intro cmd d m _ w hw
    rcases send_outcome dev cmd d m w with ⟨-, h⟩ | ⟨p, l, w', -, h, hr⟩ <;> rw [h]
    · exact hw
    · cases hr with
      | replied => exact hw
      | writeFailed => exact Or.inr rfl
      | readFailed => exact Or.inr rfl
  proto := fun _ _ h => h

/-- The status is "not connected" exactly if there is no port. -/
def Linked (w : EW) : Prop := w.elm.status = .notConnected ↔ w.elm.port = none

theorem stable_linked (dev : Device) : Stable dev (fun _ => True) Linked where
  send := by
    intro cmd d m _ w hw
    rcases send_outcome dev cmd d m w with ⟨-, h⟩ | ⟨p, l, w', -, h, hr⟩ <;> rw [h]
    · exact hw
    · cases hr with
      | replied => exact hw
      | writeFailed => exact ⟨fun _ => rfl, fun _ => rfl⟩
      | readFailed => exact ⟨fun _ => rfl, fun _ => rfl⟩
  proto := fun _ _ h => h

theorem isOk_true {r : List Str} (h : EW.isOk r true = true) : r ≠ [] ∧ ∃ l ∈ r, Within "OK".toList l := by
  unfold EW.isOk at h
  cases r with
  | nil => simp at h
  | cons a r => exact ⟨by simp, (hasMessage_iff _ _).1 (by simpa using h)⟩

theorem isOk_false {r : List Str} (h : EW.isOk r false = true) : r = ["OK".toList] := by
  unfold EW.isOk at h
  cases r with
  | nil => simp at h
  | cons a r => simpa using h

theorem initProtocol_car {dev : Device} {pr : Option Str} {w w' : EW} (h : initProtocol dev pr w = (.ok (), w'))
    (h0 : w.elm.status ≠ .carConnected) (h1 : w'.elm.status = .carConnected) :
    w'.elm.port ≠ none ∧ ∃ xs id p r, supportedProtocols.get? id = some p ∧ Negotiated pr xs id r ∧ Ready w w' xs p r := by
  unfold initProtocol at h
  obtain ⟨b, w1, h2, h3⟩ := bind_inv h
  cases b with
  | false =>
    cases h3
    have := kept_setProtocol (stable_status dev w.elm.status) pr (fun _ => trivial) trivial trivial trivial w (Or.inl rfl)
    rw [h2] at this
    rcases this with h | h
    · exact absurd (h.symm.trans h1) h0
    · rw [h1] at h; cases h
  | true =>
    simp only [if_true] at h3
    obtain ⟨_, w2, h4, h5⟩ := bind_inv h3
    have hw2 : w2 = { w1 with elm := { w1.elm with status := .carConnected } } := (congrArg Prod.snd h4).symm
    unfold logConnected at h5
    obtain ⟨e, w3, h6, h7⟩ := bind_inv h5
    have hw3 : w3 = w2 := (congrArg Prod.snd h6).symm
    have he : e = w2.elm := by cases h6; rfl
    subst hw3 he
    cases hp : w3.elm.port with
    | none => rw [hp] at h7; cases h7
    | some p =>
      rw [hp] at h7
      cases h7
      refine ⟨by simp [hp], ?_⟩
      obtain ⟨xs, id, p', r, hg, hn, evs, obj, hd, ho, hw⟩ := setProtocol_true h2 (by rw [hw2] at hp; simp at hp; simp [hp])
      exact ⟨xs, id, p', r, hg, hn, evs, obj, hd, ho, by rw [hw2, hw], by rw [hw2, hw], by rw [hw2, hw], by rw [hw2, hw]⟩

theorem send_said {dev : Device} {cmd : Bytes} {d : Bool} {m : Bytes} {r : List Str} {w w1 : EW}
    (h : send dev cmd d m w = (.ok r, w1)) (hp : w1.elm.port ≠ none) :
    ∃ evs, Dialogue evs [(cmd, r)] ∧ w.elm.port ≠ none ∧ w1 = { w with hist := w.hist ++ evs } := by
  have h' : (send dev cmd d m >>= fun r => (Pure.pure r : ElmM _)) w = (.ok r, w1) := by rw [PyM.bind_apply, h]; rfl
  obtain ⟨r', evs, hd, h0, he⟩ := talk (fun r => Tame.pure r) h' hp
  cases he
  exact ⟨evs, hd, h0, rfl⟩

theorem send_lines_port {dev : Device} {cmd : Bytes} {d : Bool} {m : Bytes} {r : List Str} {w w1 : EW}
    (h : send dev cmd d m w = (.ok r, w1)) (hr : r ≠ []) : w1.elm.port ≠ none := by
  simp only [send, PyM.lift_apply, Prod.mk.injEq, Except.ok.injEq] at h
  obtain ⟨rfl, rfl⟩ := h
  exact send_lines dev cmd d m w hr

theorem not_below6 {x : PyFloat} (h : ¬ below6 x = true) : x = .inf ∨ x = .nan ∨ ∃ q, x = .fin q ∧ 6 ≤ q := by
  cases x with
  | fin q => exact Or.inr (Or.inr ⟨q, rfl, by simpa [below6, Rat.not_lt] using h⟩)
  | inf => exact Or.inl rfl
  | negInf => simp [below6] at h
  | nan => exact Or.inr (Or.inl rfl)

theorem initVoltage_car {dev : Device} {fl : FloatFn} {pr : Option Str} {cv : Bool} {w w' : EW}
    (h : initVoltage dev fl pr cv w = (.ok (), w'))
    (h0 : w.elm.status ≠ .carConnected) (h1 : w'.elm.status = .carConnected) :
    w'.elm.port ≠ none ∧ ∃ volt ys id p r,
      (if cv then ∃ r, volt = [(ascii "AT RV", r)] ∧ VoltageOk fl r else volt = []) ∧
      supportedProtocols.get? id = some p ∧ Negotiated pr ys id r ∧ Ready w w' (volt ++ ys) p r := by
  unfold initVoltage at h
  cases cv with
  | false =>
    simp only [Bool.false_eq_true, if_false] at h
    obtain ⟨hp, xs, id, p, r, hg, hn, hr⟩ := initProtocol_car h h0 h1
    exact ⟨hp, [], xs, id, p, r, rfl, hg, hn, hr⟩
  | true =>
    simp only [if_true] at h
    have hclose : ∀ w2, error dev w2 = (.ok (), w') → False := by
      intro w2 he
      have := (close_ok he).1
      rw [h1] at this; cases this
    obtain ⟨l, w1, h2, h3⟩ := bind_inv h
    have hst := send_status h2
    match l with
    | [] => exact (hclose _ h3).elim
    | _ :: _ :: _ => exact (hclose _ h3).elim
    | [l] =>
      simp only at h3
      split at h3
      · exact (hclose _ h3).elim
      · cases hf : fl ((lower l).filter (fun c => c != 'v')) with
        | none => rw [hf] at h3; exact (hclose _ h3).elim
        | some x =>
          rw [hf] at h3
          simp only at h3
          split at h3
          · cases h3
            rw [h1] at hst
            rcases hst with h | h
            · exact absurd h.symm h0
            · cases h
          · next hx =>
            obtain ⟨_, w2, h4, h5⟩ := bind_inv h3
            have hw2 : w2 = { w1 with elm := { w1.elm with status := .obdConnected } } := (congrArg Prod.snd h4).symm
            obtain ⟨hp, xs, id, p, r, hg, hn, hr⟩ := initProtocol_car h5 (by rw [hw2]; simp) h1
            obtain ⟨evs', obj, hd', ho, hh, hpr, hpo, hlp⟩ := hr
            have hp1 : w1.elm.port ≠ none := by
              rw [hpo, hw2] at hp; exact hp
            obtain ⟨evs, hd, hp0, hw1⟩ := send_said h2 hp1
            refine ⟨hp, [(ascii "AT RV", [l])], xs, id, p, r, ⟨[l], rfl, l, x, rfl, hf, not_below6 hx⟩, hg, hn, ?_⟩
            exact ⟨evs ++ evs', obj, Dialogue.append hd hd', ho, by rw [hh, hw2, hw1]; simp, hpr,
              by rw [hpo, hw2, hw1], by rw [hlp, hw2, hw1]⟩

theorem initAt_car {dev : Device} {fl : FloatFn} {pr : Option Str} {cv : Bool} {w w' : EW}
    (h : initAt dev fl pr cv w = (.ok (), w')) (h1 : w'.elm.status = .carConnected) :
    w'.elm.port ≠ none ∧ ∃ xs id p r, supportedProtocols.get? id = some p ∧ SetUp fl cv pr xs id r ∧ Ready w w' xs p r := by
  have hclose : ∀ w2, error dev w2 = (.ok (), w') → False := by
    intro w2 he
    have := (close_ok he).1
    rw [h1] at this; cases this
  unfold initAt at h
  obtain ⟨r1, w1, s1, h⟩ := bind_inv h
  obtain ⟨r2, w2, s2, h⟩ := bind_inv h
  split at h
  · exact (hclose _ h).elim
  · next ok2 =>
    obtain ⟨r3, w3, s3, h⟩ := bind_inv h
    split at h
    · exact (hclose _ h).elim
    · next ok3 =>
      obtain ⟨r4, w4, s4, h⟩ := bind_inv h
      split at h
      · exact (hclose _ h).elim
      · next ok4 =>
        rw [not_not] at ok2 ok3 ok4
        obtain ⟨ne2, ok2⟩ := isOk_true ok2
        have ok3 := isOk_false ok3
        have ok4 := isOk_false ok4
        subst ok3 ok4
        obtain ⟨e2, d2, p2, q2⟩ := send_said s2 (send_lines_port s2 ne2)
        obtain ⟨e1, d1, p1, q1⟩ := send_said s1 p2
        obtain ⟨e3, d3, p3, q3⟩ := send_said s3 (send_lines_port s3 (by simp))
        obtain ⟨e4, d4, p4, q4⟩ := send_said s4 (send_lines_port s4 (by simp))
        obtain ⟨_, w5, s5, h⟩ := bind_inv h
        have q5 : w5 = { w4 with elm := { w4.elm with status := .elmConnected } } := (congrArg Prod.snd s5).symm
        obtain ⟨hp, volt, ys, id, p, r, hv, hg, hn, evs, obj, hd, ho, hh, hpr, hpo, hlp⟩ :=
          initVoltage_car h (by rw [q5]; simp) h1
        refine ⟨hp, _, id, p, r, hg, ⟨r1, r2, volt, ys, rfl, ok2, hv, hn⟩, e1 ++ (e2 ++ (e3 ++ (e4 ++ evs))), obj, ?_, ho, ?_, hpr, ?_, ?_⟩
        · exact Dialogue.append d1 (Dialogue.append d2 (Dialogue.append d3 (Dialogue.append d4 hd)))
        · rw [hh, q5, q4, q3, q2, q1]; simp
        · rw [hpo, q5, q4, q3, q2, q1]
        · rw [hlp, q5, q4, q3, q2, q1]

end ElmM
end Model
