import Verif.Spec.Dialogue
import Verif.Lemmas.Connect
/-!
# The dialogue of the set-up
-/
namespace Model
open Py Spec

theorem Dialogue.append {e1 e2 : History} {xs ys : List (Bytes × List Str)} (h1 : Dialogue e1 xs) (h2 : Dialogue e2 ys) :
    Dialogue (e1 ++ e2) (xs ++ ys) := by
  induction h1 with
  | nil => exact h2
  | cons hl hbs _ ih => simpa using Dialogue.cons hl hbs ih

theorem isIn_within (t s : Str) : isIn t s = true ↔ Within t s := by
  induction s with
  | nil =>
    constructor
    · intro h
      simp only [isIn, List.isEmpty_iff] at h
      exact ⟨[], [], by simp [h]⟩
    · rintro ⟨a, b, h⟩
      have := h.symm
      simp only [List.append_eq_nil_iff] at this
      simp [isIn, this.1.2]
  | cons c s ih =>
    simp only [isIn, Bool.or_eq_true, ih, List.isPrefixOf_iff_prefix]
    constructor
    · rintro (⟨b, h⟩ | ⟨a, b, h⟩)
      · exact ⟨[], b, by simp [h]⟩
      · exact ⟨c :: a, b, by simp [h]⟩
    · rintro ⟨a, b, h⟩
      cases a with
      | nil => exact Or.inl ⟨b, by simpa using h.symm⟩
      | cons x a =>
        simp only [List.cons_append, List.cons.injEq] at h
        exact Or.inr ⟨a, b, by simpa using h.2⟩

theorem hasMessage_iff (r : List Str) (t : Str) : EW.hasMessage r t = true ↔ ∃ l ∈ r, Within t l := by
  simp [EW.hasMessage, isIn_within]

theorem unable_iff (r : List Str) : EW.hasMessage r ElmM.unableToConnect = true ↔ Unable r := hasMessage_iff r _

namespace ElmM

/-- A command whose answer was used while the port stayed open. -/
theorem talk {α : Type} {dev : Device} {cmd : Bytes} {d : Bool} {m : Bytes} {f : List Str → ElmM α}
    (hf : ∀ r, Tame (f r)) {w w' : EW} {a : α} (h : (send dev cmd d m >>= f) w = (.ok a, w'))
    (hp : w'.elm.port ≠ none) :
    ∃ r evs, Dialogue evs [(cmd, r)] ∧ w.elm.port ≠ none ∧ f r { w with hist := w.hist ++ evs } = (.ok a, w') := by
  obtain ⟨r, w1, h1, h2⟩ := bind_inv h
  have hp1 : w1.elm.port ≠ none := by
    obtain ⟨evs, -, h3⟩ := hf r w1
    rw [h2] at h3
    exact (h3 hp).1
  simp only [send, PyM.lift_apply, Prod.mk.injEq, Except.ok.injEq] at h1
  obtain ⟨hr, hw⟩ := h1
  obtain ⟨bs, b, hb, hp0, he⟩ := send_replied dev cmd d m w (by rw [hw]; exact hp1)
  rw [he] at hr hw
  subst hr hw
  refine ⟨_, _, Dialogue.cons (cleanLines_spec b) (fun x hx => linesOf_nil (hb x hx)) .nil, hp0, h2⟩

theorem loadProtocol_ok {p : Proto} {r : List Str} {w w' : EW} (h : loadProtocol p r w = (.ok (), w')) :
    ∃ obj, p.init r = .ok obj ∧ w' = { w with elm := { w.elm with protocol := some obj } } := by
  obtain ⟨obj, w1, h1, h2⟩ := bind_inv h
  simp only [PyM.ofExcept_apply, Prod.mk.injEq] at h1
  obtain ⟨h1, rfl⟩ := h1
  exact ⟨obj, h1, (congrArg Prod.snd h2).symm⟩

/-- The world after a dialogue that chose a protocol. -/
def Chosen (w w' : EW) (xs : List (Bytes × List Str)) (p : Proto) (r : List Str) : Prop :=
  ∃ evs obj, Dialogue evs xs ∧ p.init r = .ok obj ∧
    w' = { elm := { w.elm with protocol := some obj }, hist := w.hist ++ evs }

theorem manual_true {dev : Device} {id : Str} {p : Proto} {w w' : EW} (h : manualProtocol dev id p w = (.ok true, w'))
    (hp : w'.elm.port ≠ none) :
    ∃ r r', ¬ Unable r' ∧ Chosen w w' [(selects id, r), (ascii "0100", r')] p r' := by
  unfold manualProtocol at h
  obtain ⟨r, evs, hd, hp0, h⟩ := talk (by
    intro r
    apply Tame.bind (Tame.send dev _ _ _)
    intro r
    split
    · exact Tame.pure _
    · exact Tame.bind (tame_loadProtocol _ _) (fun _ => Tame.pure _)) h hp
  obtain ⟨r', evs', hd', hp1, h⟩ := talk (by
    intro r
    split
    · exact Tame.pure _
    · exact Tame.bind (tame_loadProtocol _ _) (fun _ => Tame.pure _)) h hp
  refine ⟨r, r', ?_⟩
  split at h
  · cases h
  · next hu =>
    rw [unable_iff] at hu
    refine ⟨hu, ?_⟩
    obtain ⟨_, w1, h1, h2⟩ := bind_inv h
    obtain ⟨obj, ho, hw⟩ := loadProtocol_ok h1
    cases h2
    exact ⟨evs ++ evs', obj, Dialogue.append hd hd', ho, by rw [hw]; simp⟩

theorem manual_false {dev : Device} {id : Str} {p : Proto} {w w' : EW} (h : manualProtocol dev id p w = (.ok false, w'))
    (hp : w'.elm.port ≠ none) :
    ∃ r r' evs, Unable r' ∧ Dialogue evs [(selects id, r), (ascii "0100", r')] ∧ w' = { w with hist := w.hist ++ evs } := by
  unfold manualProtocol at h
  obtain ⟨r, evs, hd, hp0, h⟩ := talk (by
    intro r
    apply Tame.bind (Tame.send dev _ _ _)
    intro r
    split
    · exact Tame.pure _
    · exact Tame.bind (tame_loadProtocol _ _) (fun _ => Tame.pure _)) h hp
  obtain ⟨r', evs', hd', hp1, h⟩ := talk (by
    intro r
    split
    · exact Tame.pure _
    · exact Tame.bind (tame_loadProtocol _ _) (fun _ => Tame.pure _)) h hp
  split at h
  · next hu =>
    rw [unable_iff] at hu
    cases h
    exact ⟨r, r', evs ++ evs', hu, Dialogue.append hd hd', by simp⟩
  · obtain ⟨_, w1, h1, h2⟩ := bind_inv h
    cases h2

theorem tryProtocols_true {dev : Device} {ids : List Str} {w w' : EW} (h : tryProtocols dev ids w = (.ok true, w'))
    (hp : w'.elm.port ≠ none) :
    ∃ before id after p xs r r', ids = before ++ id :: after ∧ supportedProtocols.get? id = some p ∧ Tried before xs ∧
      ¬ Unable r' ∧ Chosen w w' (xs ++ [(selects id, r), (ascii "0100", r')]) p r' := by
  induction ids generalizing w with
  | nil => cases h
  | cons i ids ih =>
    unfold tryProtocols at h
    cases hg : supportedProtocols.get? i with
    | none => rw [hg] at h; cases h
    | some p =>
      rw [hg] at h
      obtain ⟨b, w1, h1, h2⟩ := bind_inv h
      cases b with
      | true =>
        cases h2
        obtain ⟨r, r', hu, hc⟩ := manual_true h1 hp
        exact ⟨[], i, ids, p, [], r, r', rfl, hg, .nil, hu, hc⟩
      | false =>
        simp only [Bool.false_eq_true, if_false] at h2
        have hp1 : w1.elm.port ≠ none := by
          obtain ⟨evs, -, h3⟩ := tame_tryProtocols dev ids w1
          rw [h2] at h3
          exact (h3 hp).1
        obtain ⟨r, r', evs, hu, hd, rfl⟩ := manual_false h1 hp1
        obtain ⟨before, id, after, p', xs, r2, r3, he, hg', ht, hu3, evs', obj, hd', ho, hw⟩ := ih h2
        refine ⟨i :: before, id, after, p', _, r2, r3, by simp [he], hg', .cons r r' hu ht, hu3, evs ++ evs', obj, ?_, ho, ?_⟩
        · have := Dialogue.append hd hd'
          simpa using this
        · rw [hw]; simp

theorem known_iff (id : Str) : id ∈ knownIds ↔ ∃ p, supportedProtocols.get? id = some p := by
  simp only [knownIds, supportedProtocols, Dict.get?, List.mem_cons, List.not_mem_nil, or_false]
  constructor
  · rintro (rfl | rfl | rfl | rfl | rfl | rfl | rfl | rfl | rfl | rfl) <;> exact ⟨_, rfl⟩
  · rintro ⟨p, h⟩
    repeat' split at h
    all_goals first | (subst_vars; simp; done) | (cases h; done)

theorem get_elmId {id : Str} {p : Proto} (h : supportedProtocols.get? id = some p) : p.elmId = id := by
  simp only [supportedProtocols, Dict.get?] at h
  repeat' split at h
  all_goals first | (cases h; done) | (cases h; subst_vars; decide)

theorem init_cls {p : Proto} {r : List Str} {obj : ProtoObj} (h : p.init r = .ok obj) : obj.cls = p := by
  unfold Proto.init at h
  cases hc : p.call p.defaultMap r with
  | error e => rw [hc] at h; cases h
  | ok ms =>
    rw [hc] at h
    simp only [bind, Except.bind] at h
    split at h
    · cases h; rfl
    · cases h

theorem stripAuto_announces (l : Str) : Announces l (stripAuto l) := by
  unfold stripAuto
  split
  · next h =>
    right
    match l with
    | [] => simp at h
    | [c] => simp at h
    | c :: d :: t =>
      simp only [List.head?_cons, Option.some.injEq] at h
      rw [h.2]
      exact ⟨rfl, by simp⟩
  · next h =>
    left
    refine ⟨rfl, ?_⟩
    rintro ⟨c, t, rfl⟩
    exact h ⟨by simp, rfl⟩

theorem announces_unique {l a b : Str} (h1 : Announces l a) (h2 : Announces l b) : a = b := by
  rcases h1 with ⟨rfl, h1⟩ | ⟨rfl, h1⟩ <;> rcases h2 with ⟨h2, h3⟩ | ⟨h2, h3⟩
  · exact h2
  · cases b with
    | nil => exact absurd rfl h3
    | cons c t => exact absurd ⟨c, t, h2⟩ h1
  · cases a with
    | nil => exact absurd rfl h1
    | cons c t => exact absurd ⟨c, t, rfl⟩ h3
  · simpa using h2

theorem auto_true {dev : Device} {w w' : EW} (h : autoProtocol dev w = (.ok true, w')) (hp : w'.elm.port ≠ none) :
    ∃ xs id p r, supportedProtocols.get? id = some p ∧ Negotiated none xs id r ∧ Chosen w w' xs p r := by
  have t3 : ∀ r0100, ∀ r : List Str, Tame (match r with
    | [line] =>
      match supportedProtocols.get? (stripAuto line) with
      | some p => do
        loadProtocol p r0100
        return true
      | none => tryProtocols dev tryProtocolOrder
    | _ => (return false : ElmM Bool)) := by
    intro r0100 r
    split
    · split
      · exact Tame.bind (tame_loadProtocol _ _) (fun _ => Tame.pure _)
      · exact tame_tryProtocols dev _
    · exact Tame.pure _
  have t2 : ∀ r0100 : List Str, Tame (if EW.hasMessage r0100 unableToConnect then return false
    else do
      let r ← send dev (ascii "ATDPN")
      match r with
      | [line] =>
        match supportedProtocols.get? (stripAuto line) with
        | some p => do
          loadProtocol p r0100
          return true
        | none => tryProtocols dev tryProtocolOrder
      | _ => (return false : ElmM Bool)) := by
    intro r0100
    split
    · exact Tame.pure _
    · exact Tame.bind (Tame.send dev _ _ _) (t3 r0100)
  unfold autoProtocol at h
  obtain ⟨r, evs, hd, hp0, h⟩ := talk (fun _ => Tame.bind (Tame.send dev _ _ _) t2) h hp
  obtain ⟨r', evs', hd', hp1, h⟩ := talk t2 h hp
  split at h
  · cases h
  · next hu =>
    rw [unable_iff] at hu
    obtain ⟨r2, evs2, hd2, hp2, h⟩ := talk (t3 r') h hp
    have hD := Dialogue.append (Dialogue.append hd hd') hd2
    match r2 with
    | [] => cases h
    | _ :: _ :: _ => cases h
    | [l] =>
      simp only at h
      cases hg : supportedProtocols.get? (stripAuto l) with
      | some p =>
        rw [hg] at h
        obtain ⟨_, w1, h1, h2⟩ := bind_inv h
        obtain ⟨obj, ho, hw⟩ := loadProtocol_ok h1
        cases h2
        refine ⟨_, stripAuto l, p, r', hg, .announced l _ r r' (stripAuto_announces l) ((known_iff _).2 ⟨p, hg⟩) hu,
          evs ++ evs' ++ evs2, obj, by simpa using hD, ho, by rw [hw]; simp⟩
      | none =>
        rw [hg] at h
        obtain ⟨before, id, after, p, xs, r3, r4, he, hg', ht, hu4, evs3, obj, hd3, ho, hw⟩ := tryProtocols_true h hp
        refine ⟨_, id, p, r4, hg', .tried l (stripAuto l) id before after r r' r3 r4 xs (stripAuto_announces l) ?_ hu he ht hu4,
          evs ++ evs' ++ evs2 ++ evs3, obj, ?_, ho, ?_⟩
        · rw [known_iff]; rintro ⟨p, h⟩; rw [hg] at h; cases h
        · have := Dialogue.append hD hd3
          simpa using this
        · rw [hw]; simp

theorem setProtocol_true {dev : Device} {pr : Option Str} {w w' : EW} (h : setProtocol dev pr w = (.ok true, w'))
    (hp : w'.elm.port ≠ none) :
    ∃ xs id p r, supportedProtocols.get? id = some p ∧ Negotiated pr xs id r ∧ Chosen w w' xs p r := by
  unfold setProtocol at h
  cases pr with
  | none => exact auto_true h hp
  | some id =>
    simp only at h
    cases hg : supportedProtocols.get? id with
    | none => rw [hg] at h; cases h
    | some p =>
      rw [hg] at h
      obtain ⟨r, r', hu, hc⟩ := manual_true h hp
      exact ⟨_, id, p, r', hg, .requested id r r' ((known_iff _).2 ⟨p, hg⟩) hu, hc⟩

/-- What is known of the object once the car is connected. -/
def Ready (w w' : EW) (xs : List (Bytes × List Str)) (p : Proto) (r : List Str) : Prop :=
  ∃ evs obj, Dialogue evs xs ∧ p.init r = .ok obj ∧ w'.hist = w.hist ++ evs ∧
    w'.elm.protocol = some obj ∧ w'.elm.port = w.elm.port ∧ w'.elm.lowPower = w.elm.lowPower

theorem send_status {dev : Device} {cmd : Bytes} {d : Bool} {m : Bytes} {r : List Str} {w w' : EW}
    (h : send dev cmd d m w = (.ok r, w')) : w'.elm.status = w.elm.status ∨ w'.elm.status = .notConnected := by
  simp only [send, PyM.lift_apply, Prod.mk.injEq, Except.ok.injEq] at h
  obtain ⟨-, rfl⟩ := h
  cases hp : w.elm.port with
  | none => rw [send_none hp]; exact Or.inl rfl
  | some p =>
    have := send_some dev cmd d m w p hp
    generalize hr : w.send dev cmd d m = r at *
    obtain ⟨l, w'⟩ := r
    cases this with
    | replied => exact Or.inl rfl
    | writeFailed => exact Or.inr rfl
    | readFailed => exact Or.inr rfl

end ElmM
end Model
