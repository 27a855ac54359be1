import Verif.Spec.Refusal
import Verif.Lemmas.Construct
/-!
# Set-ups that do not reach the car
-/
namespace Model
open Py Spec

namespace ElmM

theorem tryProtocols_false {dev : Device} {ids : List Str} {w w' : EW} (h : tryProtocols dev ids w = (.ok false, w'))
    (hp : w'.elm.port ≠ none) : ∃ xs evs, Tried ids xs ∧ Dialogue evs xs ∧ w' = { w with hist := w.hist ++ evs } := by
  induction ids generalizing w with
  | nil => cases h; exact ⟨[], [], .nil, .nil, by simp⟩
  | cons i ids ih =>
    unfold tryProtocols at h
    cases hg : supportedProtocols.get? i with
    | none => rw [hg] at h; cases h
    | some p =>
      rw [hg] at h
      obtain ⟨b, w1, h1, h2⟩ := bind_inv h
      cases b with
      | true => cases h2
      | false =>
        simp only [Bool.false_eq_true, if_false] at h2
        have hp1 : w1.elm.port ≠ none := by
          obtain ⟨evs, -, h3⟩ := tame_tryProtocols dev ids w1
          rw [h2] at h3
          exact (h3 hp).1
        obtain ⟨r, r', evs, hu, hd, rfl⟩ := manual_false h1 hp1
        obtain ⟨xs, evs', ht, hd', rfl⟩ := ih h2
        refine ⟨_, evs ++ evs', .cons r r' hu ht, ?_, by simp⟩
        simpa using Dialogue.append hd hd'

theorem auto_false {dev : Device} {w w' : EW} (h : autoProtocol dev w = (.ok false, w')) (hp : w'.elm.port ≠ none) :
    ∃ xs evs, InVain none xs ∧ Dialogue evs xs ∧ w' = { w with hist := w.hist ++ evs } := by
  have t3 : ∀ r0100, ∀ r : List Str, Tame (match r with
    | [line] =>
      match supportedProtocols.get? (stripAuto line) with
      | some p => do
        loadProtocol p r0100
        return true
      | none => tryProtocols dev tryProtocolOrder
    | _ => (return false : ElmM Bool)) := by
    intro r0100 r
    split
    · split
      · exact Tame.bind (tame_loadProtocol _ _) (fun _ => Tame.pure _)
      · exact tame_tryProtocols dev _
    · exact Tame.pure _
  have t2 : ∀ r0100 : List Str, Tame (if EW.hasMessage r0100 unableToConnect then return false
    else do
      let r ← send dev (ascii "ATDPN")
      match r with
      | [line] =>
        match supportedProtocols.get? (stripAuto line) with
        | some p => do
          loadProtocol p r0100
          return true
        | none => tryProtocols dev tryProtocolOrder
      | _ => (return false : ElmM Bool)) := by
    intro r0100
    split
    · exact Tame.pure _
    · exact Tame.bind (Tame.send dev _ _ _) (t3 r0100)
  unfold autoProtocol at h
  obtain ⟨r, evs, hd, hp0, h⟩ := talk (fun _ => Tame.bind (Tame.send dev _ _ _) t2) h hp
  obtain ⟨r', evs', hd', hp1, h⟩ := talk t2 h hp
  split at h
  · next hu =>
    rw [unable_iff] at hu
    cases h
    exact ⟨_, evs ++ evs', .unreached r r' hu, Dialogue.append hd hd', by simp⟩
  · next hu =>
    rw [unable_iff] at hu
    obtain ⟨r2, evs2, hd2, hp2, h⟩ := talk (t3 r') h hp
    have hD := Dialogue.append (Dialogue.append hd hd') hd2
    match r2 with
    | [] => cases h; exact ⟨_, evs ++ evs' ++ evs2, .unannounced r r' [] hu (by simp), by simpa using hD, by simp⟩
    | a :: b :: t => cases h; exact ⟨_, evs ++ evs' ++ evs2, .unannounced r r' (a :: b :: t) hu (by simp), by simpa using hD, by simp⟩
    | [l] =>
      simp only at h
      cases hg : supportedProtocols.get? (stripAuto l) with
      | some p =>
        rw [hg] at h
        obtain ⟨_, w1, h1, h2⟩ := bind_inv h
        cases h2
      | none =>
        rw [hg] at h
        obtain ⟨xs, evs3, ht, hd3, rfl⟩ := tryProtocols_false h hp
        refine ⟨_, evs ++ evs' ++ evs2 ++ evs3, .tried l (stripAuto l) r r' xs hu (stripAuto_announces l) ?_ ht, ?_, by simp⟩
        · rw [known_iff]; rintro ⟨p, h⟩; rw [hg] at h; cases h
        · simpa using Dialogue.append hD hd3

theorem setProtocol_false {dev : Device} {pr : Option Str} {w w' : EW} (h : setProtocol dev pr w = (.ok false, w'))
    (hp : w'.elm.port ≠ none) : ∃ xs evs, InVain pr xs ∧ Dialogue evs xs ∧ w' = { w with hist := w.hist ++ evs } := by
  unfold setProtocol at h
  cases pr with
  | none => exact auto_false h hp
  | some id =>
    simp only at h
    cases hg : supportedProtocols.get? id with
    | none =>
      rw [hg] at h
      cases h
      exact ⟨[], [], .unknown id (by rw [known_iff]; rintro ⟨p, h⟩; rw [hg] at h; cases h), .nil, by simp⟩
    | some p =>
      rw [hg] at h
      obtain ⟨r, r', evs, hu, hd, rfl⟩ := manual_false h hp
      exact ⟨_, evs, .requested id r r' ((known_iff _).2 ⟨p, hg⟩) hu, hd, rfl⟩

theorem initProtocol_lesser {dev : Device} {pr : Option Str} {w w' : EW} (h : initProtocol dev pr w = (.ok (), w'))
    (h1 : w'.elm.status ≠ .carConnected) (hp : w'.elm.port ≠ none) :
    ∃ xs evs, InVain pr xs ∧ Dialogue evs xs ∧ w' = { w with hist := w.hist ++ evs } := by
  unfold initProtocol at h
  obtain ⟨b, w1, h2, h3⟩ := bind_inv h
  cases b with
  | false => cases h3; exact setProtocol_false h2 hp
  | true =>
    simp only [if_true] at h3
    obtain ⟨_, w2, h4, h5⟩ := bind_inv h3
    cases h4
    unfold logConnected at h5
    obtain ⟨e, w3, h6, h7⟩ := bind_inv h5
    cases h6
    cases hq : w1.elm.port with
    | none => simp only [hq] at h7; cases h7
    | some p => simp only [hq] at h7; cases h7; exact absurd rfl h1

theorem below6_low {x : PyFloat} (h : below6 x = true) : x = .negInf ∨ ∃ q, x = .fin q ∧ q < 6 := by
  cases x with
  | fin q => exact Or.inr ⟨q, rfl, by simpa [below6] using h⟩
  | inf => simp [below6] at h
  | negInf => exact Or.inl rfl
  | nan => simp [below6] at h

theorem initVoltage_lesser {dev : Device} {fl : FloatFn} {pr : Option Str} {cv : Bool} {w w' : EW}
    (h : initVoltage dev fl pr cv w = (.ok (), w')) (h0 : w.elm.status = .elmConnected)
    (h1 : w'.elm.status ≠ .carConnected) (hp : w'.elm.port ≠ none) :
    ∃ xs evs low, Stopped fl cv pr low xs ∧ Dialogue evs xs ∧ w'.hist = w.hist ++ evs ∧ w'.elm.port = w.elm.port ∧
      w'.elm.status = (if cv && !low then .obdConnected else .elmConnected) := by
  unfold initVoltage at h
  cases cv with
  | false =>
    simp only [Bool.false_eq_true, if_false] at h
    obtain ⟨xs, evs, hr, hd, rfl⟩ := initProtocol_lesser h h1 hp
    exact ⟨xs, evs, false, ⟨rfl, hr⟩, hd, rfl, rfl, h0⟩
  | true =>
    simp only [if_true] at h
    have hclose : ∀ w2, error dev w2 = (.ok (), w') → False := fun w2 he => hp (close_ok he).2.1
    obtain ⟨l, w1, h2, h3⟩ := bind_inv h
    match l with
    | [] => exact (hclose _ h3).elim
    | _ :: _ :: _ => exact (hclose _ h3).elim
    | [l] =>
      simp only at h3
      split at h3
      · exact (hclose _ h3).elim
      · cases hf : fl ((lower l).filter (fun c => c != 'v')) with
        | none => rw [hf] at h3; exact (hclose _ h3).elim
        | some x =>
          rw [hf] at h3
          simp only at h3
          split at h3
          · next hx =>
            cases h3
            obtain ⟨evs, hd, -, rfl⟩ := send_said h2 hp
            exact ⟨_, evs, true, ⟨[l], [], rfl, ⟨l, x, rfl, hf, below6_low hx⟩, rfl⟩, hd, rfl, rfl, h0⟩
          · next hx =>
            obtain ⟨_, w2, h4, h5⟩ := bind_inv h3
            cases h4
            obtain ⟨xs, evs', hr, hd', rfl⟩ := initProtocol_lesser h5 h1 hp
            obtain ⟨evs, hd, -, rfl⟩ := send_said h2 hp
            refine ⟨_, evs ++ evs', false, ⟨[l], xs, rfl, ⟨l, x, rfl, hf, not_below6 hx⟩, hr⟩, ?_, by simp, rfl, rfl⟩
            simpa using Dialogue.append hd hd'

theorem initAt_lesser {dev : Device} {fl : FloatFn} {pr : Option Str} {cv : Bool} {w w' : EW}
    (h : initAt dev fl pr cv w = (.ok (), w')) (h1 : w'.elm.status ≠ .carConnected) (hp : w'.elm.port ≠ none) :
    ∃ r1 r2 xs evs low, (∃ l ∈ r2, Within "OK".toList l) ∧ Stopped fl cv pr low xs ∧
      Dialogue evs ((ascii "ATZ", r1) :: (ascii "ATE0", r2) :: (ascii "ATH1", ["OK".toList]) :: (ascii "ATL0", ["OK".toList]) :: xs) ∧
      w'.hist = w.hist ++ evs ∧ w'.elm.port = w.elm.port ∧ w'.elm.status = (if cv && !low then .obdConnected else .elmConnected) := by
  have hclose : ∀ w2, error dev w2 = (.ok (), w') → False := fun w2 he => hp (close_ok he).2.1
  unfold initAt at h
  obtain ⟨r1, w1, s1, h⟩ := bind_inv h
  obtain ⟨r2, w2, s2, h⟩ := bind_inv h
  split at h
  · exact (hclose _ h).elim
  · next ok2 =>
    obtain ⟨r3, w3, s3, h⟩ := bind_inv h
    split at h
    · exact (hclose _ h).elim
    · next ok3 =>
      obtain ⟨r4, w4, s4, h⟩ := bind_inv h
      split at h
      · exact (hclose _ h).elim
      · next ok4 =>
        rw [not_not] at ok2 ok3 ok4
        obtain ⟨ne2, ok2⟩ := isOk_true ok2
        have ok3 := isOk_false ok3
        have ok4 := isOk_false ok4
        subst ok3 ok4
        obtain ⟨e2, d2, p2, q2⟩ := send_said s2 (send_lines_port s2 ne2)
        obtain ⟨e1, d1, p1, q1⟩ := send_said s1 p2
        obtain ⟨e3, d3, p3, q3⟩ := send_said s3 (send_lines_port s3 (by simp))
        obtain ⟨e4, d4, p4, q4⟩ := send_said s4 (send_lines_port s4 (by simp))
        obtain ⟨_, w5, s5, h⟩ := bind_inv h
        have q5 : w5 = { w4 with elm := { w4.elm with status := .elmConnected } } := (congrArg Prod.snd s5).symm
        obtain ⟨xs, evs, low, hs, hd, hh, hpo, hst⟩ := initVoltage_lesser h (by rw [q5]) h1 hp
        refine ⟨r1, r2, xs, e1 ++ (e2 ++ (e3 ++ (e4 ++ evs))), low, ok2, hs, ?_, ?_, by rw [hpo, q5, q4, q3, q2, q1], hst⟩
        · exact Dialogue.append d1 (Dialogue.append d2 (Dialogue.append d3 (Dialogue.append d4 hd)))
        · rw [hh, q5, q4, q3, q2, q1]; simp

theorem construct_lesser {dev : Device} {fl : FloatFn} {port : Str} {cfg : Config} {hist : History} {w : EW}
    (h : construct dev fl port cfg hist = (.ok (), w)) (h0 : w.elm.status ≠ .notConnected) (hs : w.elm.status ≠ .carConnected)
    (hp : w.elm.port ≠ none) :
    ∃ evs low q, w.hist = hist ++ evs ∧ Reaches fl port cfg low evs ∧ w.elm.port = some q ∧ q.name = port ∧
      w.elm.status = (if cfg.checkVoltage && !low then .obdConnected else .elmConnected) := by
  obtain ⟨ho, h⟩ := construct_opened h h0
  have main : ∀ w0 : EW, w0.elm.port = some { name := port, baud := 9600, timeout := 10 } →
      ((do
        if ¬ (← setBaudrate dev cfg.baudrate) then error dev
        else initAt dev fl cfg.protocol cfg.checkVoltage) : ElmM Unit) w0 = (.ok (), w) →
      ∃ e1 e2 rate low r1 r2 xs, w.hist = w0.hist ++ (e1 ++ e2) ∧ FoundRate port cfg.baudrate e1 rate ∧
        (∃ l ∈ r2, Within "OK".toList l) ∧ Stopped fl cfg.checkVoltage cfg.protocol low xs ∧
        Dialogue e2 ((ascii "ATZ", r1) :: (ascii "ATE0", r2) :: (ascii "ATH1", ["OK".toList]) :: (ascii "ATL0", ["OK".toList]) :: xs) ∧
        (∃ q, w.elm.port = some q ∧ q.name = port) ∧ w.elm.status = (if cfg.checkVoltage && !low then .obdConnected else .elmConnected) := by
    intro w0 hp0 h
    obtain ⟨b, w1, h1, h2⟩ := bind_inv h
    cases b with
    | false => exact absurd (close_ok (show error dev w1 = (.ok (), w) from h2)).2.1 hp
    | true =>
      obtain ⟨e1, rate, hf, hw1⟩ := setBaudrate_true hp0 rfl h1
      obtain ⟨r1, r2, xs, e2, low, ok2, hst, hd, hh, hpo, hstat⟩ :=
        initAt_lesser (show initAt dev fl cfg.protocol cfg.checkVoltage w1 = (.ok (), w) from h2) hs hp
      exact ⟨e1, e2, rate, low, r1, r2, xs, by rw [hh, hw1]; simp, hf, ok2, hst, hd, ⟨_, by rw [hpo, hw1], rfl⟩, hstat⟩
  unfold afterOpen at h
  cases hlow : cfg.startLowPower with
  | false =>
    simp only [hlow, Bool.false_eq_true, if_false] at h
    obtain ⟨e1, e2, rate, low, r1, r2, xs, hh, hf, ok2, hst, hd, ⟨q, hq, hqn⟩, hstat⟩ := main (opened port cfg hist) rfl h
    refine ⟨_, low, q, ?_, ⟨e1, e2, rate, r1, r2, xs, rfl, hf, hd, ok2, hst⟩, hq, hqn, hstat⟩
    rw [hh]; simp [opened, hlow]
  | true =>
    simp only [hlow, if_true] at h
    obtain ⟨_, w1, h1, h2⟩ := bind_inv h
    have hw1 : w1 = (opened port cfg hist).write dev (ascii " ") := (congrArg Prod.snd h1).symm
    rcases write_some dev (ascii " ") (opened port cfg hist) _ rfl with e | e
    · rw [e] at hw1
      obtain ⟨e1, e2, rate, low, r1, r2, xs, hh, hf, ok2, hst, hd, ⟨q, hq, hqn⟩, hstat⟩ := main w1 (by rw [hw1]; rfl) h2
      refine ⟨_, low, q, ?_, ⟨e1, e2, rate, r1, r2, xs, rfl, hf, hd, ok2, hst⟩, hq, hqn, hstat⟩
      rw [hh, hw1]; simp [opened, hlow]
    · rw [e] at hw1
      exfalso
      have ht : Tame (do
          if ¬ (← setBaudrate dev cfg.baudrate) then error dev
          else initAt dev fl cfg.protocol cfg.checkVoltage) := by
        apply Tame.bind (tame_setBaudrate dev _)
        intro b
        split
        · exact tame_close dev
        · exact tame_initAt dev fl _ _
      obtain ⟨evs, -, h6⟩ := ht w1
      rw [h2] at h6
      exact (h6 hp).1 (by rw [hw1]; rfl)

end ElmM
end Model
