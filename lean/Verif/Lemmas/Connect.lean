import Verif.Lemmas.Elm
/-!
# Connection set-up
-/
namespace Model
open Py Spec
namespace ElmM

theorem tame_close (dev : Device) : Tame (close dev) := by
  unfold close
  apply Tame.bind (Tame.modifyElm _ (by simp))
  intro _
  apply Tame.bind Tame.getElm
  intro e
  split
  · exact Tame.pure _
  · apply Tame.bind (Tame.write dev _)
    intro _
    apply Tame.bind Tame.getElm
    intro e'
    split
    · exact Tame.throw _
    · intro w; exact ⟨[.close], rfl, fun h => absurd rfl h⟩

/-- A close that returns leaves the object unconnected. -/
theorem close_ok {dev : Device} {w w' : EW} (h : close dev w = (.ok (), w')) :
    w'.elm.status = .notConnected ∧ w'.elm.port = none ∧ w'.elm.protocol = none := by
  unfold close at h
  obtain ⟨_, w1, h1, h⟩ := bind_inv h
  have hw1 : w1 = { w with elm := { w.elm with status := .notConnected, protocol := none } } :=
    (congrArg Prod.snd h1).symm
  obtain ⟨e, w2, h2, h⟩ := bind_inv h
  have hw2 : w2 = w1 := (congrArg Prod.snd h2).symm
  have he : e = w1.elm := by cases h2; rfl
  subst hw2 he
  cases hp : w2.elm.port with
  | none =>
    rw [hp] at h
    cases h
    subst hw1
    exact ⟨rfl, hp, rfl⟩
  | some p =>
    rw [hp] at h
    obtain ⟨_, w3, h3, h⟩ := bind_inv h
    have hw3 : w3 = w2.write dev (ascii "ATZ") := (congrArg Prod.snd h3).symm
    obtain ⟨e, w4, h4, h⟩ := bind_inv h
    have hw4 : w4 = w3 := (congrArg Prod.snd h4).symm
    have he : e = w3.elm := by cases h4; rfl
    subst hw4 he
    cases hp' : w4.elm.port with
    | none => rw [hp'] at h; cases h
    | some q =>
      rw [hp'] at h
      cases h
      rcases write_some dev (ascii "ATZ") w2 p hp with e | e
      · rw [hw3, e, hw1]; exact ⟨rfl, rfl, rfl⟩
      · rw [hw3, e, hw1]; exact ⟨rfl, rfl, rfl⟩

theorem tame_probe (dev : Device) (baud : Nat) : Tame (probe dev baud) := by
  intro w
  refine ⟨[.probe baud (dev.probe w.hist baud)], rfl, fun h => ⟨?_, ?_⟩⟩
  · intro hp; apply h; simp [probe, hp]
  · intro e he; rw [List.mem_singleton] at he; subst he
    rintro (⟨b, h⟩ | h) <;> cases h

theorem tame_setTimeout (t : Rat) : Tame (setTimeout t) := by
  apply Tame.modifyElm
  intro e h hp; apply h; simp [hp]

theorem tame_tryRates (dev : Device) (t : Rat) (l : List Nat) : Tame (tryRates dev t l) := by
  induction l with
  | nil => exact Tame.bind (tame_setTimeout t) (fun _ => Tame.pure _)
  | cons b l ih =>
    unfold tryRates
    apply Tame.bind (tame_probe dev b)
    intro r
    split
    · exact Tame.bind (tame_setTimeout t) (fun _ => Tame.pure _)
    · exact ih

theorem tame_setBaudrate (dev : Device) (b : Option Nat) : Tame (setBaudrate dev b) := by
  unfold setBaudrate
  apply Tame.bind Tame.getElm
  intro e
  cases b with
  | none =>
    simp only
    split
    · exact Tame.pure _
    · unfold autoBaudrate
      apply Tame.bind Tame.getElm
      intro e
      split
      · exact Tame.throw _
      · exact Tame.bind (tame_setTimeout _) (fun _ => tame_tryRates dev _ _)
  | some b =>
    simp only
    split
    · exact Tame.throw _
    · intro w
      refine ⟨[.setBaud b (dev.setBaud w.hist b)], ?_, fun h => ⟨?_, ?_⟩⟩
      · simp only; split <;> rfl
      · intro hp; apply h
        simp only; split <;> simp [hp]
      · intro e he; rw [List.mem_singleton] at he; subst he
        rintro (⟨b, h⟩ | h) <;> cases h

theorem tame_loadProtocol (p : Proto) (l : List Str) : Tame (loadProtocol p l) :=
  Tame.bind (Tame.ofExcept _) (fun _ => Tame.modifyElm _ (by simp))

theorem tame_manualProtocol (dev : Device) (id : Str) (p : Proto) : Tame (manualProtocol dev id p) := by
  unfold manualProtocol
  apply Tame.bind (Tame.send dev _ _ _)
  intro _
  apply Tame.bind (Tame.send dev _ _ _)
  intro r
  split
  · exact Tame.pure _
  · exact Tame.bind (tame_loadProtocol _ _) (fun _ => Tame.pure _)

theorem tame_tryProtocols (dev : Device) (l : List Str) : Tame (tryProtocols dev l) := by
  induction l with
  | nil => exact Tame.pure _
  | cons id l ih =>
    unfold tryProtocols
    split
    · exact Tame.throw _
    · apply Tame.bind (tame_manualProtocol dev _ _)
      intro b
      split
      · exact Tame.pure _
      · exact ih

theorem tame_autoProtocol (dev : Device) : Tame (autoProtocol dev) := by
  unfold autoProtocol
  apply Tame.bind (Tame.send dev _ _ _)
  intro _
  apply Tame.bind (Tame.send dev _ _ _)
  intro r
  split
  · exact Tame.pure _
  · apply Tame.bind (Tame.send dev _ _ _)
    intro r
    split
    · split
      · exact Tame.bind (tame_loadProtocol _ _) (fun _ => Tame.pure _)
      · exact tame_tryProtocols dev _
    · exact Tame.pure _

theorem tame_setProtocol (dev : Device) (p : Option Str) : Tame (setProtocol dev p) := by
  unfold setProtocol
  split
  · split
    · exact Tame.pure _
    · exact tame_manualProtocol dev _ _
  · exact tame_autoProtocol dev

theorem tame_initProtocol (dev : Device) (p : Option Str) : Tame (initProtocol dev p) := by
  unfold initProtocol
  apply Tame.bind (tame_setProtocol dev p)
  intro b
  split
  · apply Tame.bind (Tame.modifyElm _ (by simp))
    intro _
    unfold logConnected
    apply Tame.bind Tame.getElm
    intro e
    split
    · exact Tame.throw _
    · exact Tame.pure _
  · exact Tame.pure _

theorem tame_initVoltage (dev : Device) (fl : FloatFn) (p : Option Str) (cv : Bool) : Tame (initVoltage dev fl p cv) := by
  unfold initVoltage
  split
  · apply Tame.bind (Tame.send dev _ _ _)
    intro r
    split
    · split
      · exact tame_close dev
      · split
        · exact tame_close dev
        · split
          · exact Tame.pure _
          · exact Tame.bind (Tame.modifyElm _ (by simp)) (fun _ => tame_initProtocol dev p)
    · exact tame_close dev
  · exact tame_initProtocol dev p

theorem tame_initAt (dev : Device) (fl : FloatFn) (p : Option Str) (cv : Bool) : Tame (initAt dev fl p cv) := by
  unfold initAt
  apply Tame.bind (Tame.send dev _ _ _)
  intro _
  apply Tame.bind (Tame.send dev _ _ _)
  intro r
  split
  · exact tame_close dev
  · apply Tame.bind (Tame.send dev _ _ _)
    intro r
    split
    · exact tame_close dev
    · apply Tame.bind (Tame.send dev _ _ _)
      intro r
      split
      · exact tame_close dev
      · exact Tame.bind (Tame.modifyElm _ (by simp)) (fun _ => tame_initVoltage dev fl p cv)

/-- The world just after the port was opened. -/
def opened (portname : Str) (cfg : Config) (hist : History) : EW :=
  { elm := { fresh cfg.timeout with port := some { name := portname, baud := 9600, timeout := 10 } }
    hist := hist ++ [.open_ portname none] }

/-- The part of the constructor after opening the port. -/
def afterOpen (dev : Device) (fl : FloatFn) (cfg : Config) : ElmM Unit := do
  if cfg.startLowPower then write dev (ascii " ")
  if ¬ (← setBaudrate dev cfg.baudrate) then error dev
  else initAt dev fl cfg.protocol cfg.checkVoltage

/-- A constructor call that returns a connected object went past opening the port. -/
theorem construct_opened {dev : Device} {fl : FloatFn} {portname : Str} {cfg : Config} {hist : History} {w : EW}
    (h : construct dev fl portname cfg hist = (.ok (), w)) (hs : w.elm.status ≠ .notConnected) :
    dev.openPort hist portname = none ∧ afterOpen dev fl cfg (opened portname cfg hist) = (.ok (), w) := by
  unfold construct init at h
  simp only at h
  split at h
  · exact absurd (close_ok h).1 hs
  · exact absurd (close_ok h).1 hs
  · cases h
  · next ho =>
    refine ⟨ho, ?_⟩
    rw [ho] at h
    exact h

theorem tame_afterOpen (dev : Device) (fl : FloatFn) (cfg : Config) : Tame (afterOpen dev fl cfg) := by
  have main : Tame (do
      if ¬ (← setBaudrate dev cfg.baudrate) then error dev
      else initAt dev fl cfg.protocol cfg.checkVoltage) := by
    apply Tame.bind (tame_setBaudrate dev _)
    intro b
    split
    · exact tame_close dev
    · exact tame_initAt dev fl _ _
  unfold afterOpen
  split
  · exact Tame.bind (Tame.write dev _) (fun _ => main)
  · exact main

end ElmM
end Model
