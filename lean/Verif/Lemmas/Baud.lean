import Verif.Lemmas.Kept
/-!
# Setting the rate
-/
namespace Model
open Py Spec
namespace ElmM

theorem prompted_iff (b : Bytes) : b.getLast? = some 0x3E ↔ Prompted b := by
  rw [List.getLast?_eq_some_iff]; rfl

/-- The loop over the rates. -/
theorem tryRates_spec (dev : Device) (t : Rat) (l : List Nat) (w : EW) (p : Port) (hp : w.elm.port = some p) :
    (∃ before after rate b evs q, l = before ++ rate :: after ∧ Silent before evs ∧ Prompted b ∧
      q = { p with baud := rate, timeout := t } ∧
      tryRates dev t l w = (.ok true, { elm := { w.elm with port := some q }, hist := w.hist ++ (evs ++ [.probe rate (.ok b)]) })) ∨
    (∃ evs rate q, Silent l evs ∧ q = { p with baud := rate, timeout := t } ∧
      tryRates dev t l w = (.ok false, { elm := { w.elm with port := some q }, hist := w.hist ++ evs })) ∨
    (∃ before after rate e evs q, l = before ++ rate :: after ∧ Silent before evs ∧
      tryRates dev t l w = (.error e, { elm := { w.elm with port := some q }, hist := w.hist ++ (evs ++ [.probe rate (.error e)]) })) := by
  induction l generalizing w p with
  | nil =>
    right; left
    refine ⟨[], p.baud, _, .nil, rfl, ?_⟩
    simp [tryRates, setTimeout, modifyElm, PyM.bind_apply, hp]
  | cons r l ih =>
    have hprobe : probe dev r w = (dev.probe w.hist r, { elm := { w.elm with port := some { p with baud := r } }
                                                         hist := w.hist ++ [.probe r (dev.probe w.hist r)] }) := by
      simp [probe, hp]
    cases hres : dev.probe w.hist r with
    | error e =>
      right; right
      refine ⟨[], l, r, e, [], { p with baud := r }, rfl, .nil, ?_⟩
      rw [hres] at hprobe
      rw [tryRates, PyM.bind_error hprobe]
      rfl
    | ok b =>
      rw [hres] at hprobe
      by_cases hb : b.getLast? = some 0x3E
      · left
        refine ⟨[], l, r, b, [], _, rfl, .nil, (prompted_iff b).1 hb, rfl, ?_⟩
        rw [tryRates, PyM.bind_ok hprobe, if_pos hb]
        simp [setTimeout, modifyElm, PyM.bind_apply]
      · have hb' : ¬ Prompted b := fun h => hb ((prompted_iff b).2 h)
        rw [tryRates, PyM.bind_ok hprobe, if_neg hb]
        rcases ih { elm := { w.elm with port := some { p with baud := r } }, hist := w.hist ++ [.probe r (.ok b)] } _ rfl with
          ⟨before, after, rate, b', evs, q, hl, hs, hpr, hq, he⟩ | ⟨evs, rate, q, hs, hq, he⟩ | ⟨before, after, rate, e, evs, q, hl, hs, he⟩
        · left
          exact ⟨r :: before, after, rate, b', .probe r (.ok b) :: evs, q, by simp [hl], .cons hb' hs, hpr, hq,
            by rw [he]; simp⟩
        · right; left
          exact ⟨.probe r (.ok b) :: evs, rate, q, .cons hb' hs, hq, by rw [he]; simp⟩
        · right; right
          exact ⟨r :: before, after, rate, e, .probe r (.ok b) :: evs, q, by simp [hl], .cons hb' hs,
            by rw [he]; simp⟩

theorem autoBaudrate_eq (dev : Device) (w : EW) (p : Port) (hp : w.elm.port = some p) :
    autoBaudrate dev w = tryRates dev p.timeout tryBauds
      { w with elm := { w.elm with port := some { p with timeout := w.elm.timeout } } } := by
  unfold autoBaudrate
  rw [PyM.bind_ok (show getElm w = (.ok w.elm, w) from rfl), hp]
  simp only
  rw [PyM.bind_ok (show setTimeout w.elm.timeout w = (.ok (), { w with elm := { w.elm with port := some { p with timeout := w.elm.timeout } } }) by
    simp [setTimeout, modifyElm, hp])]

theorem setBaudrate_true {dev : Device} {baud : Option Nat} {w w' : EW} {p : Port} (hp : w.elm.port = some p)
    (h9 : p.baud = 9600) (h : setBaudrate dev baud w = (.ok true, w')) :
    ∃ evs rate, FoundRate p.name baud evs rate ∧
      w' = { elm := { w.elm with port := some { p with baud := rate } }, hist := w.hist ++ evs } := by
  unfold setBaudrate at h
  obtain ⟨e, w1, h1, h⟩ := bind_inv h
  cases h1
  cases baud with
  | none =>
    simp only at h
    split at h
    · next hpre =>
      cases h
      have : w.elm.portName = p.name := by simp [Elm.portName, hp]
      rw [this, List.isPrefixOf_iff_prefix] at hpre
      obtain ⟨t, ht⟩ := hpre
      refine ⟨[], 9600, .pseudo ⟨t, ht.symm⟩, ?_⟩
      obtain ⟨⟨s, po, pr, lp, ti⟩, hi⟩ := w
      simp only at hp
      subst hp
      obtain ⟨n, b, ti⟩ := p
      simp only at h9
      subst h9
      simp
    · rw [autoBaudrate_eq dev w p hp] at h
      rcases tryRates_spec dev p.timeout tryBauds
        { w with elm := { w.elm with port := some { p with timeout := w.elm.timeout } } } _ rfl with
        ⟨before, after, rate, b, evs, q, hl, hs, hpr, hq, he⟩ | ⟨evs, rate, q, hs, hq, he⟩ | ⟨before, after, rate, e, evs, q, hl, hs, he⟩
      · rw [he] at h
        cases h
        exact ⟨_, rate, .detected before after rate b evs hl hs hpr, by rw [hq]⟩
      · rw [he] at h; cases h
      · rw [he] at h; cases h
  | some b =>
    simp only [hp] at h
    cases hs : dev.setBaud w.hist b with
    | some x => rw [hs] at h; cases h
    | none =>
      rw [hs] at h
      simp only [Option.map_some, Prod.mk.injEq, true_and] at h
      exact ⟨_, b, .given b, h.symm⟩

/-- A constructor call that ends with the car connected. -/
theorem construct_car {dev : Device} {fl : FloatFn} {port : Str} {cfg : Config} {hist : History} {w : EW}
    (h : construct dev fl port cfg hist = (.ok (), w)) (hs : w.elm.status = .carConnected) :
    ∃ evs rate xs id r obj, w.hist = hist ++ evs ∧ Connects fl port cfg evs rate xs id r ∧
      w.elm.port = some { name := port, baud := rate, timeout := 10 } ∧ w.elm.lowPower = false ∧
      w.elm.protocol = some obj ∧ obj.cls.elmId = id ∧ obj.cls.init r = .ok obj := by
  obtain ⟨ho, h⟩ := construct_opened h (by rw [hs]; simp)
  have main : ∀ w0 : EW, w0.elm.port = some { name := port, baud := 9600, timeout := 10 } → w0.elm.lowPower = false →
      ((do
        if ¬ (← setBaudrate dev cfg.baudrate) then error dev
        else initAt dev fl cfg.protocol cfg.checkVoltage) : ElmM Unit) w0 = (.ok (), w) →
      ∃ e1 e2 rate xs id r obj, w.hist = w0.hist ++ (e1 ++ e2) ∧ FoundRate port cfg.baudrate e1 rate ∧ Dialogue e2 xs ∧
        SetUp fl cfg.checkVoltage cfg.protocol xs id r ∧
        w.elm.port = some { name := port, baud := rate, timeout := 10 } ∧ w.elm.lowPower = false ∧
        w.elm.protocol = some obj ∧ obj.cls.elmId = id ∧ obj.cls.init r = .ok obj := by
    intro w0 hp0 hl0 h
    obtain ⟨b, w1, h1, h2⟩ := bind_inv h
    cases b with
    | false =>
      have : error dev w1 = (.ok (), w) := h2
      have := (close_ok this).1
      rw [hs] at this; cases this
    | true =>
      obtain ⟨e1, rate, hf, hw1⟩ := setBaudrate_true hp0 rfl h1
      have h3 : initAt dev fl cfg.protocol cfg.checkVoltage w1 = (.ok (), w) := h2
      obtain ⟨hp, xs, id, p, r, hg, hset, e2, obj, hd, hi, hh, hpr, hpo, hlp⟩ := initAt_car h3 hs
      have hc := init_cls hi
      exact ⟨e1, e2, rate, xs, id, r, obj, by rw [hh, hw1]; simp, hf, hd, hset, by rw [hpo, hw1], by rw [hlp, hw1]; exact hl0,
        hpr, by rw [hc]; exact get_elmId hg, by rw [hc]; exact hi⟩
  unfold afterOpen at h
  cases hlow : cfg.startLowPower with
  | false =>
    simp only [hlow, Bool.false_eq_true, if_false] at h
    obtain ⟨e1, e2, rate, xs, id, r, obj, hh, hf, hd, hset, rest⟩ := main (opened port cfg hist) rfl rfl h
    refine ⟨_, rate, xs, id, r, obj, ?_, ⟨e1, e2, rfl, hf, hd, hset⟩, rest⟩
    rw [hh]; simp [opened, hlow]
  | true =>
    simp only [hlow, if_true] at h
    obtain ⟨_, w1, h1, h2⟩ := bind_inv h
    have hw1 : w1 = (opened port cfg hist).write dev (ascii " ") := (congrArg Prod.snd h1).symm
    rcases write_some dev (ascii " ") (opened port cfg hist) _ rfl with e | e
    · rw [e] at hw1
      obtain ⟨e1, e2, rate, xs, id, r, obj, hh, hf, hd, hset, rest⟩ := main w1 (by rw [hw1]; rfl) (by rw [hw1]; rfl) h2
      refine ⟨_, rate, xs, id, r, obj, ?_, ⟨e1, e2, rfl, hf, hd, hset⟩, rest⟩
      rw [hh, hw1]; simp [opened, hlow]
    · rw [e] at hw1
      exfalso
      have ht : Tame (do
          if ¬ (← setBaudrate dev cfg.baudrate) then error dev
          else initAt dev fl cfg.protocol cfg.checkVoltage) := by
        apply Tame.bind (tame_setBaudrate dev _)
        intro b
        split
        · exact tame_close dev
        · exact tame_initAt dev fl _ _
      obtain ⟨b, w2, h3, h4⟩ := bind_inv h2
      cases b with
      | false =>
        have : error dev w2 = (.ok (), w) := h4
        have := (close_ok this).1
        rw [hs] at this; cases this
      | true =>
        have h5 : initAt dev fl cfg.protocol cfg.checkVoltage w2 = (.ok (), w) := h4
        obtain ⟨hp, -⟩ := initAt_car h5 hs
        obtain ⟨evs, -, h6⟩ := ht w1
        rw [h2] at h6
        exact (h6 hp).1 (by rw [hw1]; rfl)

end ElmM
end Model
