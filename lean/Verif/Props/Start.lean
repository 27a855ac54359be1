import Verif.Lemmas.Start
import Verif.Lemmas.Hist
import Verif.Spec.Demo
import Verif.Props.Readings
/-!
# C76: the constructor
-/
namespace Props
open Py Model Spec

/-! ## C76 -/

/-- C76 in full: `OBD(...)` returns an object, whatever the adapter does. -/
def C76_full : Prop := ∀ (dev : Device) (fl : Str → Option PyFloat) (a : Args), ∃ s, Constructed dev fl a s

/-- C76, what holds: if `OBD(...)` raises, then the last thing that happened is that opening the port raised something
unexpected, or setting or probing a baud rate raised, or the line was lost at one of four places, or a reply came that cannot be parsed
under the protocol in use, or several ECUs answered without announcing anything; and the exception is the one named there. -/
theorem C76_partial (dev : Device) (fl : Str → Option PyFloat) (a : Args) (x : Exc) (s : OW)
    (h : ObdM.construct dev fl a.ports a.portstr a.fast a.cfg = (.error x, s)) : StartFails s.hist x := ObdM.raises_all h

theorem readLoop_none {m buf : Bytes} {l : List (Option Bytes)} (h : readLoop m buf l = none) : none ∈ l := by
  induction l generalizing buf with
  | nil => simp [readLoop] at h
  | cons x l ih =>
    cases x with
    | none => simp
    | some d =>
      unfold readLoop at h
      split at h
      · cases h
      · split at h
        · cases h
        · exact List.mem_cons_of_mem _ (ih h)

theorem readLoop_some {m buf b : Bytes} {l : List (Option Bytes)} (h : readLoop m buf l = some b) :
    ∃ t, b ++ t = buf ++ (l.filterMap id).flatten := by
  induction l generalizing buf with
  | nil => simp only [readLoop, Option.some.injEq] at h; exact ⟨[], by simp [h]⟩
  | cons x l ih =>
    cases x with
    | none => simp [readLoop] at h
    | some d =>
      unfold readLoop at h
      split at h
      · cases h; exact ⟨_, rfl⟩
      · split at h
        · cases h; exact ⟨(l.filterMap id).flatten, by simp⟩
        · obtain ⟨t, ht⟩ := ih h
          exact ⟨t, by rw [ht]; simp⟩

theorem produced_stable (dev : Device) : HStable dev (fun _ => True) (fun h => ∀ e ∈ h, Produced dev e) where
  write_ok := fun h cmd hR _ hw e he => by
    rcases List.mem_append.1 he with he | he
    · exact hR e he
    · simp only [List.mem_singleton] at he; subst he; exact ⟨h, hw⟩
  write_fail := fun h cmd hR _ hw e he => by
    rcases List.mem_append.1 he with he | he
    · exact hR e he
    · simp only [List.mem_cons, List.not_mem_nil, or_false] at he
      rcases he with rfl | rfl
      · exact ⟨h, hw⟩
      · trivial
  read_ok := fun h m b hR hr e he => by
    rcases List.mem_append.1 he with he | he
    · exact hR e he
    · simp only [List.mem_singleton] at he; subst he
      obtain ⟨t, ht⟩ := readLoop_some hr
      exact ⟨h, t, by simpa using ht⟩
  read_fail := fun h m hR hr e he => by
    rcases List.mem_append.1 he with he | he
    · exact hR e he
    · simp only [List.mem_cons, List.not_mem_nil, or_false] at he
      rcases he with rfl | rfl
      · exact ⟨h, readLoop_none hr⟩
      · trivial
  close := fun h hR e he => by
    rcases List.mem_append.1 he with he | he
    · exact hR e he
    · simp only [List.mem_singleton] at he; subst he; trivial
  probe := fun h b hR e he => by
    rcases List.mem_append.1 he with he | he
    · exact hR e he
    · simp only [List.mem_singleton] at he; subst he; exact ⟨h, rfl⟩
  setBaud := fun h b hR e he => by
    rcases List.mem_append.1 he with he | he
    · exact hR e he
    · simp only [List.mem_singleton] at he; subst he; exact ⟨h, rfl⟩

/-- The history of a constructor call tells what the device did. -/
theorem produced (dev : Device) (fl : Str → Option PyFloat) (a : Args) :
    ∀ e ∈ (ObdM.construct dev fl a.ports a.portstr a.fast a.cfg).2.hist, Produced dev e := by
  refine (produced_stable dev).construct fl a ?_ (by simp)
  intro h port hR e he
  rcases List.mem_append.1 he with he | he
  · exact hR e he
  · simp only [List.mem_singleton] at he; subst he; exact ⟨h, rfl⟩

/-- C76: with an adapter that stays there, `OBD(...)` returns unless the last reply that it
received cannot be parsed under the protocol in use, or nobody announced a single PID. -/
theorem C76_sturdy (dev : Device) (fl : Str → Option PyFloat) (a : Args) (hd : Sturdy dev) (h : History)
    (hh : h = (ObdM.construct dev fl a.ports a.portstr a.fast a.cfg).2.hist)
    (hparse : ∀ (p : Proto) (cmd : Bytes) (lines : List Str), Selected h p.elmId → Latest h cmd lines → ¬ Trips p lines)
    (hecu : ∀ (p : Proto) (lines : List Str), Selected h p.elmId → Latest h (ascii "0100") lines →
      ∀ (ms : List Message) (t : Nat) (d : Bytes), p.call p.defaultMap lines = .ok ms → Answered ms t d → popcount d ≠ 0) :
    ∃ s, Constructed dev fl a s := by
  have hpr := produced dev fl a
  cases hc : ObdM.construct dev fl a.ports a.portstr a.fast a.cfg with
  | mk r s =>
    cases r with
    | ok _ => exact ⟨s, hc⟩
    | error x =>
      exfalso
      rw [hc] at hh hpr
      subst hh
      have hmem : ∀ {e}, s.hist.getLast? = some e → e ∈ s.hist := List.mem_of_getLast?
      cases C76_partial dev fl a x s hc with
      | opening port x h1 h2 hm =>
        obtain ⟨h, hh⟩ := hpr _ (hmem hm)
        rcases hd.opens h port x hh with h | h
        · exact h1 h
        · exact h2 h
      | rate b x hm =>
        obtain ⟨h, hh⟩ := hpr _ (hmem hm)
        rw [hd.rates h b] at hh; cases hh
      | probing b x hm =>
        obtain ⟨h, hh⟩ := hpr _ (hmem hm)
        obtain ⟨r, hr⟩ := hd.probes h b
        rw [hr] at hh; cases hh
      | lost cmd hl hc =>
        obtain ⟨pre, evs, h1, hab⟩ := hl
        have key : ∀ e ∈ evs, ¬ Failed e := by
          intro e he hf
          have hin : e ∈ s.hist := by rw [h1]; simp [he]
          rcases hf with ⟨b, rfl⟩ | rfl
          · obtain ⟨h, hh⟩ := hpr _ hin
            rw [hd.writes] at hh; cases hh
          · obtain ⟨h, hh⟩ := hpr _ hin
            exact hd.reads h hh
        cases hab with
        | onWrite => exact key (Event.write (line cmd) false) (by simp) (Or.inl ⟨_, rfl⟩)
        | onRead bs hbs => exact key (Event.read none) (by simp) (Or.inr rfl)
      | parsing p cmd lines hs hf ht => exact hparse p cmd lines hs hf ht
      | ecus p lines ms hs hf hms t t' d d' hne ht ht' hstd hz => exact hecu p lines hs hf ms t d hms ht (hz t d ht)

/-- C76: an unexpected exception from opening the port escapes as it is. -/
theorem C76_open_escapes (dev : Device) (fl : Str → Option PyFloat) (a : Args) (p : Str) (x : Exc) (hp : a.portstr = some p)
    (ho : dev.openPort [] p = some x) (h1 : x ≠ .serialException) (h2 : x ≠ .osError) :
    (ObdM.construct dev fl a.ports a.portstr a.fast a.cfg).1 = .error x := by
  have hc : ElmM.construct dev fl p a.cfg [] = (.error x, ⟨ElmM.fresh a.cfg.timeout, [.open_ p (some x)]⟩) := by
    unfold ElmM.construct ElmM.init
    simp only [ho, List.nil_append]
  unfold ObdM.construct
  rw [PyM.bind_apply, hp]
  unfold ObdM.connect
  simp only
  rw [PyM.bind_apply]
  unfold ObdM.openInterface
  simp only [hc]

/-- At most one frame under every protocol, not one that begins like a trouble code message, and not only zeros. -/
def quiet (lines : List Str) : Bool :=
  [Proto.unknown, .j1850pwm, .j1850vpw, .iso9141, .kwp5baud, .kwpFast, .can11_500, .can29_500, .can11_250, .can29_250, .j1939].all (fun p =>
    calm p lines && decide ((lines.filterMap (lineFrame? p)).length ≤ 1) && (match p.call p.defaultMap lines with
      | .ok ms => ms.all (fun m => m.data.isEmpty || decide (popcount m.data ≠ 0))
      | .error _ => false))

theorem quiet_spec {lines : List Str} (h : quiet lines = true) (p : Proto) : ¬ Trips p lines ∧
    ∀ (ms : List Message) (t : Nat) (d : Bytes), p.call p.defaultMap lines = .ok ms → Answered ms t d → popcount d ≠ 0 := by
  have hp := List.all_eq_true.1 h p (by cases p <;> simp)
  simp only [Bool.and_eq_true, decide_eq_true_eq] at hp
  obtain ⟨⟨h1, h2⟩, h3⟩ := hp
  refine ⟨?_, ?_⟩
  · cases hf : p.family with
    | can n => exact not_trips_of_calm hf h1
    | legacy =>
      rintro (⟨n, t, hn, -⟩ | ⟨-, t, mode, hl, -⟩)
      · rw [hf] at hn; cases hn
      · have : (framesBy p t lines).length ≤ (lines.filterMap (lineFrame? p)).length := by
          unfold framesBy
          rw [List.length_map]
          exact List.length_filter_le _ _
        omega
    | unknown => rintro (⟨n, t, hn, -⟩ | ⟨hn, -⟩) <;> rw [hf] at hn <;> cases hn
  · rintro ms t d hms ⟨m, hm, -, rfl, hne⟩
    rw [hms] at h3
    have := List.all_eq_true.1 h3 m hm
    simpa [hne] using this

/-- All replies in a history are quiet. -/
def allQuiet (h : History) : Bool := h.all (fun e => match e with
  | .read (some b) => quiet (cleanLines b)
  | _ => true)

theorem allQuiet_spec {h : History} (hq : allQuiet h = true) {cmd : Bytes} {lines : List Str} (hf : Latest h cmd lines) : quiet lines = true := by
  have key : ∀ b, .read (some b) ∈ h → LinesOf b lines → quiet lines = true := by
    intro b hb h2
    have := List.all_eq_true.1 hq _ hb
    rw [linesOf_unique h2]
    exact this
  rcases hf with ⟨pre, bs, b, h1, h2, -⟩ | ⟨pre, evs, l, h1, ⟨pre', bs, b, h3, h2, -⟩, -⟩
  · exact key b (by rw [h1]; simp) h2
  · exact key b (by rw [h1, h3]; simp) h2

/-- The sample adapter is sturdy, and its replies are well-behaved: the hypotheses of C76_sturdy can be met. -/
example : ∃ s, Constructed (demo table) fl0 { portstr := some "COM1".toList } s := by
  have hq : allQuiet (ObdM.construct (demo table) fl0 [] (some "COM1".toList) true {}).2.hist = true := by decide +kernel
  refine C76_sturdy (demo table) fl0 { portstr := some "COM1".toList }
    ⟨by simp [demo], by simp [demo], fun h b => ⟨_, rfl⟩, by simp [demo], by simp [demo]⟩ _ rfl ?_ ?_
  · intro p cmd lines _ hf
    exact (quiet_spec (allQuiet_spec hq hf) p).1
  · intro p lines _ hf
    exact (quiet_spec (allQuiet_spec hq hf) p).2

/-- Probing a rate raises. -/
def noProbe : Device := { demo table with probe := fun _ _ => .error .serialException }
/-- The lone byte 43. -/
def table43 : List (String × String) := ("0100", "7E8 01 43") :: table

/-- C76 is false of the code: an exception while probing baud rates escapes, although every
other failure of the port is caught. -/
theorem C76_refuted : ¬ C76_full := by
  intro h
  obtain ⟨s, hs⟩ := h noProbe fl0 { portstr := some "COM1".toList }
  have : (ObdM.construct noProbe fl0 [] (some "COM1".toList) true {}).1 = .error .serialException := eq_of_failsWith (by decide +kernel)
  unfold Constructed at hs
  rw [hs] at this
  cases this

/-- C76 is also false when the adapter is unplugged while the protocol is being chosen. -/
theorem C76_unplugged_refuted : ¬ C76_full := by
  intro h
  obtain ⟨s, hs⟩ := h (demo table ["ATTP6"]) fl0 { portstr := some "COM1".toList, cfg := { protocol := some "6".toList } }
  have : (ObdM.construct (demo table ["ATTP6"]) fl0 [] (some "COM1".toList) true { protocol := some "6".toList }).1 = .error .attributeError :=
    eq_of_failsWith (by decide +kernel)
  unfold Constructed at hs
  rw [hs] at this
  cases this

/-- C76 is also false when the car answers the first request with the lone byte 43. -/
theorem C76_reply_refuted : ¬ C76_full := by
  intro h
  obtain ⟨s, hs⟩ := h (demo table43) fl0 { portstr := some "COM1".toList }
  have : (ObdM.construct (demo table43) fl0 [] (some "COM1".toList) true {}).1 = .error .indexError := eq_of_failsWith (by decide +kernel)
  unfold Constructed at hs
  rw [hs] at this
  cases this

/-- Two ECUs that send nothing but zeros. -/
def tableNull : List (String × String) := ("0100", "7E9 02 00 00\r7EA 02 00 00") :: table

/-- C76 is also false when two ECUs answer, none of them the engine, and all data bits are zero. -/
theorem C76_ecus_refuted : ¬ C76_full := by
  intro h
  obtain ⟨s, hs⟩ := h (demo tableNull) fl0 { portstr := some "COM1".toList }
  have : (ObdM.construct (demo tableNull) fl0 [] (some "COM1".toList) true {}).1 = .error .typeError := eq_of_failsWith (by decide +kernel)
  unfold Constructed at hs
  rw [hs] at this
  cases this

/-- The port name is not a valid URL. -/
def badName : Device := { demo table with openPort := fun _ _ => some .valueError }

/-- The hypotheses of C76_open_escapes can be met. -/
example : (ObdM.construct badName fl0 [] (some "COM1".toList) true {}).1 = .error .valueError :=
  C76_open_escapes badName fl0 { portstr := some "COM1".toList } "COM1".toList .valueError rfl rfl (by decide) (by decide)

end Props
