import Verif.Lemmas.Optimise
import Verif.Props.Query
/-!
# C71: fast mode only saves time
-/
namespace Props
open Py Model Spec ObdM

/-- C71 in full: on a faithful adapter that obeys response limits, `fast=True` and `fast=False`
give the same outcomes for every list of queries. -/
def C71_full : Prop :=
  ∀ (dev : Device) (env : Answers) (fl : Str → Option PyFloat) (a : Args) (s t : OW), Faithful dev env → Limits env →
    Constructed dev fl { a with fast := true } s → Constructed dev fl { a with fast := false } t →
    ∀ qs : List (OBDCommand × Bool), (∀ q ∈ qs, IsRequest q.1.command) → outcomes dev fl qs s = outcomes dev fl qs t

theorem getters_allowed : ∀ c ∈ pidGetters, c.header = ascii "7E0" ∧ IsRequest c.command := by
  have : pidGetters.all (fun c => decide (c.header = ascii "7E0") && decide (c.command ≠ [] ∧ c.command.length % 2 = 0 ∧
      ∀ x ∈ c.command, x ∈ ascii "0123456789ABCDEF")) = true := by decide +kernel
  intro c hc
  have := List.all_eq_true.1 this c hc
  simpa [IsRequest] using this

/-- What holds: the same constructor outcome, the same supported commands and the same outcome of
every query, if only commands for the header 7E0 are queried, and their replies and those to
the PID listing commands do not vary in shape. -/
theorem C71_partial (dev : Device) (env : Answers) (fl : Str → Option PyFloat) (a : Args) (hf : Faithful dev env) (hl : Limits env)
    (cs : List OBDCommand) (hcs : ∀ c ∈ cs, c.header = ascii "7E0" ∧ c.command ≠ [] ∧ (c.fast = true → IsRequest c.command))
    (x y : Except Exc Unit) (s t : OW) (hx : ObdM.construct dev fl a.ports a.portstr true a.cfg = (x, s))
    (hy : ObdM.construct dev fl a.ports a.portstr false a.cfg = (y, t))
    (hst : ∀ e o, t.interface = some e → e.protocol = some o → ∀ c, (c ∈ cs ∨ c ∈ pidGetters) → Steady env o c) :
    x = y ∧ (x = .ok () → s.interface = t.interface ∧ (∀ c, supports s c = supports t c) ∧
      ∀ qs : List (OBDCommand × Bool), (∀ q ∈ qs, q.1 ∈ cs) → outcomes dev fl qs s = outcomes dev fl qs t) := by
  have hb := blind_connect dev fl a.ports a.portstr a.cfg true { supported := baseCommands, fast := false }
  unfold ObdM.construct at hx hy
  rw [PyM.bind_apply] at hx hy
  cases hc : connect dev fl a.ports a.portstr a.cfg { supported := baseCommands, fast := false } with
  | mk r s1 =>
  rw [hc] at hy hb
  have hx' : connect dev fl a.ports a.portstr a.cfg { supported := baseCommands, fast := true } = (r, { s1 with fast := true }) := hb
  rw [hx'] at hx
  have hfast : s1.fast = false := by
    have := blind_connect dev fl a.ports a.portstr a.cfg false { supported := baseCommands, fast := false }
    have h2 := congrArg (fun z : Except Exc Unit × OW => z.2.fast) this
    simpa [hc] using h2
  cases r with
  | error z =>
    cases hx; cases hy
    exact ⟨rfl, fun h => by cases h⟩
  | ok u =>
    simp only at hx hy
    have hsound := connect_sound hc ⟨shape_nil, by simp⟩
    have key : ∃ o, Twins env o { s1 with fast := true } s1 ∧
        (status { s1 with fast := true } ≠ .notConnected → ∀ c ∈ cs ++ pidGetters, Allowed env o c) := by
      rcases connect_attrs (a := { a with fast := false }) hc with h1 | ⟨h1, h2, h3, h4, e, h5, h6⟩
      · exact ⟨⟨.unknown, []⟩, ⟨rfl, rfl, rfl, hfast, rfl, fun h => absurd h1 h⟩, fun h => absurd h1 h⟩
      · by_cases hs1 : status s1 = .notConnected
        · exact ⟨⟨.unknown, []⟩, ⟨rfl, rfl, rfl, hfast, rfl, fun h => absurd hs1 h⟩, fun h => absurd hs1 h⟩
        obtain ⟨e', o, hlive⟩ := live_of_sound hsound hs1
        have : e' = e := by
          have := hlive.iface
          rw [h5] at this
          injection this with this
          exact this.symm
        subst this
        refine ⟨o, ⟨rfl, rfl, rfl, hfast, rfl, fun _ => ⟨⟨e', ⟨hlive.iface, hlive.status, hlive.port, hlive.proto⟩, h6⟩, h1, h1, ?_, ?_⟩⟩, ?_⟩
        · intro h; exact absurd h2 h
        · intro d _ _ n hn
          have : ({ s1 with fast := true } : OW).frameCounts = [] := h3
          rw [this] at hn
          cases hn
        · intro _ c hcc
          have hp : HasProto o t := by
            have := kept_loadCommands (ostable_hasProto dev o) fl s1 ⟨e', hlive.iface, hlive.proto⟩
            rw [hy] at this
            exact this
          obtain ⟨e2, g1, g2⟩ := hp
          have hsteady := hst e2 o g1 g2 c (List.mem_append.1 hcc)
          rcases List.mem_append.1 hcc with hcc | hcc
          · obtain ⟨k1, k2, k3⟩ := hcs c hcc
            exact ⟨k1, k2, k3, hsteady⟩
          · obtain ⟨k1, k2⟩ := getters_allowed c hcc
            exact ⟨k1, k2.1, fun _ => k2, hsteady⟩
    obtain ⟨o, htw, hall⟩ := key
    have hload : x = y ∧ Twins env o s t := by
      unfold loadCommands at hx hy
      rw [PyM.bind_ok (show PyM.get _ = (.ok _, _) from rfl)] at hx hy
      have hst1 : status { s1 with fast := true } = status s1 := rfl
      rw [hst1] at hx
      by_cases hcar : status s1 = .carConnected
      · rw [if_neg (by simpa using hcar)] at hx hy
        have := twins_load hf hl fl pidGetters (cs := cs ++ pidGetters) (fun g hg => List.mem_append_right _ hg) _ _ htw hall
        rw [hx, hy] at this
        exact this
      · rw [if_pos hcar] at hx hy
        cases hx; cases hy
        exact ⟨rfl, htw⟩
    refine ⟨hload.1, fun _ => ⟨hload.2.iface, fun c => by unfold supports; rw [hload.2.sup], fun qs hq => ?_⟩⟩
    refine twins_outcomes hf hl fl qs (cs := cs ++ pidGetters) (fun q hx => List.mem_append_left _ (hq q hx)) _ _ hload.2 ?_
    intro hns
    refine hall (fun hn => hns ?_)
    have hn1 : status { s1 with fast := true } = .notConnected := hn
    unfold loadCommands at hx
    rw [PyM.bind_ok (show PyM.get _ = (.ok _, _) from rfl), hn1, if_pos (by simp)] at hx
    cases hx
    exact hn1

/-! ### an adapter that obeys -/

instance (b : Bytes) : Decidable (IsRequest b) := by unfold IsRequest; infer_instance

/-- The answers of an adapter that obeys response limits, given its answers without limit. -/
def limited (base : Nat → Bytes → List Str) : Answers := fun k l =>
  some (match l.dropLast.getLast? with
    | some d => if 0x31 ≤ d ∧ d ≤ 0x39 ∧ IsRequest l.dropLast.dropLast then (base k (line l.dropLast.dropLast)).take (d.toNat - 0x30) else base k l
    | none => base k l)

theorem limits_limited (base : Nat → Bytes → List Str) : Limits (limited base) := by
  intro k x n hx h1 h2
  have e1 : (line (x ++ [UInt8.ofNat (0x30 + n)])).dropLast = x ++ [UInt8.ofNat (0x30 + n)] := by simp [line]
  have e2 : (line x).dropLast = x := by simp [line]
  have hd : ∀ n : Fin 10, 1 ≤ n.val → (0x31 : UInt8) ≤ UInt8.ofNat (0x30 + n.val) ∧ UInt8.ofNat (0x30 + n.val) ≤ 0x39 ∧
      (UInt8.ofNat (0x30 + n.val)).toNat - 0x30 = n.val := by decide
  obtain ⟨d1, d2, d3⟩ := hd ⟨n, by omega⟩ h1
  have l1 : limited base k (line (x ++ [UInt8.ofNat (0x30 + n)])) = some ((base k (line x)).take n) := by
    unfold limited
    rw [e1, List.getLast?_concat, List.dropLast_concat]
    simp only
    rw [if_pos ⟨d1, d2, hx⟩, d3]
  have l2 : limited base k (line x) = some (base k (line x)) := by
    unfold limited
    rw [e2]
    cases hg : x.getLast? with
    | none => rfl
    | some d =>
      simp only
      rw [if_neg]
      rintro ⟨-, -, h⟩
      have h3 := h.2.1
      have h4 := hx.2.1
      have h5 : x.length ≠ 0 := fun h => hx.1 (List.length_eq_zero_iff.1 h)
      rw [List.length_dropLast] at h3
      omega
  rw [l1, l2]
  rfl

/-- The bytes of a reply, without the prompt. -/
def replyBytes (ls : List Str) : Bytes := ls.flatMap (fun l => encodeAscii l ++ [0x0D])

/-- An adapter with these answers. -/
def obedient (env : Answers) : Device where
  openPort := fun _ _ => none
  setBaud := fun _ _ => none
  probe := fun _ b => .ok (if b = 9600 then ascii "ELM327 v1.5\r\r>" else [])
  write := fun _ _ => true
  read := fun h => match env h.length (request h) with
    | some ls => [some (replyBytes ls ++ [0x3E])]
    | none => [none]

/-- The lines survive the way through the port. -/
def clean (ls : List Str) : Bool := decide (cleanLines (replyBytes ls ++ [0x3E]) = ls) && !(replyBytes ls).contains 0x3E

theorem faithful_obedient (env : Answers) (h : ∀ k l ls, env k l = some ls → clean ls = true) : Faithful (obedient env) env where
  accepts := fun _ _ => rfl
  answers := by
    intro hist
    show Delivers (match env hist.length (request hist) with | some ls => [some (replyBytes ls ++ [0x3E])] | none => [none]) _
    cases he : env hist.length (request hist) with
    | none => exact Delivers.fails [] [] (by simp) (by simp)
    | some ls =>
      have hc := h _ _ _ he
      simp only [clean, Bool.and_eq_true, decide_eq_true_eq, Bool.not_eq_true', List.contains_eq_mem, decide_eq_false_iff_not] at hc
      refine Delivers.reply [replyBytes ls ++ [0x3E]] [] (replyBytes ls) ls (by simp) hc.2 (by simp) ?_
      have := cleanLines_spec (replyBytes ls ++ [0x3E])
      rw [hc.1] at this
      exact this

/-- Answers from a table. -/
def tabled (t : List (String × List String)) (l : Bytes) : List Str :=
  match t.find? (fun e => ascii e.1 ++ [0x0D] == l) with
  | some e => e.2.map String.toList
  | none => ["?".toList]

theorem tabled_mem (t : List (String × List String)) (l : Bytes) : tabled t l ∈ ["?".toList] :: t.map (fun e => e.2.map String.toList) := by
  unfold tabled
  split
  · rename_i e he
    exact List.mem_cons_of_mem _ (List.mem_map.2 ⟨e, List.mem_of_find?_eq_some he, rfl⟩)
  · simp

/-- All replies of a table, with any limit, are clean. -/
def cleanTable (t : List (String × List String)) : Bool :=
  (["?".toList] :: t.map (fun e => e.2.map String.toList)).all (fun ls => (List.range 10).all (fun n => clean (ls.take n)) && clean ls)

theorem limited_clean (t : List (String × List String)) (h : cleanTable t = true) (base : Nat → Bytes → List Str) (k : Nat)
    (hb : ∀ l, base k l ∈ ["?".toList] :: t.map (fun e => e.2.map String.toList)) (l : Bytes) (ls : List Str) (he : limited base k l = some ls) : clean ls = true := by
  have key : ∀ l, clean (base k l) = true ∧ ∀ n < 10, clean ((base k l).take n) = true := by
    intro l
    have := List.all_eq_true.1 h _ (hb l)
    simp only [Bool.and_eq_true, List.all_eq_true, List.mem_range] at this
    exact ⟨this.2, this.1⟩
  unfold limited at he
  injection he with he
  subst he
  split
  · split
    · rename_i d _ hd
      refine (key _).2 _ ?_
      have := UInt8.le_iff_toNat_le.1 hd.2.1
      simp at this
      omega
    · exact (key _).1
  · exact (key _).1

def goodTable : List (String × List String) :=
  [("ATZ", ["ELM327 v1.5"]), ("ATE0", ["ATE0", "OK"]), ("ATH1", ["OK"]), ("ATL0", ["OK"]), ("AT RV", ["12.5V"]),
   ("ATSP0", ["OK"]), ("0100", ["7E8 06 41 00 00 18 00 00", "7E9 06 41 00 00 10 00 00"]), ("ATDPN", ["A6"]),
   ("010C", ["7E9 04 41 0C 1A F8", "7E8 04 41 0C 0A F0"]), ("010D", ["7E8 03 41 0D 40"]), ("AT SH 7E0 ", ["OK"]), ("AT SH 7E1 ", ["OK"])]

def goodEnv : Answers := limited (fun _ l => tabled goodTable l)
def goodCar : Device := obedient goodEnv

theorem good_faithful : Faithful goodCar goodEnv :=
  faithful_obedient _ (fun k l ls h => limited_clean goodTable (by decide +kernel) _ k (fun l => tabled_mem _ l) l ls h)

theorem built {dev : Device} {fl : Str → Option PyFloat} {ports : List Str} {fast : Bool} {cfg : ElmM.Config}
    (h : (ObdM.construct dev fl ports none fast cfg).1 = .ok ()) :
    Constructed dev fl { ports := ports, fast := fast, cfg := cfg } (ObdM.construct dev fl ports none fast cfg).2 := Prod.ext h rfl

/-- The car, connected with and without fast mode. -/
def goodObd (fast : Bool) : OW := (ObdM.construct goodCar fl0 ["COM1".toList] none fast {}).2

theorem goodObd_constructed (fast : Bool) : Constructed goodCar fl0 { ports := ["COM1".toList], fast := fast } (goodObd fast) := by
  have : ∀ fast, (ObdM.construct goodCar fl0 ["COM1".toList] none fast {}).1 = .ok () := by decide +kernel
  exact built (this fast)

/-- What the outcomes look like: `none` raised, otherwise whether the response is not null. -/
def shapes (l : List (Except Exc Response)) : List (Option Bool) := l.map (fun r => match r with
  | .ok r => some (!r.isNull)
  | .error _ => none)

/-- C71 does not hold: when a command is sent under another header first, the repeat that
follows `AT SH` repeats `AT SH` instead of the command. -/
theorem C71_refuted : ¬ C71_full := by
  intro h
  have h := h goodCar goodEnv fl0 { ports := ["COM1".toList] } (goodObd true) (goodObd false) good_faithful (limits_limited _)
    (goodObd_constructed true) (goodObd_constructed false) [({ rpmCommand with header := ascii "7E1" }, true), (rpmCommand, true)] (by decide)
  have h := congrArg shapes h
  have h1 : shapes (outcomes goodCar fl0 [({ rpmCommand with header := ascii "7E1" }, true), (rpmCommand, true)] (goodObd true)) = [some true, some false] := by
    decide +kernel
  have h2 : shapes (outcomes goodCar fl0 [({ rpmCommand with header := ascii "7E1" }, true), (rpmCommand, true)] (goodObd false)) = [some true, some true] := by
    decide +kernel
  rw [h1, h2] at h
  exact absurd h (by decide)

/-- A car where a second ECU begins to answer RPM requests later, before the engine does. -/
def lateTable : List (String × List String) := ("010C", ["7E8 04 41 0C 0A F0"]) :: goodTable
def lateEnv : Answers := limited (fun k l => if k < 27 then tabled lateTable l else tabled goodTable l)
def lateCar : Device := obedient lateEnv

theorem late_faithful : Faithful lateCar lateEnv := by
  refine faithful_obedient _ (fun k l ls h => limited_clean lateTable (by decide +kernel) _ k (fun l => ?_) l ls h)
  show (if k < 27 then tabled lateTable l else tabled goodTable l) ∈ _
  split
  · exact tabled_mem _ l
  · have := tabled_mem goodTable l
    rcases List.mem_cons.1 this with h | h
    · rw [h]; simp
    · exact List.mem_cons_of_mem _ (List.mem_cons_of_mem _ h)

def lateObd (fast : Bool) : OW := (ObdM.construct lateCar fl0 ["COM1".toList] none fast {}).2

/-- Nor does it hold for one header only: if more ECUs answer than the first time, the last of
them are cut off, here the engine. -/
theorem C71_refuted_late : ¬ C71_full := by
  intro h
  have hcon : ∀ fast, Constructed lateCar fl0 { ports := ["COM1".toList], fast := fast } (lateObd fast) := by
    intro fast
    have : ∀ fast, (ObdM.construct lateCar fl0 ["COM1".toList] none fast {}).1 = .ok () := by decide +kernel
    exact built (this fast)
  have h := h lateCar lateEnv fl0 { ports := ["COM1".toList] } (lateObd true) (lateObd false) late_faithful (limits_limited _)
    (hcon true) (hcon false) [(rpmCommand, false), (rpmCommand, false)] (by decide)
  have h := congrArg shapes h
  have h1 : shapes (outcomes lateCar fl0 [(rpmCommand, false), (rpmCommand, false)] (lateObd true)) = [some true, some false] := by
    decide +kernel
  have h2 : shapes (outcomes lateCar fl0 [(rpmCommand, false), (rpmCommand, false)] (lateObd false)) = [some true, some true] := by
    decide +kernel
  rw [h1, h2] at h
  exact absurd h (by decide)

/-- `Steady` for answers that do not depend on the time. -/
def steadyNow (env : Answers) (o : ProtoObj) (c : OBDCommand) : Bool :=
  match env 0 (line c.command) with
  | none => true
  | some lines => !lines.isEmpty && match o.call lines with
    | .ok ms => !c.fast || (decide (1 ≤ lines.length) && decide (lines.length ≤ 9) && decide ((ms.map (fun m => m.frames.length)).sum = lines.length))
    | .error _ => false

theorem steady_of_now {env : Answers} {o : ProtoObj} {c : OBDCommand} (ht : ∀ k l, env k l = env 0 l) (h : steadyNow env o c = true) : Steady env o c := by
  unfold steadyNow at h
  cases he : env 0 (line c.command) with
  | none => exact ⟨1, fun k lines hk => by rw [ht, he] at hk; cases hk⟩
  | some lines =>
    rw [he] at h
    simp only [Bool.and_eq_true] at h
    refine ⟨lines.length, fun k l hk => ?_⟩
    rw [ht, he] at hk
    cases hk
    refine ⟨by intro h0; rw [h0] at h; simp at h, ?_⟩
    cases hc : o.call lines with
    | error x => rw [hc] at h; simp at h
    | ok ms =>
      rw [hc] at h
      refine ⟨ms, rfl, fun hf => ?_⟩
      have := h.2
      simp only [hf, Bool.not_true, Bool.false_or, Bool.and_eq_true, decide_eq_true_eq] at this
      exact ⟨this.1.1, this.1.2, rfl, this.2⟩

def speedCommand : OBDCommand := (byName "SPEED").getD rpmCommand

theorem good_same (s t : OW) (h1 : Constructed goodCar fl0 { ports := ["COM1".toList], fast := true } s)
    (h2 : Constructed goodCar fl0 { ports := ["COM1".toList], fast := false } t)
    (hp : (t.interface.bind Elm.protocol).all (fun o => ([rpmCommand, speedCommand] ++ pidGetters).all (steadyNow goodEnv o)) = true)
    (qs : List (OBDCommand × Bool)) (hq : ∀ q ∈ qs, q.1 ∈ [rpmCommand, speedCommand]) : outcomes goodCar fl0 qs s = outcomes goodCar fl0 qs t := by
  have := C71_partial goodCar goodEnv fl0 { ports := ["COM1".toList] } good_faithful (limits_limited _) [rpmCommand, speedCommand] (by decide +kernel) (.ok ()) (.ok ())
    s t h1 h2 (by
      intro e o h1 h2 c hc
      rw [h1] at hp
      simp only [Option.bind_some, h2, Option.all_some] at hp
      exact steady_of_now (fun _ _ => rfl) (List.all_eq_true.1 hp c (List.mem_append.2 hc)))
  exact (this.2 rfl).2.2 qs hq

/-- The hypotheses of `C71_partial` can be met: two ECUs, two commands. -/
example : (∀ qs : List (OBDCommand × Bool), (∀ q ∈ qs, q.1 ∈ [rpmCommand, speedCommand]) →
      outcomes goodCar fl0 qs (goodObd true) = outcomes goodCar fl0 qs (goodObd false)) :=
  good_same _ _ (goodObd_constructed true) (goodObd_constructed false) (by decide +kernel)

/-- What they send differs. -/
example : sent ((session goodCar fl0 [.query rpmCommand false, .query rpmCommand false, .query rpmCommand false, .query speedCommand false] (goodObd true)).hist.drop
      (goodObd true).hist.length) = [line (ascii "010C"), line (ascii "010C2"), line [], line (ascii "010D")] ∧
    sent ((session goodCar fl0 [.query rpmCommand false, .query rpmCommand false, .query rpmCommand false, .query speedCommand false] (goodObd false)).hist.drop
      (goodObd false).hist.length) = [line (ascii "010C"), line (ascii "010C"), line (ascii "010C"), line (ascii "010D")] := by
  constructor <;> decide +kernel

end Props
