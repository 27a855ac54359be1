import Verif.Lemmas.OptimiseHeaders
import Verif.Props.Optimise
/-!
# C71 with commands for several headers
-/
namespace Props
open Py Model Spec ObdM

/-- What holds for commands with any headers: the same constructor outcome, the same supported commands and the same outcome of
every query, on an adapter whose answers depend on the header, provided that no two of the queried commands with different headers
are the same request, that setting a header is acknowledged, and that the replies do not vary in shape. -/
theorem C71_headers_partial (dev : Device) (env : HAnswers) (fl : Str → Option PyFloat) (a : Args) (hf : FaithfulH dev env) (hl : LimitsH env)
    (cs : List OBDCommand) (hcs : ∀ c ∈ cs, c.command ≠ [] ∧ isHeaderLine c.command = false ∧ (c.fast = true → IsRequest c.command))
    (hap : ∀ c ∈ cs ++ pidGetters, ∀ d ∈ cs ++ pidGetters, Apart c d) (hack : ∀ c ∈ cs ++ pidGetters, Acks env c)
    (x y : Except Exc Unit) (s t : OW) (hx : ObdM.construct dev fl a.ports a.portstr true a.cfg = (x, s))
    (hy : ObdM.construct dev fl a.ports a.portstr false a.cfg = (y, t))
    (hst : ∀ e o, t.interface = some e → e.protocol = some o → ∀ c, (c ∈ cs ∨ c ∈ pidGetters) → SteadyH env o c) :
    x = y ∧ (x = .ok () → s.interface = t.interface ∧ (∀ c, supports s c = supports t c) ∧
      ∀ qs : List (OBDCommand × Bool), (∀ q ∈ qs, q.1 ∈ cs) → outcomes dev fl qs s = outcomes dev fl qs t) := by
  have hb := blind_connect dev fl a.ports a.portstr a.cfg true { supported := baseCommands, fast := false }
  unfold ObdM.construct at hx hy
  rw [PyM.bind_apply] at hx hy
  cases hc : connect dev fl a.ports a.portstr a.cfg { supported := baseCommands, fast := false } with
  | mk r s1 =>
  rw [hc] at hy hb
  have hx' : connect dev fl a.ports a.portstr a.cfg { supported := baseCommands, fast := true } = (r, { s1 with fast := true }) := hb
  rw [hx'] at hx
  have hfast : s1.fast = false := by
    have := blind_connect dev fl a.ports a.portstr a.cfg false { supported := baseCommands, fast := false }
    have h2 := congrArg (fun z : Except Exc Unit × OW => z.2.fast) this
    simpa [hc] using h2
  cases r with
  | error z =>
    cases hx; cases hy
    exact ⟨rfl, fun h => by cases h⟩
  | ok u =>
    simp only at hx hy
    have hund : underHeader s1.hist = [] := connect_noHeader hc ⟨shape_nil, by simp⟩ rfl
    have hsound := connect_sound hc ⟨shape_nil, by simp⟩
    have key : ∃ o, TwinsH env o (cs ++ pidGetters) { s1 with fast := true } s1 ∧
        (status { s1 with fast := true } ≠ .notConnected → ∀ c ∈ cs ++ pidGetters, AllowedH env o c) := by
      rcases connect_attrs (a := { a with fast := false }) hc with h1 | ⟨h1, h2, h3, h4, e, h5, h6⟩
      · exact ⟨⟨.unknown, []⟩, ⟨⟨rfl, rfl, rfl, hfast, rfl, rfl⟩, fun h => absurd h1 h⟩, fun h => absurd h1 h⟩
      · by_cases hs1 : status s1 = .notConnected
        · exact ⟨⟨.unknown, []⟩, ⟨⟨rfl, rfl, rfl, hfast, rfl, rfl⟩, fun h => absurd hs1 h⟩, fun h => absurd hs1 h⟩
        obtain ⟨e', o, hlive⟩ := live_of_sound hsound hs1
        have : e' = e := by
          have := hlive.iface
          rw [h5] at this
          injection this with this
          exact this.symm
        subst this
        refine ⟨o, ⟨⟨rfl, rfl, rfl, hfast, rfl, rfl⟩, fun _ => ⟨⟨e', ⟨hlive.iface, hlive.status, hlive.port, hlive.proto⟩, h6⟩, rfl, rfl, Or.inr ⟨h1, hund⟩, ?_, ?_⟩⟩, ?_⟩
        · intro h; exact absurd h2 h
        · intro d _ _ n hn
          have : ({ s1 with fast := true } : OW).frameCounts = [] := h3
          rw [this] at hn
          cases hn
        · intro _ c hcc
          have hcc0 := hcc
          have hp : HasProto o t := by
            have := kept_loadCommands (ostable_hasProto dev o) fl s1 ⟨e', hlive.iface, hlive.proto⟩
            rw [hy] at this
            exact this
          obtain ⟨e2, g1, g2⟩ := hp
          have hsteady := hst e2 o g1 g2 c (List.mem_append.1 hcc)
          rcases List.mem_append.1 hcc with hcc | hcc
          · obtain ⟨k1, k2, k3⟩ := hcs c hcc
            exact ⟨k1, k3, k2, hsteady, hack c hcc0⟩
          · obtain ⟨k1, k2⟩ := getters_allowed c hcc
            exact ⟨k2.1, fun _ => k2, by simpa using request_noHeader (x := []) k2, hsteady, hack c hcc0⟩
    obtain ⟨o, htw, hall⟩ := key
    have hload : x = y ∧ TwinsH env o (cs ++ pidGetters) s t := by
      unfold loadCommands at hx hy
      rw [PyM.bind_ok (show PyM.get _ = (.ok _, _) from rfl)] at hx hy
      have hst1 : status { s1 with fast := true } = status s1 := rfl
      rw [hst1] at hx
      by_cases hcar : status s1 = .carConnected
      · rw [if_neg (by simpa using hcar)] at hx hy
        have := twinsH_load hf hl fl hap pidGetters (fun g hg => List.mem_append_right _ hg) _ _ htw hall
        rw [hx, hy] at this
        exact this
      · rw [if_pos hcar] at hx hy
        cases hx; cases hy
        exact ⟨rfl, htw⟩
    refine ⟨hload.1, fun _ => ⟨hload.2.iface, fun c => by unfold supports; rw [hload.2.sup], fun qs hq => ?_⟩⟩
    refine twinsH_outcomes hf hl fl hap qs (fun q hx => List.mem_append_left _ (hq q hx)) _ _ hload.2 ?_
    intro hns
    refine hall (fun hn => hns ?_)
    have hn1 : status { s1 with fast := true } = .notConnected := hn
    unfold loadCommands at hx
    rw [PyM.bind_ok (show PyM.get _ = (.ok _, _) from rfl), hn1, if_pos (by simp)] at hx
    cases hx
    exact hn1


/-! ### a car with a gearbox -/

/-- Different requests are apart. -/
theorem apart_requests {c d : OBDCommand} (hc : IsRequest c.command) (hd : IsRequest d.command) (h : c.command = d.command → c.header = d.header) : Apart c d := by
  by_cases he : c.header = d.header
  · exact Or.inl he
  · right
    intro x y hx hy hxy
    have hlen := congrArg List.length hxy
    rw [List.length_append, List.length_append] at hlen
    have h1 := hc.2.1
    have h2 := hd.2.1
    exact he (h (List.append_inj' hxy (by omega)).1)

/-- What the gearbox answers, and what everyone else answers. -/
def gearTable : List (String × List String) :=
  [("2101", ["7E9 04 61 01 02 55", "7EA 04 61 01 03 66"]), ("AT SH 7E0 ", ["OK"]), ("AT SH 7E1 ", ["OK"])]

def gearEnv : HAnswers := fun k u l =>
  limited (fun _ l => if u = line (headerLine (ascii "7E1")) then tabled gearTable l else tabled goodTable l) k l

/-- An adapter with these answers. -/
def obedientH (env : HAnswers) : Device where
  openPort := fun _ _ => none
  setBaud := fun _ _ => none
  probe := fun _ b => .ok (if b = 9600 then ascii "ELM327 v1.5\r\r>" else [])
  write := fun _ _ => true
  read := fun h => match env h.length (underHeader h) (request h) with
    | some ls => [some (replyBytes ls ++ [0x3E])]
    | none => [none]

theorem faithful_obedientH (env : HAnswers) (h : ∀ k u l ls, env k u l = some ls → clean ls = true) : FaithfulH (obedientH env) env where
  accepts := fun _ _ => rfl
  answers := by
    intro hist
    show Delivers (match env hist.length (underHeader hist) (request hist) with | some ls => [some (replyBytes ls ++ [0x3E])] | none => [none]) _
    cases he : env hist.length (underHeader hist) (request hist) with
    | none => exact Delivers.fails [] [] (by simp) (by simp)
    | some ls =>
      have hc := h _ _ _ _ he
      simp only [clean, Bool.and_eq_true, decide_eq_true_eq, Bool.not_eq_true', List.contains_eq_mem, decide_eq_false_iff_not] at hc
      refine Delivers.reply [replyBytes ls ++ [0x3E]] [] (replyBytes ls) ls (by simp) hc.2 (by simp) ?_
      have := cleanLines_spec (replyBytes ls ++ [0x3E])
      rw [hc.1] at this
      exact this

def gearCar : Device := obedientH gearEnv

theorem gear_faithful : FaithfulH gearCar gearEnv := by
  refine faithful_obedientH _ (fun k u l ls h => ?_)
  unfold gearEnv at h
  by_cases hu : u = line (headerLine (ascii "7E1"))
  · simp only [hu, if_true] at h
    exact limited_clean gearTable (by decide +kernel) _ k (fun l => tabled_mem _ l) l ls h
  · simp only [hu, if_false] at h
    exact limited_clean goodTable (by decide +kernel) _ k (fun l => tabled_mem _ l) l ls h

theorem gear_limits : LimitsH gearEnv := fun _ => limits_limited _

/-- A command for the gearbox. -/
def gearCommand : OBDCommand := { rpmCommand with name := "GEAR", command := ascii "2101", header := ascii "7E1" }

/-- `SteadyH` for answers that do not depend on the time. -/
def steadyNowH (env : HAnswers) (o : ProtoObj) (c : OBDCommand) : Bool :=
  steadyNow (fun k l => env k (line (headerLine c.header)) l) o c && (decide (c.header ≠ ascii "7E0") ||
    (steadyNow (fun k l => env k [] l) o c && decide (env 0 [] (line c.command) = env 0 (line (headerLine c.header)) (line c.command))))

theorem steadyH_of_now {env : HAnswers} {o : ProtoObj} {c : OBDCommand} (ht : ∀ k u l, env k u l = env 0 u l) (h : steadyNowH env o c = true) : SteadyH env o c := by
  unfold steadyNowH at h
  rw [Bool.and_eq_true, Bool.or_eq_true, Bool.and_eq_true, decide_eq_true_eq, decide_eq_true_eq] at h
  obtain ⟨n, hn⟩ := steady_of_now (env := fun k l => env k (line (headerLine c.header)) l) (fun k l => ht k _ l) h.1
  refine ⟨n, fun k u lines hu he => ?_⟩
  rcases hu with rfl | ⟨h1, rfl⟩
  · exact hn k lines he
  · rcases h.2 with h2 | ⟨-, h2⟩
    · exact absurd h1 h2
    · refine hn k lines ?_
      rw [ht, h2] at he
      simpa [ht k] using he

def gearObd (fast : Bool) : OW := (ObdM.construct gearCar fl0 ["COM1".toList] none fast {}).2

theorem gearObd_constructed (fast : Bool) : Constructed gearCar fl0 { ports := ["COM1".toList], fast := fast } (gearObd fast) := by
  have : ∀ fast, (ObdM.construct gearCar fl0 ["COM1".toList] none fast {}).1 = .ok () := by decide +kernel
  exact built (this fast)

/-- The hypotheses of `C71_headers_partial` can be met: the engine and the gearbox, asked in any order. -/
theorem gear_same (s t : OW) (h1 : Constructed gearCar fl0 { ports := ["COM1".toList], fast := true } s)
    (h2 : Constructed gearCar fl0 { ports := ["COM1".toList], fast := false } t)
    (hp : (t.interface.bind Elm.protocol).all (fun o => ([rpmCommand, gearCommand] ++ pidGetters).all (steadyNowH gearEnv o)) = true)
    (qs : List (OBDCommand × Bool)) (hq : ∀ q ∈ qs, q.1 ∈ [rpmCommand, gearCommand]) : outcomes gearCar fl0 qs s = outcomes gearCar fl0 qs t := by
  have hall : ([rpmCommand, gearCommand] ++ pidGetters).all (fun c => decide (IsRequest c.command) &&
      (decide (c.header = ascii "7E0") || decide (c.header = ascii "7E1")) &&
      ([rpmCommand, gearCommand] ++ pidGetters).all (fun d => decide (c.command = d.command → c.header = d.header))) = true := by decide +kernel
  have hall' := fun c hc => List.all_eq_true.1 hall c hc
  simp only [Bool.and_eq_true, Bool.or_eq_true, decide_eq_true_eq, List.all_eq_true] at hall'
  have := C71_headers_partial gearCar gearEnv fl0 { ports := ["COM1".toList] } gear_faithful gear_limits [rpmCommand, gearCommand] (by decide +kernel)
    (fun c hc d hd => apart_requests (hall' c hc).1.1 (hall' d hd).1.1 ((hall' c hc).2 d hd))
    (fun c hc k u ls he => by
      unfold gearEnv at he
      by_cases hu : u = line (headerLine (ascii "7E1"))
      · simp only [hu, if_true] at he
        have hg : ∀ h ∈ [ascii "7E0", ascii "7E1"], limited (fun _ l => tabled gearTable l) 0 (line (headerLine h)) = some ["OK".toList] := by decide +kernel
        have := hg c.header (by simpa using (hall' c hc).1.2)
        have he' : limited (fun _ l => tabled gearTable l) 0 (line (headerLine c.header)) = some ls := he
        rw [this] at he'
        injection he' with he'
        exact he'.symm
      · simp only [hu, if_false] at he
        have hg : ∀ h ∈ [ascii "7E0", ascii "7E1"], limited (fun _ l => tabled goodTable l) 0 (line (headerLine h)) = some ["OK".toList] := by decide +kernel
        have := hg c.header (by simpa using (hall' c hc).1.2)
        have he' : limited (fun _ l => tabled goodTable l) 0 (line (headerLine c.header)) = some ls := he
        rw [this] at he'
        injection he' with he'
        exact he'.symm)
    (.ok ()) (.ok ()) s t h1 h2 (by
      intro e o h1 h2 c hc
      rw [h1] at hp
      simp only [Option.bind_some, h2, Option.all_some] at hp
      exact steadyH_of_now (fun _ _ _ => rfl) (List.all_eq_true.1 hp c (List.mem_append.2 hc)))
  exact (this.2 rfl).2.2 qs hq

example : ∀ qs : List (OBDCommand × Bool), (∀ q ∈ qs, q.1 ∈ [rpmCommand, gearCommand]) →
    outcomes gearCar fl0 qs (gearObd true) = outcomes gearCar fl0 qs (gearObd false) :=
  gear_same _ _ (gearObd_constructed true) (gearObd_constructed false) (by decide +kernel)

/-- What they send differs: with response limits, and without. -/
example : sent ((session gearCar fl0 [.query gearCommand true, .query gearCommand true, .query rpmCommand true, .query gearCommand true, .query gearCommand true]
      (gearObd true)).hist.drop (gearObd true).hist.length) =
      [line (headerLine (ascii "7E1")), line (ascii "2101"), line (ascii "21012"), line (headerLine (ascii "7E0")), line (ascii "010C"),
       line (headerLine (ascii "7E1")), line (ascii "21012"), line []] ∧
    sent ((session gearCar fl0 [.query gearCommand true, .query gearCommand true, .query rpmCommand true, .query gearCommand true, .query gearCommand true]
      (gearObd false)).hist.drop (gearObd false).hist.length) =
      [line (headerLine (ascii "7E1")), line (ascii "2101"), line (ascii "2101"), line (headerLine (ascii "7E0")), line (ascii "010C"),
       line (headerLine (ascii "7E1")), line (ascii "2101"), line (ascii "2101")] := by
  constructor <;> decide +kernel

end Props
