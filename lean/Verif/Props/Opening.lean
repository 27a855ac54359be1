import Verif.Lemmas.Hist
import Verif.Lemmas.Sensors
import Verif.Lemmas.Supported
import Verif.Lemmas.Plan
import Verif.Lemmas.Leaks
import Verif.Spec.Opening
import Verif.Props.Stateless
/-!
# C84: connecting only asks
-/
namespace Model
open Py Spec

/-- Every line written is one that connecting may write. -/
def Asked (cfg : ElmM.Config) (h : History) : Prop := ∀ b ∈ sent h, ∃ c, b = line c ∧ Asks cfg c

theorem asked_append {cfg : ElmM.Config} {h evs : History} (h1 : Asked cfg h) (h2 : Asked cfg evs) : Asked cfg (h ++ evs) := by
  intro b hb
  unfold sent at hb
  rw [List.filterMap_append] at hb
  rcases List.mem_append.1 hb with hb | hb
  · exact h1 b hb
  · exact h2 b hb

theorem asked_quiet {cfg : ElmM.Config} {evs : History} (h : sent evs = []) : Asked cfg evs := by intro b hb; rw [h] at hb; cases hb

theorem asked_stable (dev : Device) (cfg : ElmM.Config) : HStable dev (Asks cfg) (Asked cfg) where
  write_ok := fun h cmd hR hW _ => asked_append hR (by intro b hb; exact ⟨cmd, by simpa [sent] using hb, hW⟩)
  write_fail := fun h cmd hR hW _ => asked_append hR (by intro b hb; exact ⟨cmd, by simpa [sent] using hb, hW⟩)
  read_ok := fun h m b hR _ => asked_append hR (asked_quiet rfl)
  read_fail := fun h m hR _ => asked_append hR (asked_quiet rfl)
  close := fun h hR => asked_append hR (asked_quiet rfl)
  probe := fun h b hR => asked_append hR (asked_quiet rfl)
  setBaud := fun h b hR => asked_append hR (asked_quiet rfl)

theorem known_of_get {id : Str} {p : Proto} (h : supportedProtocols.get? id = some p) : id ∈ knownIds := by
  have hk : supportedProtocols.all (fun e => decide (e.1 ∈ knownIds)) = true := by decide +kernel
  have := List.all_eq_true.1 hk _ (mem_of_get? h)
  simpa using this

theorem selects_eq {id : Str} : selects id = ascii "ATTP" ++ encodeAscii id := rfl

namespace ElmM
variable {dev : Device}

theorem asked_setProtocol (cfg : Config) : Kept (OnHist (Asked cfg)) (setProtocol dev cfg.protocol) := by
  have hS := (asked_stable dev cfg).stable
  have h0 : Asks cfg (ascii "0100") := .listing "0100" (by simp [listings])
  unfold setProtocol
  split
  · next id hid =>
    split
    · exact Kept.pure _
    · next p hp => exact kept_manualProtocol hS _ _ (.select id (Or.inr hid) (known_of_get hp)) h0
  · next hn =>
    have hsel : ∀ l, Kept (OnHist (Asked cfg)) (tryProtocols dev l) := by
      intro l
      induction l with
      | nil => exact Kept.pure _
      | cons id l ih =>
        unfold tryProtocols
        split
        · exact Kept.throw _
        · next p hp =>
          apply Kept.bind (kept_manualProtocol hS _ _ (.select id (Or.inl hn) (known_of_get hp)) h0)
          intro b
          split
          · exact Kept.pure _
          · exact ih
    unfold autoProtocol
    apply Kept.bind (hS.send _ _ _ (.auto "ATSP0" hn (by simp)))
    intro _
    apply Kept.bind (hS.send _ _ _ h0)
    intro r
    split
    · exact Kept.pure _
    · apply Kept.bind (hS.send _ _ _ (.auto "ATDPN" hn (by simp)))
      intro r
      split
      · split
        · exact Kept.bind (kept_loadProtocol hS _ _) (fun _ => Kept.pure _)
        · exact hsel _
      · exact Kept.pure _

theorem asked_construct (cfg : Config) (fl : FloatFn) (port : Str) (hist : History) (h0 : Asked cfg hist) :
    Asked cfg (construct dev fl port cfg hist).2.hist := by
  have H := asked_stable dev cfg
  replace h0 : Asked cfg (hist ++ [.open_ port (dev.openPort hist port)]) := asked_append h0 (asked_quiet rfl)
  have w1 : Asks cfg (ascii "ATZ") := .setup "ATZ" (by simp)
  have w2 : Asks cfg (ascii "ATE0") := .setup "ATE0" (by simp)
  have w3 : Asks cfg (ascii "ATH1") := .setup "ATH1" (by simp)
  have w4 : Asks cfg (ascii "ATL0") := .setup "ATL0" (by simp)
  have hip : Kept (OnHist (Asked cfg)) (initProtocol dev cfg.protocol) := by
    unfold initProtocol
    refine Kept.bind (asked_setProtocol cfg) (fun b => ?_)
    split
    · refine Kept.bind (HStable.elm _) (fun _ => ?_)
      unfold logConnected
      refine Kept.bind Kept.getElm (fun e => ?_)
      split
      · exact Kept.throw _
      · exact Kept.pure _
    · exact Kept.pure _
  have hcl := H.elmClose w1
  have hv : Kept (OnHist (Asked cfg)) (initVoltage dev fl cfg.protocol cfg.checkVoltage) := by
    unfold initVoltage
    split
    · next hcv =>
      refine Kept.bind (H.send (.voltage hcv) _ _) (fun r => ?_)
      split
      · split
        · exact hcl
        · split
          · exact hcl
          · split
            · exact Kept.pure _
            · exact Kept.bind (HStable.elm _) (fun _ => hip)
      · exact hcl
    · exact hip
  have hat : Kept (OnHist (Asked cfg)) (initAt dev fl cfg.protocol cfg.checkVoltage) := by
    unfold initAt
    refine Kept.bind (H.send w1 _ _) (fun _ => ?_)
    refine Kept.bind (H.send w2 _ _) (fun r => ?_)
    split
    · exact hcl
    · refine Kept.bind (H.send w3 _ _) (fun r => ?_)
      split
      · exact hcl
      · refine Kept.bind (H.send w4 _ _) (fun r => ?_)
        split
        · exact hcl
        · exact Kept.bind (HStable.elm _) (fun _ => hv)
  have main : Kept (OnHist (Asked cfg)) (do
      if ¬ (← setBaudrate dev cfg.baudrate) then error dev
      else initAt dev fl cfg.protocol cfg.checkVoltage) := by
    refine Kept.bind (H.baud _) (fun b => ?_)
    split
    · exact hcl
    · exact hat
  unfold construct init
  simp only
  split
  · exact hcl _ h0
  · exact hcl _ h0
  · exact h0
  · rw [PyM.bind_ok (show modifyElm _ _ = (.ok (), _) from rfl)]
    split
    · next hs => exact Kept.bind (H.write (.wake hs)) (fun _ => main) _ h0
    · exact main _ h0

end ElmM

namespace ObdM
variable {dev : Device} {fl : ElmM.FloatFn}

theorem asked_open (cfg : ElmM.Config) (port : Str) : Kept (OnHistO (Asked cfg)) (openInterface dev fl port cfg) := by
  intro s hs
  have := ElmM.asked_construct (dev := dev) cfg fl port s.hist hs
  unfold openInterface
  simp only
  split <;> exact this

theorem asked_tryPorts (cfg : ElmM.Config) (l : List Str) : Kept (OnHistO (Asked cfg)) (tryPorts dev fl cfg l) := by
  induction l with
  | nil => exact Kept.pure _
  | cons p l ih =>
    unfold tryPorts
    refine Kept.bind (asked_open cfg p) (fun _ => Kept.bind Kept.get (fun s => ?_))
    split
    · exact Kept.pure _
    · exact ih

theorem asked_connect (a : Args) : Asked a.cfg (connect dev fl a.ports a.portstr a.cfg { supported := baseCommands, fast := a.fast }).2.hist := by
  have h0 : OSound { supported := baseCommands, fast := a.fast } := ⟨shape_nil, by simp⟩
  have c0 : Asked a.cfg [] := asked_quiet rfl
  have hcl : ∀ {s s' : OW} {r : Except Exc Unit}, OSound s → closeIfFailed dev s = (r, s') → s'.hist = s.hist := by
    intro s s' r hs h
    unfold closeIfFailed at h
    rw [PyM.bind_ok (show PyM.get s = (.ok s, s) from rfl)] at h
    split at h
    · next hst => rw [close_nc hs hst] at h; cases h; rfl
    · cases h; rfl
  unfold connect
  cases hp : a.portstr with
  | none =>
    simp only
    split
    · exact c0
    · have h1 := asked_tryPorts (dev := dev) (fl := fl) a.cfg a.ports { supported := baseCommands, fast := a.fast } c0
      rw [PyM.bind_apply]
      cases hm : tryPorts dev fl a.cfg a.ports { supported := baseCommands, fast := a.fast } with
      | mk r s1 =>
        rw [hm] at h1
        cases r with
        | error x => exact h1
        | ok u =>
          simp only
          rw [hcl (s' := (closeIfFailed dev s1).2) (tryPorts_sound a.ports hm h0) rfl]
          exact h1
  | some p =>
    have h1 := asked_open (dev := dev) (fl := fl) a.cfg p { supported := baseCommands, fast := a.fast } c0
    simp only
    rw [PyM.bind_apply]
    cases hm : openInterface dev fl p a.cfg { supported := baseCommands, fast := a.fast } with
    | mk r s1 =>
      rw [hm] at h1
      cases r with
      | error x => exact h1
      | ok u =>
        simp only
        rw [hcl (s' := (closeIfFailed dev s1).2) (openInterface_sound hm h0) rfl]
        exact h1

/-- The state of an object that has gone through the listing commands `done`. -/
structure Listing (cfg : ElmM.Config) (done : List OBDCommand) (s : OW) : Prop where
  live : ∃ e o, Live s e o ∧ e.lowPower = false
  hdr : s.lastHeader = engineHeader
  cnt : ∀ k, s.frameCounts.mem k = true → ∃ g ∈ done, g.key = k
  last : s.lastCommand = [] ∨ ∃ g ∈ done, s.lastCommand = g.command
  hist : Asked cfg s.hist

theorem Listing.more {cfg : ElmM.Config} {done : List OBDCommand} {s : OW} (h : Listing cfg done s) (g : OBDCommand) : Listing cfg (done ++ [g]) s := by
  refine ⟨h.live, h.hdr, ?_, ?_, h.hist⟩
  · intro k hk; obtain ⟨g', h1, h2⟩ := h.cnt k hk; exact ⟨g', by simp [h1], h2⟩
  · rcases h.last with h1 | ⟨g', h1, h2⟩
    · exact Or.inl h1
    · exact Or.inr ⟨g', by simp [h1], h2⟩

theorem Listing.sup {cfg : ElmM.Config} {done : List OBDCommand} {s : OW} (h : Listing cfg done s) (l : List OBDCommand) :
    Listing cfg done { s with supported := l } := by
  obtain ⟨e, o, hl, hp⟩ := h.live
  exact ⟨⟨e, o, ⟨hl.iface, hl.status, hl.port, hl.proto⟩, hp⟩, h.hdr, h.cnt, h.last, h.hist⟩

theorem lost_hist {rest : List OBDCommand} : ∀ {s : OW}, status s = .notConnected → (loadLoop dev fl rest s).2.hist = s.hist := by
  induction rest with
  | nil => intro s _; rfl
  | cons g rest ih =>
    intro s hst
    unfold loadLoop
    rw [PyM.bind_ok (show PyM.get s = (.ok s, s) from rfl), PyM.bind_apply]
    cases ht : testCmd s g with
    | error x => rfl
    | ok b =>
      show (ite (¬ (b = true)) (loadLoop dev fl rest) _ s).2.hist = s.hist
      split
      · exact ih hst
      · rw [PyM.bind_apply, query_nc hst]
        exact ih hst

theorem getters_listed : ∀ g ∈ pidGetters, ∀ cfg, Asks cfg g.command := by
  have h : pidGetters.all (fun g => listings.any (fun t => g.command == ascii t)) = true := by decide +kernel
  intro g hg cfg
  obtain ⟨t, ht, he⟩ := List.any_eq_true.1 (List.all_eq_true.1 h g hg)
  rw [beq_iff_eq] at he
  rw [he]
  exact .listing t ht

theorem listing_step {cfg : ElmM.Config} {done rest : List OBDCommand} {g : OBDCommand} (hd : done ++ g :: rest = pidGetters) {s : OW}
    (hL : Listing cfg done s) (ht : testCmd s g = .ok true) :
    Asked cfg (query dev fl g false s).2.hist ∧ ((∃ x, (query dev fl g false s).1 = .error x) ∨ status (query dev fl g false s).2 = .notConnected ∨
      Listing cfg (done ++ [g]) (query dev fl g false s).2) := by
  have hmem : g ∈ pidGetters := by rw [← hd]; simp
  have hg := List.all_eq_true.1 getters_ok g hmem
  unfold getterOk at hg
  simp only [Bool.and_eq_true, beq_iff_eq, Bool.not_eq_true', List.isEmpty_eq_false_iff] at hg
  obtain ⟨⟨⟨hpid, hhead⟩, hne⟩, hmp⟩ := hg
  have hord := getters_order
  rw [← hd] at hord
  obtain ⟨hself, hprev⟩ := orderOk_split hord
  obtain ⟨e, o, hl, hlp⟩ := hL.live
  have hst : status s ≠ .notConnected := by simpa [status, hl.iface] using hl.status
  have hex : query dev fl g false s = exchange dev fl g s := by
    rcases query_cases dev fl g false s with ⟨-, h1 | ⟨-, h1⟩⟩ | ⟨x, -, -, -, h1⟩ | ⟨h1, -, -⟩
    · exact absurd h1 hst
    · rw [ht] at h1; cases h1
    · rw [ht] at h1; cases h1
    · exact h1
  have hq : query dev fl g false s = body dev fl g s := by
    rw [hex, exchange_eq, PyM.bind_ok (setHeader_same (by rw [hhead, hL.hdr]))]
  have hnew : s.frameCounts.mem g.key = false := by
    cases hc : s.frameCounts.mem g.key with
    | false => rfl
    | true =>
      obtain ⟨g', h1, h2⟩ := hL.cnt _ hc
      exact absurd (congrArg Prod.fst h2).symm (hprev g' h1).1
  have hbuild : buildCommand s g = g.command := by
    have hw : withCount s g = g.command := by
      unfold withCount
      have : s.frameCounts.get? g.key = none := by
        unfold Dict.mem at hnew
        cases hgk : s.frameCounts.get? g.key with
        | none => rfl
        | some x => rw [hgk] at hnew; cases hnew
      rw [this]; split <;> rfl
    unfold buildCommand
    rw [hw, if_neg]
    intro hc
    simp only [Bool.and_eq_true, beq_iff_eq] at hc
    rcases hL.last with h1 | ⟨g', h1, h2⟩
    · exact hne (hc.2.trans h1)
    · exact (hprev g' h1).1 (hc.2.trans h2)
  have hasked : Asked cfg (query dev fl g false s).2.hist := by
    rw [hex]
    obtain ⟨evs, p, q, h1, -, h3, -, h5, -⟩ := exchange_plan (dev := dev) (fl := fl) (c := g) hl
    rw [h1]
    refine asked_append hL.hist ?_
    intro b hb
    rw [h5] at hb
    obtain ⟨c, hc, rfl⟩ := List.mem_map.1 hb
    have : c ∈ plan s e g := by rw [h3]; simp [hc]
    have hplan : plan s e g = [g.command] := by
      have hw : wake e = [] := by simp [wake, hlp]
      have hh : g.header = s.lastHeader := by rw [hhead, hL.hdr]
      unfold plan
      rw [hw, hbuild, if_pos hh]
      rfl
    rw [hplan, List.mem_singleton] at this
    exact ⟨c, rfl, by rw [this]; exact getters_listed g hmem cfg⟩
  refine ⟨hasked, ?_⟩
  · rw [hq] at hasked ⊢
    rcases body_cases (dev := dev) (fl := fl) (c := g) hl with ⟨pre, l, evs, x, -, -, -, h4⟩ | ⟨pre, l, evs, ms, h1, h2, h3, h4⟩ | ⟨evs, h1, h4⟩
    · left; exact ⟨x, by rw [h4]⟩
    · right; right
      rw [h4] at hasked ⊢
      rw [hbuild] at hasked ⊢
      refine ⟨⟨{ e with lowPower := false }, o, ⟨rfl, hl.status, hl.port, hl.proto⟩, rfl⟩, hL.hdr, ?_, ?_, hasked⟩
      · intro k hk
        simp only [noted, woken, hnew] at hk
        by_cases hkk : k = g.key
        · exact ⟨g, by simp, hkk.symm⟩
        · have : s.frameCounts.mem k = true := by
            unfold Dict.mem at hk ⊢
            simp only [Bool.false_eq_true, if_false] at hk
            rwa [Dict.get?_set, if_neg (fun h => hkk h.symm)] at hk
          obtain ⟨g', h1, h2⟩ := hL.cnt k this
          exact ⟨g', by simp [h1], h2⟩
      · right
        refine ⟨g, by simp, ?_⟩
        simp [noted, hne]
    · right; left
      rw [h4]
      rfl

theorem asked_loop {cfg : ElmM.Config} {rest : List OBDCommand} : ∀ (done : List OBDCommand) (s : OW), done ++ rest = pidGetters → Listing cfg done s →
    Asked cfg (loadLoop dev fl rest s).2.hist := by
  induction rest with
  | nil => intro done s _ h; exact h.hist
  | cons g rest ih =>
    intro done s hd hL
    unfold loadLoop
    rw [PyM.bind_ok (show PyM.get s = (.ok s, s) from rfl), PyM.bind_apply]
    have hd' : (done ++ [g]) ++ rest = pidGetters := by simp [hd]
    cases ht : testCmd s g with
    | error x => exact hL.hist
    | ok b =>
      cases b with
      | false => exact ih (done ++ [g]) s hd' (hL.more g)
      | true =>
        show Asked cfg ((do
          let r ← query dev fl g
          if r.isNull then loadLoop dev fl rest
          else
            let mode ← PyM.ofExcept g.mode
            let pid ← PyM.ofExcept g.pid
            PyM.modify (fun s => { s with supported := addSupported (mode.getD 0) (pid.getD 0) (valueBits r.value) s.supported })
            loadLoop dev fl rest : ObdM Unit) s).2.hist
        obtain ⟨h1, h2⟩ := listing_step (dev := dev) (fl := fl) hd hL ht
        rw [PyM.bind_apply]
        cases hq : query dev fl g false s with
        | mk r s1 =>
          rw [hq] at h1 h2
          cases r with
          | error x => exact h1
          | ok r =>
            have key : ∀ l, Asked cfg (loadLoop dev fl rest { s1 with supported := l }).2.hist := by
              intro l
              rcases h2 with ⟨x, h2⟩ | h2 | h2
              · cases h2
              · rw [lost_hist (by simpa [status] using h2)]; exact h1
              · exact ih (done ++ [g]) _ hd' (h2.sup l)
            simp only
            split
            · exact key s1.supported
            · rw [PyM.bind_apply]
              cases g.mode with
              | error x => exact h1
              | ok md =>
                simp only [PyM.ofExcept]
                rw [PyM.bind_apply]
                cases g.pid with
                | error x => exact h1
                | ok pd => exact key _

theorem asked_construct (a : Args) : Asked a.cfg (ObdM.construct dev fl a.ports a.portstr a.fast a.cfg).2.hist := by
  have h1 := asked_connect (dev := dev) (fl := fl) a
  unfold construct
  rw [PyM.bind_apply]
  cases hm : connect dev fl a.ports a.portstr a.cfg { supported := baseCommands, fast := a.fast } with
  | mk r s1 =>
    rw [hm] at h1
    cases r with
    | error x => exact h1
    | ok u =>
      simp only
      unfold loadCommands
      rw [PyM.bind_ok (show PyM.get s1 = (.ok s1, s1) from rfl)]
      split
      · exact h1
      · next hs =>
        have hs : status s1 = .carConnected := by simpa using hs
        rcases connect_attrs hm with hx | ⟨g1, g2, g3, g4, e, g5, g6⟩
        · rw [hs] at hx; cases hx
        have hsnd : OSound s1 := connect_sound hm ⟨shape_nil, by simp⟩
        obtain ⟨e', o, hL⟩ := live_of_sound hsnd (by rw [hs]; simp)
        refine asked_loop [] s1 rfl ⟨⟨e', o, hL, ?_⟩, g1, ?_, Or.inl g2, h1⟩
        · have := hL.iface; rw [g5] at this; cases this; exact g6
        · intro k hk; simp [g3, Dict.mem] at hk

end ObdM
end Model
namespace Props
open Py Model Spec ObdM

/-- C84: whatever the adapter does, and also if the constructor raises, each line written while connecting is one of those
needed to set up the adapter with the given settings, or asks for supported PIDs. -/
theorem C84_asks (dev : Device) (fl : Str → Option PyFloat) (a : Args) :
    ∀ b ∈ sent (ObdM.construct dev fl a.ports a.portstr a.fast a.cfg).2.hist, ∃ c, b = line c ∧ Asks a.cfg c :=
  asked_construct a

/-- The sample adapter: eleven lines. -/
example : sent (demoObd true).hist = ["ATZ", "ATE0", "ATH1", "ATL0", "AT RV", "ATSP0", "0100", "ATDPN", "0100", "0600", "0900"].map (fun t => line (ascii t)) := by
  decide +kernel

end Props
