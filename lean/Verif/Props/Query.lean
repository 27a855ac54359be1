import Verif.Lemmas.Power
import Verif.Spec.Demo
/-!
# Queries (C44–C49)
-/
namespace Props
open Py Model Spec ObdM

/-! ## C44: low-power mode is left before a command is sent -/

/-- After any calls (that do not change the power mode behind the library's back): if a query
sends anything, then it sends one wake-up and only at the start if the adapter is asleep, and
none if it is not.  After it the adapter is not asleep any more, if still connected. -/
theorem C44_query (dev : Device) (fl : Str → Option PyFloat) (a : Args) (s0 : OW) (hc : Constructed dev fl a s0)
    (calls : List Call) (hp : ∀ c ∈ calls, PlainCall c) (c : OBDCommand) (force : Bool) (hpc : PlainCall (.query c force))
    (s : OW) (hs : s = session dev fl calls s0) :
    ∃ evs, (query dev fl c force s).2.hist = s.hist ++ evs ∧
      (sent evs ≠ [] →
        (Asleep s.hist → ∃ rest, sent evs = line (ascii " ") :: rest ∧ line (ascii " ") ∉ rest) ∧
        (¬ Asleep s.hist → line (ascii " ") ∉ sent evs) ∧
        (status (query dev fl c force s).2 ≠ .notConnected → ¬ Asleep (query dev fl c force s).2.hist)) := by
  obtain ⟨hsound, hpow⟩ := power_session dev fl calls hp s0 (constructed_power hc)
  rw [← hs] at hsound hpow
  rcases query_cases dev fl c force s with ⟨h1, -⟩ | ⟨x, h1, -⟩ | ⟨h1, hst, -⟩
  · exact ⟨[], by rw [h1]; simp, by simp [sent]⟩
  · exact ⟨[], by rw [h1]; simp, by simp [sent]⟩
  · obtain ⟨e, o, hl⟩ := live_of_sound hsound hst
    have hiff := hpow e hl.iface hl.status
    obtain ⟨evs, p, q, h2, hno, h3, hpne, h4, -⟩ := exchange_plan (dev := dev) (fl := fl) (c := c) hl
    refine ⟨evs, by rw [h1, h2], fun hne => ?_⟩
    -- the part of the plan after the wake-up is calm
    have hcalm : ∀ x ∈ (if c.header = s.lastHeader then [] else [headerLine c.header]) ++ [buildCommand s c], line (ascii " ") ≠ line x := by
      intro x hx he
      have := line_inj he
      subst this
      rcases List.mem_append.1 hx with hx | hx
      · split at hx
        · cases hx
        · rw [List.mem_singleton] at hx; exact (calm_header c.header).2 hx.symm
      · rw [List.mem_singleton] at hx; exact (calm_build s c hpc).2 hx.symm
    have hasl : Asleep s.hist → ∃ rest, sent evs = line (ascii " ") :: rest ∧ line (ascii " ") ∉ rest := by
      intro hasl
      have hlow := hiff.2 hasl
      have hw : wake e = [ascii " "] := by simp [wake, hlow]
      rw [plan, hw] at h3
      cases p with
      | nil => exact absurd rfl hpne
      | cons x p =>
        simp only [List.cons_append, List.nil_append, List.cons.injEq] at h3
        obtain ⟨rfl, h3⟩ := h3
        refine ⟨p.map line, by rw [h4]; rfl, ?_⟩
        intro hm
        obtain ⟨y, hy, he⟩ := List.mem_map.1 hm
        exact hcalm y (by rw [h3]; simp [hy]) he.symm
    refine ⟨hasl, ?_, ?_⟩
    · intro hna hm
      have hlow : e.lowPower = false := by
        cases h : e.lowPower with
        | false => rfl
        | true => exact absurd (hiff.1 h) hna
      have hw : wake e = [] := by simp [wake, hlow]
      rw [plan, hw, List.nil_append] at h3
      rw [h4] at hm
      obtain ⟨y, hy, he⟩ := List.mem_map.1 hm
      exact hcalm y (by rw [h3]; simp [hy]) he.symm
    · intro hst' hasl'
      obtain ⟨-, hpow'⟩ := kept_queryOn (ostable_power dev) fl c (sends_calm c hpc) force s ⟨hsound, hpow⟩
      have hs' := osound_call dev fl (.query c force) s hsound
      obtain ⟨e', o', hl'⟩ := live_of_sound hs' hst'
      have hiff' := hpow' e' hl'.iface hl'.status
      -- the wake-up is after every acknowledgement
      have : Asleep (s.hist ++ evs) := by
        have h := hasl'
        rw [h1, h2] at h; exact h
      have hev : ∃ b ok t, evs = .write b ok :: t := by
        have hex := exchange_head (dev := dev) (fl := fl) (c := c) hl
        obtain ⟨evs', hh, b, ok, t, ht⟩ := hex
        rw [h2] at hh
        have : evs = evs' := List.append_cancel_left hh
        exact ⟨b, ok, t, this ▸ ht⟩
      obtain ⟨b, ok, t, ht⟩ := hev
      have hnlp : line (ascii "ATLP") ∉ sent evs := by
        rw [h4]
        intro hm
        obtain ⟨y, hy, he⟩ := List.mem_map.1 hm
        have := line_inj he
        subst this
        have hy' : ascii "ATLP" ∈ plan s e c := by rw [h3]; simp [hy]
        rw [plan] at hy'
        rcases List.mem_append.1 hy' with hx | hx
        · unfold wake at hx
          split at hx
          · simp [ascii] at hx
          · cases hx
        · rcases List.mem_append.1 hx with hx | hx
          · split at hx
            · cases hx
            · rw [List.mem_singleton] at hx; exact (calm_header c.header).1 hx.symm
          · rw [List.mem_singleton] at hx; exact (calm_build s c hpc).1 hx.symm
      rw [asleep_append b ok t ht hno hnlp] at this
      obtain ⟨rest, hr, -⟩ := hasl this.1
      exact this.2 (by rw [hr]; simp)

/-- `low_power()` on a connected object: it returns the reply, and the adapter is asleep
afterwards if the reply has a line `OK`. -/
theorem C44_sleep (dev : Device) (fl : Str → Option PyFloat) (s s' : OW) (lines : List Str) (hs : Reachable dev fl s)
    (h : lowPower dev s = (.ok (some lines), s')) (hok : "OK".toList ∈ lines) : Asleep s'.hist := by
  have hsound := reachable_sound hs
  by_cases hst : status s = .notConnected
  · rw [lowPower_nc hst] at h; cases h
  · obtain ⟨e, o, hl⟩ := live_of_sound hsound hst
    unfold lowPower at h
    rw [PyM.bind_ok (show PyM.get s = (.ok s, s) from rfl), hl.iface] at h
    simp only [onInterface, hl.iface] at h
    unfold ElmM.lowPower at h
    rw [PyM.bind_ok (show ElmM.getElm _ = (.ok e, _) from rfl), if_neg hl.status] at h
    obtain ⟨p, hport⟩ := Option.ne_none_iff_exists'.1 hl.port
    rcases send_delay dev (ascii "ATLP") elmLpActive ⟨e, s.hist⟩ p hport with ⟨b, g⟩ | ⟨hh, g⟩
    · rw [PyM.bind_ok g] at h
      by_cases hok' : "OK".toList ∈ cleanLines b
      · rw [if_pos hok'] at h
        have : s'.hist = s.hist ++ [.write (line (ascii "ATLP")) true, .read (some b)] := by
          exact (congrArg (fun x : Except Exc (Option (List Str)) × OW => x.2.hist) h).symm
        rw [this]
        exact ⟨s.hist, b, cleanLines b, [], rfl, cleanLines_spec b, hok', by simp [NoOpen], by simp [sent]⟩
      · rw [if_neg hok'] at h
        have : lines = cleanLines b := by
          have := congrArg Prod.fst h
          simp only [PyM.pure_apply, Except.ok.injEq, Option.some.injEq] at this
          exact this.symm
        rw [this] at hok
        exact absurd hok hok'
    · rw [PyM.bind_ok g, if_neg (by simp)] at h
      have : lines = [] := by
        have := congrArg Prod.fst h
        simp only [PyM.pure_apply, Except.ok.injEq, Option.some.injEq] at this
        exact this.symm
      rw [this] at hok; cases hok

def rpmCommand : OBDCommand := { name := "RPM", desc := "", command := ascii "010C", bytes := 4, decode := .uas 7, ecu := 2, fast := true }
/-- The demo car, connected. -/
def demoObd (fast : Bool) : OW := (ObdM.construct (demo table) fl0 ["COM1".toList] none fast {}).2

theorem demoObd_constructed (fast : Bool) : Constructed (demo table) fl0 { ports := ["COM1".toList], fast := fast } (demoObd fast) := by
  have : ∀ fast, (ObdM.construct (demo table) fl0 ["COM1".toList] none fast {}).1 = .ok () := by decide +kernel
  unfold Constructed demoObd
  show ObdM.construct (demo table) fl0 ["COM1".toList] none fast {} = _
  rw [← this fast]

/-- The demo car is put to sleep; the next query wakes it up, the one after does not. -/
example : Asleep (session (demo table) fl0 [.lowPower] (demoObd true)).hist ∧
    PlainCall (.query rpmCommand false) ∧
    sent ((session (demo table) fl0 [.lowPower, .query rpmCommand false, .query rpmCommand false] (demoObd true)).hist.drop
      (session (demo table) fl0 [.lowPower] (demoObd true)).hist.length) = [line (ascii " "), line (ascii "010C"), line (ascii "010C1")] := by
  refine ⟨?_, ⟨by decide, by decide⟩, by decide +kernel⟩
  have h : (lowPower (demo table) (demoObd true)).1 = .ok (some ["OK".toList]) := by decide +kernel
  exact C44_sleep (demo table) fl0 (demoObd true) _ ["OK".toList] ⟨_, _, [], demoObd_constructed true, rfl⟩ (Prod.ext h rfl) (by decide)

/-! ## C45: nothing is sent unless it should be -/

/-- No connection: a null response, no I/O, and the object is unchanged. -/
theorem C45_unconnected (dev : Device) (fl : Str → Option PyFloat) (s : OW) (c : OBDCommand) (force : Bool)
    (h : status s = .notConnected) :
    ∃ r, query dev fl c force s = (.ok r, s) ∧ r.isNull = true := ⟨{}, query_nc h, rfl⟩

/-- The command is not among the supported ones and `force` is not given: the same. -/
theorem C45_unsupported (dev : Device) (fl : Str → Option PyFloat) (s : OW) (c : OBDCommand)
    (h : ∀ d ∈ s.supported, ¬ (d.command = c.command ∧ d.header = c.header)) :
    ∃ r, query dev fl c false s = (.ok r, s) ∧ r.isNull = true := by
  have hn : supports s c = false := by
    unfold supports
    rw [List.any_eq_false]
    intro d hd
    simpa [OBDCommand.eq] using h d hd
  have ht : testCmd s c = .ok false := by
    unfold testCmd
    rw [if_pos (by simp [hn])]; rfl
  refine ⟨{}, ?_, rfl⟩
  rcases query_cases dev fl c false s with ⟨h1, -⟩ | ⟨x, -, -, -, h2⟩ | ⟨-, -, h2⟩
  · exact h1
  · rw [ht] at h2; cases h2
  · rcases h2 with h2 | h2
    · cases h2
    · rw [ht] at h2; cases h2

/-- A mode-06 command on a protocol that is not ISO 15765 CAN (ELM protocols 6–9), `force` not
given: the same. -/
theorem C45_mode06 (dev : Device) (fl : Str → Option PyFloat) (s : OW) (c : OBDCommand) (id : Str)
    (hm : c.mode = .ok (some 6)) (hid : protocolId s = .ok id) (hi : s.interface ≠ none)
    (hn : id ∉ ["6".toList, "7".toList, "8".toList, "9".toList]) :
    ∃ r, query dev fl c false s = (.ok r, s) ∧ r.isNull = true := by
  have ht : testCmd s c = .ok false := by
    unfold testCmd
    by_cases hs : supports s c = true
    · rw [if_neg (by simp [hs]), hm]
      simp only [bind, Except.bind, if_true]
      cases he : s.interface with
      | none => exact absurd he hi
      | some e =>
        simp only [protocolId, he] at hid
        simp only
        rw [hid]
        have : decide (id ∈ canIds) = false := by simpa [canIds] using hn
        simp only [this]; rfl
    · rw [if_pos hs]; rfl
  refine ⟨{}, ?_, rfl⟩
  rcases query_cases dev fl c false s with ⟨h1, -⟩ | ⟨x, -, -, -, h2⟩ | ⟨-, -, h2⟩
  · exact h1
  · rw [ht] at h2; cases h2
  · rcases h2 with h2 | h2
    · cases h2
    · rw [ht] at h2; cases h2

/-- The demo car does not support the coolant temperature (only 010C). -/
example : status (demoObd true) = .carConnected ∧
    (demoObd true).supported.all (fun d => !(d.command == ascii "0105" && d.header == ascii "7E0")) = true ∧
    (demoObd true).supported.any (fun d => d.command == ascii "010C" && d.header == ascii "7E0") = true := by
  refine ⟨?_, ?_, ?_⟩ <;> decide +kernel

/-! ## C46: without fast mode the command is sent unaltered -/

/-- Whatever was queried before: every line a query sends is the wake-up, the header of the
command, or the command itself, unaltered. -/
theorem C46_lines (dev : Device) (fl : Str → Option PyFloat) (a : Args) (s0 : OW) (hc : Constructed dev fl a s0)
    (hf : a.fast = false) (calls : List Call) (c : OBDCommand) (force : Bool) :
    ∃ evs, (query dev fl c force (session dev fl calls s0)).2.hist = (session dev fl calls s0).hist ++ evs ∧
      ∀ b ∈ sent evs, b = line (ascii " ") ∨ b = line (headerLine c.header) ∨ b = line c.command := by
  have hfast := fast_session dev fl false calls s0 ((constructed_fast hc).trans hf)
  have hsound := osound_session dev fl calls s0 (constructed_sound hc)
  generalize session dev fl calls s0 = s at *
  rcases query_cases dev fl c force s with ⟨h1, -⟩ | ⟨x, h1, -⟩ | ⟨h1, hs, -⟩
  · exact ⟨[], by rw [h1]; simp, by simp [sent]⟩
  · exact ⟨[], by rw [h1]; simp, by simp [sent]⟩
  · obtain ⟨e, o, hl⟩ := live_of_sound hsound hs
    obtain ⟨evs, p, q, h2, -, h3, -, h4, -⟩ := exchange_plan (dev := dev) (fl := fl) (c := c) hl
    refine ⟨evs, by rw [h1, h2], ?_⟩
    intro b hb
    rw [h4] at hb
    obtain ⟨x, hx, rfl⟩ := List.mem_map.1 hb
    have hx' : x ∈ plan s e c := by rw [h3]; simp [hx]
    have hbc : buildCommand s c = c.command := by simp [buildCommand, withCount, hfast]
    simp only [plan, hbc, List.mem_append, List.mem_singleton] at hx'
    rcases hx' with hx' | hx' | rfl
    · left
      unfold wake at hx'
      split at hx'
      · simp only [List.mem_singleton] at hx'; rw [hx']
      · cases hx'
    · right; left
      split at hx'
      · cases hx'
      · simp only [List.mem_singleton] at hx'; rw [hx']
    · right; right; rfl

/-- If the query is forced or the command passes the support test, returns, and the
connection survives, then the command itself is the last thing sent. -/
theorem C46_last (dev : Device) (fl : Str → Option PyFloat) (a : Args) (s0 : OW) (hc : Constructed dev fl a s0)
    (hf : a.fast = false) (calls : List Call) (c : OBDCommand) (force : Bool)
    (hgo : force = true ∨ testCmd (session dev fl calls s0) c = .ok true) (r : Response) (s : OW)
    (hq : query dev fl c force (session dev fl calls s0) = (.ok r, s)) (hs : status s ≠ .notConnected) :
    ∃ evs pre, s.hist = (session dev fl calls s0).hist ++ evs ∧ sent evs = pre ++ [line c.command] := by
  have hfast := fast_session dev fl false calls s0 ((constructed_fast hc).trans hf)
  have hsound := osound_session dev fl calls s0 (constructed_sound hc)
  generalize session dev fl calls s0 = t at *
  have hbc : buildCommand t c = c.command := by simp [buildCommand, withCount, hfast]
  rcases query_cases dev fl c force t with ⟨h1, h2⟩ | ⟨x, h1, -⟩ | ⟨h1, hst, -⟩
  · exfalso
    rw [h1] at hq
    cases hq
    rcases h2 with h2 | ⟨rfl, h2⟩
    · exact hs h2
    · rcases hgo with h | h
      · cases h
      · rw [h2] at h; cases h
  · rw [h1] at hq; cases hq
  · obtain ⟨e, o, hl⟩ := live_of_sound hsound hst
    obtain ⟨evs, p, q, h2, -, h3, -, h4, h5⟩ := exchange_plan (dev := dev) (fl := fl) (c := c) hl
    rw [h1] at hq
    rw [hq] at h2 h5
    have hq0 : q = [] := by
      by_contra hne
      rcases h5 hne with h | ⟨x, h⟩
      · exact hs h
      · cases h
    subst hq0
    rw [List.append_nil] at h3
    refine ⟨evs, (wake e ++ (if c.header = t.lastHeader then [] else [headerLine c.header])).map line, h2, ?_⟩
    rw [h4, ← h3, plan, hbc]
    simp

/-- Without fast mode, the same command is sent in full each time. -/
example : testCmd (session (demo table) fl0 [.query rpmCommand false] (demoObd false)) rpmCommand = .ok true ∧
    sent ((session (demo table) fl0 [.query rpmCommand false, .query rpmCommand false] (demoObd false)).hist.drop (demoObd false).hist.length) =
      [line (ascii "010C"), line (ascii "010C")] := by
  constructor <;> decide +kernel

end Props
