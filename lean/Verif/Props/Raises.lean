import Verif.Props.EndToEnd
/-!
# C53, exactly: when a query of a built-in command raises
-/
namespace Props
open Py Model Spec ObdM

/-- C53: a query of a command of the tables raises if its I/O ends with a reply to the command on which the parser or the
secondary air decoder fails. -/
theorem C53_raises_partial (dev : Device) (fl : Str → Option PyFloat) (s : OW) (hr : Reachable dev fl s) (c : OBDCommand) (hc : c ∈ allCommands)
    (force : Bool) (out : Except Exc Response) (s' : OW) (h : query dev fl c force s = (out, s')) (cmd : Bytes)
    (hcmd : cmd = [] ∨ CommandString c cmd) (hb : BadReply s s' cmd ∨ BadAir s s' c cmd) : out = .error .indexError := by
  have hsnd := reachable_sound hr
  have hlive : ∀ {evs lines}, s'.hist = s.hist ++ evs → Ends evs cmd lines → ∃ e o, Live s e o := by
    intro evs lines hh he
    refine live_of_sound hsnd ?_
    intro hst
    rw [query_nc hst] at h
    cases h
    have : evs = [] := by simpa using hh
    obtain ⟨pre, bs, b, hx, -⟩ := he
    rw [this] at hx; simp at hx
  rcases hb with ⟨p, evs, lines, hp, hh, he, ht⟩ | ⟨hn, e, o, evs, lines, ms, before, m, after, x, y, A, hi, ho, hh, he, hms, hm, hbf, hov, hfit, hA⟩
  · obtain ⟨e, o, hl⟩ := hlive hh he
    rw [query_final hl h hh he (table_not_header hc hcmd _)]
    rw [protocolOf_live hl] at hp
    cases hp
    rw [trips_raises ht]
  · obtain ⟨e', o', hl⟩ := hlive hh he
    rw [hl.iface] at hi
    cases hi
    rw [hl.proto] at ho
    cases ho
    rw [query_final hl h hh he (table_not_header hc hcmd _), hms]
    have hne : ms ≠ [] := by rw [hm]; simp
    simp only [if_neg hne]
    have hmem : some c ∈ ["AIR_STATUS", "DTC_AIR_STATUS"].map byName := by
      have h1 := C26_by_name c hc
      rcases hn with hn | hn <;> rw [hn] at h1 <;> simp [h1]
    have hk : ms.filter (fun m => decide (Overlap c.ecu m.ecu)) = m :: after.filter (fun m => decide (Overlap c.ecu m.ecu)) := by
      rw [hm, List.filter_append, List.filter_cons_of_pos (by simpa using hov), List.filter_eq_nil_iff.2 (by simpa using hbf), List.nil_append]
    have h5 := C36_air_status_partial fl c hmem ms m _ hk x y A hfit
    rw [if_pos hA] at h5
    cases hcall : c.call fl ms with
    | ok r => rw [hcall] at h5; cases h5
    | error z => rw [hcall] at h5; cases h5; rfl

/-- C53: if only commands of the tables have been queried, a query of such a command raises exactly if its I/O ends with a reply to
the command on which the parser or the secondary air decoder fails. -/
theorem C53_table_exact (dev : Device) (fl : Str → Option PyFloat) (a : Args) (s0 : OW) (hcon : Constructed dev fl a s0)
    (calls : List Call) (hcs : ∀ c ∈ calls, TableCall c) (c : OBDCommand) (hc : c ∈ allCommands) (force : Bool) (out : Except Exc Response) (s' : OW)
    (h : query dev fl c force (session dev fl calls s0) = (out, s')) :
    (∃ x, out = .error x) ↔ ∃ cmd, (cmd = [] ∨ CommandString c cmd) ∧
      (BadReply (session dev fl calls s0) s' cmd ∨ BadAir (session dev fl calls s0) s' c cmd) := by
  constructor
  · rintro ⟨x, rfl⟩
    exact (C53_table_partial dev fl a s0 hcon calls hcs c hc force x s' h).2
  · rintro ⟨cmd, h1, h2⟩
    exact ⟨_, C53_raises_partial dev fl _ ⟨a, s0, calls, hcon, rfl⟩ c hc force out s' h cmd h1 h2⟩

/-- Both sides of `C53_table_exact` are true of a car that sends the lone byte 43 as engine speed, and false of the demo car. -/
example : (∃ cmd, (cmd = [] ∨ CommandString tableRpm cmd) ∧
      (BadReply (ObdM.construct oddCar fl0 [] (some "COM1".toList) true {}).2
        (query oddCar fl0 tableRpm true (ObdM.construct oddCar fl0 [] (some "COM1".toList) true {}).2).2 cmd ∨
       BadAir (ObdM.construct oddCar fl0 [] (some "COM1".toList) true {}).2
        (query oddCar fl0 tableRpm true (ObdM.construct oddCar fl0 [] (some "COM1".toList) true {}).2).2 tableRpm cmd)) ∧
    ¬ ∃ cmd, (cmd = [] ∨ CommandString tableRpm cmd) ∧
      (BadReply (ObdM.construct (demo table) fl0 [] (some "COM1".toList) true {}).2
        (query (demo table) fl0 tableRpm true (ObdM.construct (demo table) fl0 [] (some "COM1".toList) true {}).2).2 cmd ∨
       BadAir (ObdM.construct (demo table) fl0 [] (some "COM1".toList) true {}).2
        (query (demo table) fl0 tableRpm true (ObdM.construct (demo table) fl0 [] (some "COM1".toList) true {}).2).2 tableRpm cmd) := by
  have c1 := constructed_of (dev := oddCar) (fl := fl0) (a := { portstr := some "COM1".toList }) (by decide +kernel)
  have c2 := constructed_of (dev := demo table) (fl := fl0) (a := { portstr := some "COM1".toList }) (by decide +kernel)
  have h1 : (query oddCar fl0 tableRpm true (ObdM.construct oddCar fl0 [] (some "COM1".toList) true {}).2).1 = .error .indexError :=
    eq_of_failsWith (by decide +kernel)
  have h2 : (query (demo table) fl0 tableRpm true (ObdM.construct (demo table) fl0 [] (some "COM1".toList) true {}).2).1.isOk = true := by
    decide +kernel
  refine ⟨(C53_table_exact oddCar fl0 _ _ c1 [] (by simp) tableRpm tableRpm_mem true _ _ rfl).1 ⟨_, h1⟩, ?_⟩
  intro h
  obtain ⟨x, hx⟩ := (C53_table_exact (demo table) fl0 _ _ c2 [] (by simp) tableRpm tableRpm_mem true _ _ rfl).2 h
  have hx : (query (demo table) fl0 tableRpm true (ObdM.construct (demo table) fl0 [] (some "COM1".toList) true {}).2).1 = .error x := hx
  rw [hx] at h2
  cases h2

end Props
