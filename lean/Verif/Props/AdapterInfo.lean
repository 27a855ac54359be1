import Verif.Props.Stateless
import Verif.Props.Supported
import Verif.Props.Sessions
import Verif.Props.Lines
/-!
# C83: what the adapter says about itself
-/
namespace Props
open Py Model Spec ObdM

theorem eq_self (c : OBDCommand) : c.eq c = true := by simp [OBDCommand.eq]

theorem constructed_base {dev : Device} {fl : Str → Option PyFloat} {a : Args} {s : OW} (hc : Constructed dev fl a s) (hs : status s ≠ .notConnected)
    (c : OBDCommand) (hm : c ∈ baseCommands) : supports s c = true := by
  unfold Constructed construct at hc
  obtain ⟨_, s1, h1, h2⟩ := bind_inv hc
  unfold loadCommands at h2
  rw [PyM.bind_ok (show PyM.get _ = (.ok _, _) from rfl)] at h2
  have hany : baseCommands.any (fun x => x.eq c) = true := List.any_eq_true.2 ⟨c, hm, eq_self c⟩
  by_cases hs1 : status s1 = .carConnected
  · rw [if_neg (by simp [hs1])] at h2
    obtain ⟨port, t, hport, -, -, -, -, -, ho⟩ := connect_opened h1 rfl (by rw [hs1]; simp)
    rcases connect_attrs h1 with hx | ⟨g1, g2, g3, g4, e1, g5, g6⟩
    · rw [hs1] at hx; cases hx
    obtain ⟨w, hw, rfl⟩ := openInterface_ok ho
    have hst : w.elm.status = .carConnected := by simpa [status] using hs1
    obtain ⟨evs, rate, xs, id, r, obj, hh, hcon, hpo, hlp, hpr, hid, hinit⟩ := ElmM.construct_car hw hst
    simp only at g1 g2 g3 g4 g5
    cases g5
    have hL : Loading obj w.hist [] [] { t with interface := some w.elm, hist := w.hist } := by
      refine ⟨⟨w.elm, ⟨rfl, by rw [hst]; simp, by rw [hpo]; simp, hpr⟩, g6⟩, g1, ?_, Or.inl g2, ⟨[], by simp, .nil⟩, ?_, by simp, by simp, by simp⟩
      · intro k hk; simp [g3, Dict.mem, Dict.get?] at hk
      · intro d; simp only [supports, g4]; simp
    rcases loading_loop [] [] _ rfl hL h2 with ⟨log, hF⟩ | ⟨log, hF⟩
    · exact (hF.sup c).2 (Or.inl hany)
    · exact (hF.sup c).2 (Or.inl hany)
  · rw [if_pos hs1] at h2
    cases h2
    rcases connect_attrs h1 with h | ⟨-, -, -, h, -⟩
    · exact absurd h hs
    · unfold supports; rw [h]; exact hany

/-- A base command other than the one of mode 06 goes through until the connection is closed. -/
theorem base_goes {dev : Device} {fl : Str → Option PyFloat} {a : Args} {s0 : OW} (hc : Constructed dev fl a s0) (calls : List Call)
    (hcl : .close ∉ calls) (hs : status (session dev fl calls s0) ≠ .notConnected)
    (c : OBDCommand) (hm : c ∈ baseCommands) (h6 : c.mode = .ok none) :
    supports (session dev fl calls s0) c = true ∧ testCmd (session dev fl calls s0) c = .ok true := by
  have hr0 : Reachable dev fl s0 := ⟨a, s0, [], hc, rfl⟩
  have h7 := C77_fixed dev fl s0 hr0 calls hcl hs
  simp only at h7
  rw [h7.2.2.2.2.2.2 c, h7.2.2.2.2.2.1 c]
  have hsup := constructed_base hc (by rw [← h7.1]; exact hs) c hm
  refine ⟨hsup, ?_⟩
  unfold testCmd
  simp [hsup, h6]
  rfl

theorem text_messages {p : Proto} {map : Dict (Option Nat) Nat} {lines : List Str} (h : ∀ l ∈ lines, NotHex l) :
    p.call map lines = .ok (lines.map chatter) := by
  have h1 : obdLines lines = [] := by
    unfold obdLines
    rw [List.filter_eq_nil_iff]
    intro l hl
    obtain ⟨x, hx, rfl⟩ := List.mem_map.1 hl
    simp [(notHex_iff x).1 (h x hx)]
  have h2 : nonObdLines lines = lines := by
    unfold nonObdLines
    rw [List.filter_eq_self]
    intro l hl
    simp [(notHex_iff l).1 (h l hl)]
  have h3 : framesOf p lines = [] := by unfold framesOf; rw [h1]; rfl
  rw [call_ok_iff, h3, h2]
  exact ⟨fun t ht => (by obtain ⟨f, hf, -⟩ := (mem_txs _ _).1 ht; cases hf), rfl⟩

/-- A query of a base command that asks the adapter, answered by text only. -/
theorem text_reply {dev : Device} {fl : Str → Option PyFloat} {s : OW} (hr : Reachable dev fl s) (hs : status s ≠ .notConnected)
    {c : OBDCommand} (hecu : c.ecu = ECU.unknown) (hb : c.bytes = 0) (force : Bool) (hg : Goes s c force)
    {lines : List Str} (hl : JustRead (query dev fl c force s).2.hist lines) (hne : lines ≠ []) (ht : ∀ l ∈ lines, NotHex l) :
    (query dev fl c force s).1 = (match c.decode.run fl (lines.map chatter) with
        | .ok v => .ok { command := some c, messages := lines.map chatter, value := v }
        | .error e => .error e) := by
  have hq : query dev fl c force s = exchange dev fl c s := by
    rcases query_cases dev fl c force s with ⟨-, h | ⟨h1, h2⟩⟩ | ⟨x, -, -, h1, h2⟩ | ⟨h, -⟩
    · exact absurd h hs
    · rcases hg with hg | hg
      · rw [h1] at hg; cases hg
      · rw [h2] at hg; cases hg
    · rcases hg with hg | hg
      · rw [h1] at hg; cases hg
      · rw [h2] at hg; cases hg
    · exact h
  rw [hq] at hl ⊢
  obtain ⟨e, o, hL⟩ := live_of_sound (reachable_sound hr) hs
  rw [exchange_made hL hl]
  unfold made ProtoObj.call
  rw [text_messages ht]
  have hne' : lines.map chatter ≠ [] := by simpa using hne
  simp only [if_neg hne']
  have hf : ((lines.map chatter).filter (fun m => (c.ecu &&& m.ecu) > 0)).map c.constrain = lines.map chatter := by
    rw [List.filter_eq_self.2]
    · conv => rhs; rw [← List.map_id (lines.map chatter)]
      apply List.map_congr_left
      intro m _
      simp [OBDCommand.constrain, hb]
    · intro m hm
      obtain ⟨l, -, rfl⟩ := List.mem_map.1 hm
      rw [hecu]; show decide (ECU.unknown &&& ECU.unknown > 0) = true; decide
  unfold OBDCommand.call
  simp only [hf]
  have : (lines.map chatter).isEmpty = false := by
    cases h : lines with
    | nil => exact absurd h hne
    | cons a l => rfl
  rw [this]
  simp only [Bool.false_eq_true, if_false, bind, Except.bind, pure, Except.pure]
  cases c.decode.run fl (lines.map chatter) <;> rfl

theorem raw_chatter (l : Str) : (chatter l).raw = l := by
  simp [Message.raw, chatter, List.intercalate, List.intersperse]

theorem version_attrs {c : OBDCommand} (hc : byName "ELM_VERSION" = some c) :
    c ∈ baseCommands ∧ c.mode = .ok none ∧ c.ecu = ECU.unknown ∧ c.bytes = 0 ∧ c.decode = .rawString ∧ c.command = ascii "ATI" := by
  have hk : (byName "ELM_VERSION").map (fun c => (c.mode, c.ecu, c.bytes, (match c.decode with | .rawString => true | _ => false), c.command)) =
      some (.ok none, ECU.unknown, 0, true, ascii "ATI") := by decide +kernel
  rw [hc] at hk
  simp only [Option.map_some, Option.some.injEq, Prod.mk.injEq] at hk
  refine ⟨List.mem_filterMap.2 ⟨"ELM_VERSION", by simp, hc⟩, hk.1, hk.2.1, hk.2.2.1, ?_, hk.2.2.2.2⟩
  have := hk.2.2.2.1
  split at this <;> simp_all

theorem voltage_attrs {c : OBDCommand} (hc : byName "ELM_VOLTAGE" = some c) :
    c ∈ baseCommands ∧ c.mode = .ok none ∧ c.ecu = ECU.unknown ∧ c.bytes = 0 ∧ c.decode = .elmVoltage ∧ c.command = ascii "ATRV" := by
  have hk : (byName "ELM_VOLTAGE").map (fun c => (c.mode, c.ecu, c.bytes, (match c.decode with | .elmVoltage => true | _ => false), c.command)) =
      some (.ok none, ECU.unknown, 0, true, ascii "ATRV") := by decide +kernel
  rw [hc] at hk
  simp only [Option.map_some, Option.some.injEq, Prod.mk.injEq] at hk
  refine ⟨List.mem_filterMap.2 ⟨"ELM_VOLTAGE", by simp, hc⟩, hk.1, hk.2.1, hk.2.2.1, ?_, hk.2.2.2.2⟩
  have := hk.2.2.2.1
  split at this <;> simp_all

/-- C83: the adapter can be asked for its version and voltage, without force, on every connection, with or without a car,
until it is closed or lost. -/
theorem C83_available (dev : Device) (fl : Str → Option PyFloat) (a : Args) (s0 : OW) (h0 : Constructed dev fl a s0) (calls : List Call)
    (hcl : .close ∉ calls) (hs : status (session dev fl calls s0) ≠ .notConnected)
    (name : String) (hn : name = "ELM_VERSION" ∨ name = "ELM_VOLTAGE") :
    ∃ c, byName name = some c ∧ supports (session dev fl calls s0) c = true ∧ Goes (session dev fl calls s0) c false := by
  have hsome : (byName name).isSome = true := by rcases hn with rfl | rfl <;> decide +kernel
  obtain ⟨c, hc⟩ := Option.isSome_iff_exists.1 hsome
  have ha : c ∈ baseCommands ∧ c.mode = .ok none := by
    rcases hn with rfl | rfl
    · exact ⟨(version_attrs hc).1, (version_attrs hc).2.1⟩
    · exact ⟨(voltage_attrs hc).1, (voltage_attrs hc).2.1⟩
  obtain ⟨g1, g2⟩ := base_goes h0 calls hcl hs c ha.1 ha.2
  exact ⟨c, hc, g1, Or.inr g2⟩

/-- C83: querying ELM_VERSION returns the text of the adapter, line by line. -/
theorem C83_version (dev : Device) (fl : Str → Option PyFloat) (s : OW) (hr : Reachable dev fl s) (hs : status s ≠ .notConnected)
    (c : OBDCommand) (hc : byName "ELM_VERSION" = some c) (force : Bool) (hg : Goes s c force) (lines : List Str)
    (hl : JustRead (query dev fl c force s).2.hist lines) (hne : lines ≠ []) (ht : ∀ l ∈ lines, NotHex l) :
    ∃ r, (query dev fl c force s).1 = .ok r ∧ r.value = .str (['\n'].intercalate lines) ∧ r.isNull = false := by
  obtain ⟨h1, h2, h3, h4, h5, -⟩ := version_attrs hc
  rw [text_reply hr hs h3 h4 force hg hl hne ht, h5]
  refine ⟨_, rfl, ?_, ?_⟩
  · simp [List.map_map, Function.comp_def, raw_chatter]
  · simp [Response.isNull, hne]

/-- C83: querying ELM_VOLTAGE returns the number in the first line of the reply, which may have a V at its end (in either
case), in volts; a null response if there is no number. -/
theorem C83_voltage (dev : Device) (fl : Str → Option PyFloat) (s : OW) (hr : Reachable dev fl s) (hs : status s ≠ .notConnected)
    (c : OBDCommand) (hc : byName "ELM_VOLTAGE" = some c) (force : Bool) (hg : Goes s c force) (l : Str) (lines : List Str)
    (hl : JustRead (query dev fl c force s).2.hist (l :: lines)) (ht : ∀ x ∈ l :: lines, NotHex x) :
    ∃ r, (query dev fl c force s).1 = .ok r ∧
      (∀ x, fl ((Py.lower l).filter (fun c => c != 'v')) = some x → r.value = .fqty x "volt" ∧ r.isNull = false) ∧
      (fl ((Py.lower l).filter (fun c => c != 'v')) = none → r.value = .none ∧ r.isNull = true) := by
  obtain ⟨h1, h2, h3, h4, h5, -⟩ := voltage_attrs hc
  rw [text_reply hr hs h3 h4 force hg hl (by simp) ht, h5]
  have hd : Decoder.run fl .elmVoltage ((l :: lines).map chatter) = .ok (match fl (voltText l) with
      | some x => .fqty x "volt"
      | none => .none) := by
    show decElmVoltage fl _ = _
    unfold decElmVoltage
    simp only [List.map_cons, idx, chatter, List.getElem?_cons_zero, bind, Except.bind]
    cases fl (voltText l) <;> rfl
  rw [hd]
  refine ⟨_, rfl, ?_, ?_⟩
  · intro x hx
    unfold voltText
    rw [hx]
    simp [Response.isNull]
  · intro hx
    unfold voltText
    rw [hx]
    simp [Response.isNull]


/-- A car-less adapter (nobody answers `0100`) tells its version; the hypotheses of `C83_version` are met. -/
example : status (ObdM.construct (demo (("0100", "UNABLE TO CONNECT") :: ("ATI", "ELM327 v1.5\rOBDII to RS232") :: table)) fl0 ["COM1".toList] none true {}).2 = .obdConnected ∧
    ((byName "ELM_VERSION").map (fun c =>
      let q := query (demo (("0100", "UNABLE TO CONNECT") :: ("ATI", "ELM327 v1.5\rOBDII to RS232") :: table)) fl0 c false
        (ObdM.construct (demo (("0100", "UNABLE TO CONNECT") :: ("ATI", "ELM327 v1.5\rOBDII to RS232") :: table)) fl0 ["COM1".toList] none true {}).2
      (match q.1 with | .ok r => r.value | _ => .none, q.2.hist.getLast?))) =
    some (.str "ELM327 v1.5\nOBDII to RS232".toList, some (.read (some (ascii "ELM327 v1.5\rOBDII to RS232\r\r>")))) ∧
    NotHex "ELM327 v1.5".toList ∧ NotHex "OBDII to RS232".toList := by decide +kernel
end Props
