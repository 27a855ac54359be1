import Verif.Lemmas.Connected
import Mathlib.Data.List.Sort
import Verif.Props.Dtc
import Verif.Props.EndToEnd
import Verif.Spec.TroubleCodes
/-!
# Trouble codes, from the question to the list (C68, C69, C70)
-/
namespace Props
open Py Model Spec ObdM

theorem pairs_codeBytes (codes : List (UInt8 × UInt8)) (rest : Bytes) : pairs (codeBytes codes ++ rest) = codes ++ pairs rest := by
  induction codes with
  | nil => rfl
  | cons c cs ih =>
    show (c.1, c.2) :: pairs (codeBytes cs ++ rest) = _
    rw [ih]; rfl

theorem pairs_zeros : ∀ (k : Nat), (pairs (List.replicate k 0)).filter (fun p => p ≠ (0, 0)) = []
  | 0 => rfl
  | 1 => rfl
  | k + 2 => by
    show (((0 : UInt8), (0 : UInt8)) :: pairs (List.replicate k 0)).filter (fun p => p ≠ (0, 0)) = []
    rw [List.filter_cons_of_neg (by simp), pairs_zeros k]

theorem codePairs_codeBytes {codes : List (UInt8 × UInt8)} (h : ∀ c ∈ codes, c ≠ (0, 0)) (k : Nat) :
    codePairs (codeBytes codes ++ List.replicate k 0) = codes := by
  unfold codePairs
  rw [pairs_codeBytes, List.filter_append, pairs_zeros, List.append_nil, List.filter_eq_self]
  intro c hc
  simpa using h c hc

theorem codeBytes_length (codes : List (UInt8 × UInt8)) : (codeBytes codes).length = 2 * codes.length := by
  induction codes with
  | nil => rfl
  | cons c cs ih => show (codeBytes cs).length + 1 + 1 = _; rw [ih]; simp; omega

theorem flatten_even (bodies : List Bytes) (h : ∀ b ∈ bodies, b.length = 6) : bodies.flatten.length % 2 = 0 := by
  induction bodies with
  | nil => rfl
  | cons b bs ih =>
    have := ih (fun x hx => h x (List.mem_cons_of_mem _ hx))
    have := h b (by simp)
    rw [List.flatten_cons, List.length_append]; omega

/-- The lines of an ECU that says something on CAN, parsed alone. -/
theorem says_alone {p : Proto} {n : Nat} (hp : p.family = .can n) {t : Nat} {payload : Bytes} {lines : List Str} (h : Says p t payload lines)
    (h43 : payload.head? = some 0x43 → ∃ k rest, payload = 0x43 :: k :: rest ∧ rest.length ≤ 2 * k.toNat) (map : Dict (Option Nat) Nat) :
    ∃ m, p.call map (lines.filter (sentBy p t)) = .ok [m] ∧ m.data = payload := by
  cases h with
  | single e on he pad h1 h7 s hs own =>
    subst he
    rw [own]
    by_cases h : payload.head? = some 0x43
    · obtain ⟨k, rest, rfl, hk⟩ := h43 h
      obtain ⟨m, g1, -, g2⟩ := C15_single p e on map k rest pad (by simp at h7; omega) s hs
      exact ⟨m, g1, by rw [g2, List.take_of_length_le (by simp; omega)]⟩
    · obtain ⟨m, g1, -, g2⟩ := C06_single_frame p e on map payload pad h1 h7 h s hs
      exact ⟨m, g1, g2⟩
  | segmented e on he pad hseg recvd hr horder own =>
    subst he
    rw [own]
    by_cases h : payload.head? = some 0x43
    · obtain ⟨k, rest, rfl, hk⟩ := h43 h
      obtain ⟨m, g1, -, g2⟩ := C15_segmented p e on map k rest pad hseg recvd hr horder
      exact ⟨m, g1, by rw [g2, List.take_of_length_le (by simp; omega)]⟩
    · obtain ⟨m, g1, -, g2⟩ := C07_in_order p e on map payload pad hseg h recvd hr horder
      exact ⟨m, g1, g2⟩
  | oneLine hl => rcases hl with rfl | rfl | rfl | rfl | rfl <;> cases hp
  | numbered hl => rcases hl with rfl | rfl | rfl | rfl | rfl <;> cases hp

theorem can_payload43 (mode : UInt8) (codes : List (UInt8 × UInt8)) (hk : codes.length ≤ 255) :
    (mode :: UInt8.ofNat codes.length :: codeBytes codes).head? = some 0x43 →
    ∃ k rest, mode :: UInt8.ofNat codes.length :: codeBytes codes = 0x43 :: k :: rest ∧ rest.length ≤ 2 * k.toNat := by
  intro h
  simp only [List.head?_cons, Option.some.injEq] at h
  subst h
  refine ⟨_, _, rfl, ?_⟩
  rw [codeBytes_length, UInt8.toNat_ofNat']
  omega

theorem silent_lines {p : Proto} {t : Nat} {lines : List Str} (h : framesBy p t lines = []) : lines.filter (sentBy p t) = [] := by
  rw [List.filter_eq_nil_iff]
  intro s hs hb
  unfold sentBy at hb
  cases hf : lineFrame? p s with
  | none => rw [hf] at hb; simp at hb
  | some x =>
    rw [hf] at hb
    simp only [Option.map_some, beq_iff_eq, Option.some.injEq] at hb
    have : x.2 ∈ framesBy p t lines := by
      unfold framesBy
      exact List.mem_map.2 ⟨x, List.mem_filter.2 ⟨List.mem_filterMap.2 ⟨s, hs, hf⟩, by simp [hb]⟩, rfl⟩
    rw [h] at this; cases this

theorem hexBytes?_none : ∀ (ds : List (Option Nat)), none ∈ ds → hexBytes? ds = none
  | [], h => by cases h
  | [some a], _ => rfl
  | none :: _, _ => by cases ‹List (Option Nat)› <;> rfl
  | some a :: none :: _, _ => rfl
  | some a :: some b :: rest, h => by
    have := hexBytes?_none rest (by simpa using h)
    simp [hexBytes?, this]

theorem lineFrame?_notHex (p : Proto) {s : Str} (h : NotHex s) : lineFrame? p s = none := by
  obtain ⟨c, hc, hsp, hd⟩ := h
  have hm : none ∈ (s.filter (fun c => c != ' ')).map digit? :=
    List.mem_map.2 ⟨c, List.mem_filter.2 ⟨hc, by simpa using hsp⟩, hd⟩
  unfold lineFrame?
  simp only
  generalize (s.filter (fun c => c != ' ')).map digit? = ds at hm
  have h2 := hexBytes?_none ds hm
  cases p <;> simp only [h2]
  all_goals
    split
    · next x a b rest =>
      rw [hexBytes?_none rest (by simpa using hm)]
    · rfl

/-- Reports do not trip the parser. -/
theorem reported_parses {p : Proto} (hp : p ≠ .unknown) {mode : UInt8} {lines : List Str} {ecus : List Nat} {codes : Nat → List (UInt8 × UInt8)}
    (h : Reported p mode lines ecus codes) (map : Dict (Option Nat) Nat) : ∃ ms, p.call map lines = .ok ms := by
  cases hms : p.call map lines with
  | ok ms => exact ⟨ms, rfl⟩
  | error e =>
    exfalso
    have htr := (trips_of (o := ⟨p, map⟩) hms).2
    rcases htr with ⟨n, t, hf, -⟩ | ⟨hf, t, md, h2, h3, h4, d, hd, hd3⟩
    · obtain ⟨t, e', he⟩ := (C11_raises_iff p hp map lines).1 ⟨e, hms⟩
      by_cases ht : t ∈ ecus
      · cases h.reports t ht with
        | can n hp hsay hk =>
          obtain ⟨m, h1, -⟩ := says_alone hp hsay (can_payload43 _ _ hk) map
          rw [h1] at he; cases he
        | legacy hl => rcases hl with rfl | rfl | rfl | rfl | rfl <;> cases hf
      · have h0 : framesBy p t lines = [] := by
          by_contra h0
          exact ht ((h.mem t).2 h0)
        rw [silent_lines h0] at he
        have := call_empty ⟨p, map⟩
        rw [show p.call map [] = .ok [] from this] at he
        cases he
    · have ht : t ∈ ecus := (h.mem t).2 (List.ne_nil_of_mem hd)
      cases h.reports t ht with
      | can n hp => rw [hf] at hp; cases hp
      | legacy hl bodies hne hlen k hb own =>
        rw [own] at hd
        obtain ⟨b, hb, rfl⟩ := List.mem_map.1 hd
        have := hlen b hb
        simp at hd3; omega

/-- The messages of an ECU that reports codes. -/
theorem reports_message {p : Proto} {mode : UInt8} {t : Nat} {codes : List (UInt8 × UInt8)} {lines : List Str} (h : ReportsCodes p mode t codes lines)
    (hnz : ∀ c ∈ codes, c ≠ (0, 0)) (hmode : IsLegacy p → mode = 0x43) {map : Dict (Option Nat) Nat} {ms : List Message} (hms : p.call map lines = .ok ms) :
    ∃ m, ms.filter (fun m => m.txId == some t) = [m] ∧ m.data ≠ [] ∧ (m.data.drop 2).length % 2 = 0 ∧ codePairs (m.data.drop 2) = codes := by
  cases h with
  | can n hp hsay hk =>
    have hu : p ≠ .unknown := by rintro rfl; cases hp
    obtain ⟨m, h1, h2⟩ := says_alone hp hsay (can_payload43 _ _ hk) map
    have h3 := C11_own_lines p hu map lines ms hms t
    rw [h1] at h3
    injection h3 with h3
    refine ⟨m, h3.symm, by rw [h2]; simp, by rw [h2]; show (codeBytes codes).length % 2 = 0; rw [codeBytes_length]; omega, ?_⟩
    rw [h2]
    show codePairs (codeBytes codes) = codes
    have := codePairs_codeBytes hnz 0
    simpa using this
  | legacy hp bodies hne hlen k hb own =>
    cases hmode hp
    obtain ⟨m, h1, h2⟩ := C19_dtc_lines p hp map lines t bodies hne own ms hms
    refine ⟨m, h1, by rw [h2]; simp, ?_, ?_⟩
    · rw [h2]
      show bodies.flatten.length % 2 = 0
      exact flatten_even bodies hlen
    · rw [h2]
      show codePairs bodies.flatten = codes
      rw [hb]; exact codePairs_codeBytes hnz k

/-- The codes in the messages of a reply. -/
theorem reported_codes {p : Proto} (hp : p ≠ .unknown) {mode : UInt8} {lines : List Str} {ecus : List Nat} {codes : Nat → List (UInt8 × UInt8)}
    (h : Reported p mode lines ecus codes) (hmode : IsLegacy p → mode = 0x43) {map : Dict (Option Nat) Nat} {ms : List Message}
    (hms : p.call map lines = .ok ms) :
    ms ≠ [] ∧ (∀ m ∈ ms, (m.data.drop 2).length % 2 = 0) ∧ ms.flatMap (fun m => codePairs (m.data.drop 2)) = ecus.flatMap codes := by
  have hecus : ms.filterMap Message.txId = ecus := by
    apply List.Pairwise.eq_of_mem_iff (C11_order p map lines ms hms) h.sorted
    intro t
    constructor
    · intro ht
      obtain ⟨m, hm, htx⟩ := List.mem_filterMap.1 ht
      rw [h.mem]
      intro h0
      have := silent_message hp h0 map ms hms
      have hx : m ∈ ms.filter (fun m => m.txId == some t) := List.mem_filter.2 ⟨hm, by simp [htx]⟩
      rw [this] at hx; cases hx
    · intro ht
      obtain ⟨m, h1, -⟩ := reports_message (h.reports t ht) (h.nonzero t ht) hmode hms
      have hx : m ∈ ms.filter (fun m => m.txId == some t) := by rw [h1]; simp
      obtain ⟨hm, htx⟩ := List.mem_filter.1 hx
      exact List.mem_filterMap.2 ⟨m, hm, by simpa using htx⟩
  have hnone : ∀ m ∈ ms, m.txId = none → m.data = [] := by
    intro m hm ht
    by_contra hd
    obtain ⟨t, h1⟩ := C10_has_sender p hp map lines ms hms m hm hd
    rw [ht] at h1; cases h1
  refine ⟨?_, ?_, ?_⟩
  · rintro rfl
    exact h.some_ecu hecus.symm
  · intro m hm
    cases ht : m.txId with
    | none => rw [hnone m hm ht]; rfl
    | some t =>
      have : t ∈ ecus := by rw [← hecus]; exact List.mem_filterMap.2 ⟨m, hm, ht⟩
      obtain ⟨m', h1, -, h2, -⟩ := reports_message (h.reports t this) (h.nonzero t this) hmode hms
      have hx : m ∈ ms.filter (fun m => m.txId == some t) := List.mem_filter.2 ⟨hm, by simp [ht]⟩
      rw [h1, List.mem_singleton] at hx
      subst hx; exact h2
  · rw [flatMap_by_sender _ ms (fun m hm ht => by rw [hnone m hm ht]; rfl) (C11_order p map lines ms hms), hecus]
    apply List.flatMap_congr
    intro t ht
    obtain ⟨m', h1, -, -, h2⟩ := reports_message (h.reports t ht) (h.nonzero t ht) hmode hms
    rw [h1]
    simpa using h2

/-- What a trouble code command makes of a reply in which every ECU reports its codes. -/
theorem codes_end_to_end {o : ProtoObj} {r : List Str} (hu : o.cls ≠ .unknown) (hi : o.cls.init r = .ok o) (fl : Str → Option PyFloat) (c : OBDCommand)
    (hecu : c.ecu = ECU.all) (hb : c.bytes = 0) (hd : c.decode = .dtc) {mode : UInt8} (hmode : IsLegacy o.cls → mode = 0x43) {lines : List Str} {ecus : List Nat}
    {codes : Nat → List (UInt8 × UInt8)} (h : Reported o.cls mode lines ecus codes) :
    ∃ (res : Response) (cs : List (Str × Str)), (match o.call lines with
          | .error x => (.error x : Except Exc Response)
          | .ok ms => if ms = [] then .ok {} else c.call fl ms) = .ok res ∧ res.value = .dtcs cs ∧ List.Forall₂ Decoded (ecus.flatMap codes) cs := by
  obtain ⟨ms, hms⟩ := reported_parses hu h o.ecuMap
  obtain ⟨h1, h2, h3⟩ := reported_codes hu h hmode hms
  obtain ⟨cs, h4, h5⟩ := C32_even_partial fl ms (fun m hm => h2 m (List.mem_of_mem_dropLast hm))
  rw [show o.call lines = .ok ms from hms]
  simp only [if_neg h1]
  refine ⟨{ command := some c, messages := ms, value := .dtcs cs }, cs, ?_, rfl, by rw [← h3]; exact h5⟩
  rw [call_all hi hms fl c hecu hb h1, hd, h4]

/-! ## C68: stored trouble codes -/

/-- C68: on a connection to a car, if the reply to GET_DTC consists of the reports of any number of
ECUs, any text of the adapter and any malformed lines, the response lists exactly the codes of all
ECUs, ECU by ECU in the order of their addresses, each in the order in which it was sent. -/
theorem C68_stored_codes (dev : Device) (fl : Str → Option PyFloat) (a : Args) (s0 : OW) (hc : Constructed dev fl a s0)
    (hs : status s0 = .carConnected) :
    ∃ (p : Proto) (r : List Str), ConnectedTo fl a s0 p r ∧
      ∀ (calls : List Call) (c : OBDCommand) (force : Bool) (out : Except Exc Response) (s' : OW) (evs : History) (cmd : Bytes)
        (lines : List Str) (ecus : List Nat) (codes : Nat → List (UInt8 × UInt8)), byName "GET_DTC" = some c →
        query dev fl c force (session dev fl calls s0) = (out, s') → s'.hist = (session dev fl calls s0).hist ++ evs →
        Ends evs cmd lines → (cmd = [] ∨ CommandString c cmd) → Reported p 0x43 lines ecus codes →
        ∃ res cs, out = .ok res ∧ res.value = .dtcs cs ∧ List.Forall₂ Decoded (ecus.flatMap codes) cs := by
  obtain ⟨r, o, h1, hu, hi, hq⟩ := connected_query hc hs
  refine ⟨o.cls, r, h1, ?_⟩
  intro calls c force out s' evs cmd lines ecus codes hb hqq hh he hcmd hrep
  have hattr : (byName "GET_DTC").map (fun c => (c.ecu, c.bytes, match c.decode with | .dtc => true | _ => false)) = some (ECU.all, 0, true) := by
    decide +kernel
  rw [hb] at hattr
  simp only [Option.map_some, Option.some.injEq, Prod.mk.injEq] at hattr
  obtain ⟨a1, a2, a3⟩ := hattr
  have a3 : c.decode = .dtc := by split at a3 <;> simp_all
  rw [hq calls c force out s' evs cmd lines hqq hh he (table_not_header (mem_of_byName hb) hcmd _)]
  exact codes_end_to_end hu hi fl c a1 a2 a3 (fun _ => rfl) hrep

/-! ## C69: pending trouble codes -/

/-- C69 in full: the same for GET_CURRENT_DTC, whose answers have the mode byte 47. -/
def C69_full : Prop :=
  ∀ (dev : Device) (fl : Str → Option PyFloat) (a : Args) (s0 : OW), Constructed dev fl a s0 → status s0 = .carConnected →
    ∃ (p : Proto) (r : List Str), ConnectedTo fl a s0 p r ∧
      ∀ (calls : List Call) (c : OBDCommand) (force : Bool) (out : Except Exc Response) (s' : OW) (evs : History) (cmd : Bytes)
        (lines : List Str) (ecus : List Nat) (codes : Nat → List (UInt8 × UInt8)), byName "GET_CURRENT_DTC" = some c →
        query dev fl c force (session dev fl calls s0) = (out, s') → s'.hist = (session dev fl calls s0).hist ++ evs →
        Ends evs cmd lines → (cmd = [] ∨ CommandString c cmd) → Reported p 0x47 lines ecus codes →
        ∃ res cs, out = .ok res ∧ res.value = .dtcs cs ∧ List.Forall₂ Decoded (ecus.flatMap codes) cs

/-- What holds: the same on CAN. -/
theorem C69_partial (dev : Device) (fl : Str → Option PyFloat) (a : Args) (s0 : OW) (hc : Constructed dev fl a s0)
    (hs : status s0 = .carConnected) :
    ∃ (p : Proto) (r : List Str), ConnectedTo fl a s0 p r ∧
      ∀ (calls : List Call) (c : OBDCommand) (force : Bool) (out : Except Exc Response) (s' : OW) (evs : History) (cmd : Bytes)
        (lines : List Str) (ecus : List Nat) (codes : Nat → List (UInt8 × UInt8)), byName "GET_CURRENT_DTC" = some c →
        query dev fl c force (session dev fl calls s0) = (out, s') → s'.hist = (session dev fl calls s0).hist ++ evs →
        Ends evs cmd lines → (cmd = [] ∨ CommandString c cmd) → Reported p 0x47 lines ecus codes → ¬ IsLegacy p →
        ∃ res cs, out = .ok res ∧ res.value = .dtcs cs ∧ List.Forall₂ Decoded (ecus.flatMap codes) cs := by
  obtain ⟨r, o, h1, hu, hi, hq⟩ := connected_query hc hs
  refine ⟨o.cls, r, h1, ?_⟩
  intro calls c force out s' evs cmd lines ecus codes hb hqq hh he hcmd hrep hleg
  have hattr : (byName "GET_CURRENT_DTC").map (fun c => (c.ecu, c.bytes, match c.decode with | .dtc => true | _ => false)) = some (ECU.all, 0, true) := by
    decide +kernel
  rw [hb] at hattr
  simp only [Option.map_some, Option.some.injEq, Prod.mk.injEq] at hattr
  obtain ⟨a1, a2, a3⟩ := hattr
  have a3 : c.decode = .dtc := by split at a3 <;> simp_all
  rw [hq calls c force out s' evs cmd lines hqq hh he (table_not_header (mem_of_byName hb) hcmd _)]
  exact codes_end_to_end hu hi fl c a1 a2 a3 (fun h => absurd h hleg) hrep

/-! ### cases -/

/-- What a query of the command `name` on `s` gives: the value, and the I/O. -/
def nameRun (dev : Device) (name : String) (s : OW) : Option (Option Value × History × History) :=
  (byName name).map (fun c => ((query dev fl0 c true s).1.toOption.map (·.value),
    (query dev fl0 c true s).2.hist.take s.hist.length, (query dev fl0 c true s).2.hist.drop s.hist.length))

/-- The I/O of a query that sends `cmd` and gets the reply `b`. -/
def nameEvents (cmd b : String) : History := [.write (line (ascii cmd)) true, .read (some (ascii b))]

theorem nameRun_spec {dev : Device} {name cmd : String} {s : OW} {v : Value} {b : String} {lines : List Str}
    (h : nameRun dev name s = some (some v, s.hist, nameEvents cmd b)) (hl : cleanLines (ascii b) = lines)
    (hcmd : (byName name).map (·.command) = some (ascii cmd)) :
    ∃ (c : OBDCommand) (res : Response) (s' : OW), byName name = some c ∧ query dev fl0 c true s = (.ok res, s') ∧ res.value = v ∧
      s'.hist = s.hist ++ nameEvents cmd b ∧ Ends (nameEvents cmd b) (ascii cmd) lines ∧ CommandString c (ascii cmd) := by
  unfold nameRun at h
  cases hb : byName name with
  | none => rw [hb] at h; cases h
  | some c =>
    rw [hb] at h hcmd
    simp only [Option.map_some, Option.some.injEq, Prod.mk.injEq] at h hcmd
    obtain ⟨h1, h2, h3⟩ := h
    cases hq : query dev fl0 c true s with
    | mk out s' =>
      rw [hq] at h1 h2 h3
      simp only at h1 h2 h3
      cases out with
      | error x => cases h1
      | ok res =>
        simp only [Except.toOption, Option.map_some, Option.some.injEq] at h1
        refine ⟨c, res, s', rfl, hq, h1, ?_, ?_, Or.inl hcmd.symm⟩
        · rw [← h3]
          conv => rhs; lhs; rw [← h2]
          exact (List.take_append_drop _ _).symm
        · exact ⟨[], [], ascii b, rfl, hl ▸ cleanLines_spec _, by simp⟩

/-- A car with two ECUs that report codes: two of the engine, three of the transmission. -/
def codesCar : Device := demo ([("03", "SEARCHING...\r7E9 10 08 43 03 01 08 02 00\r7E8 06 43 02 01 04 41 23\r7E9 21 C1 00 00 00 00 00 00")] ++ table)
def codesObd : OW := (ObdM.construct codesCar fl0 ["COM1".toList] none true {}).2
def codesLines : List Str :=
  ["SEARCHING...".toList, "7E9 10 08 43 03 01 08 02 00".toList, "7E8 06 43 02 01 04 41 23".toList, "7E9 21 C1 00 00 00 00 00 00".toList]
def codesSent (t : Nat) : List (UInt8 × UInt8) := if t = 0 then [(0x01, 0x04), (0x41, 0x23)] else [(0x01, 0x08), (0x02, 0x00), (0xC1, 0x00)]

theorem codes_reported : Reported .can11_500 0x43 codesLines [0, 1] codesSent where
  sorted := by decide
  mem := by
    intro t
    have h1 : codesLines.filterMap (lineFrame? .can11_500) = [(1, [0x10, 8, 0x43, 3, 1, 8, 2, 0]), (0, [6, 0x43, 2, 1, 4, 0x41, 0x23]),
      (1, [0x21, 0xC1, 0, 0, 0, 0, 0, 0])] := by decide +kernel
    unfold framesBy
    rw [h1]
    by_cases h0 : t = 0
    · subst h0; simp
    · by_cases h1 : t = 1
      · subst h1; simp
      · have e0 : (0 == t) = false := by simpa using fun h => h0 h.symm
        have e1 : (1 == t) = false := by simpa using fun h => h1 h.symm
        simp [e0, e1, h0, h1]
  some_ecu := by decide
  reports := by
    intro t ht
    simp only [List.mem_cons, List.not_mem_nil, or_false] at ht
    rcases ht with rfl | rfl
    · exact .can 11 rfl (.single (.e11 0) (Or.inl rfl) rfl [] (by decide) (by decide) "7E8 06 43 02 01 04 41 23".toList
        (by unfold CanLine Spells; decide +kernel) (by decide +kernel)) (by decide)
    · exact .can 11 rfl (.segmented (.e11 1) (Or.inl rfl) rfl [0, 0, 0, 0, 0] ⟨by decide, by decide, by decide⟩
        [("7E9 10 08 43 03 01 08 02 00".toList, 0), ("7E9 21 C1 00 00 00 00 00 00".toList, 1)]
        (by unfold Received CanLine Spells; decide +kernel) (by decide) (by decide +kernel)) (by decide)
  nonzero := by
    intro t ht
    simp only [List.mem_cons, List.not_mem_nil, or_false] at ht
    rcases ht with rfl | rfl <;> decide

/-- Everything that C68 asks for happens with this car. -/
example : Constructed codesCar fl0 { ports := ["COM1".toList] } codesObd ∧ status codesObd = .carConnected ∧
    (∃ c res s', byName "GET_DTC" = some c ∧ query codesCar fl0 c true codesObd = (.ok res, s') ∧
      (∃ cs, res.value = .dtcs cs ∧ cs.map Prod.fst = ["P0104".toList, "C0123".toList, "P0108".toList, "P0200".toList, "U0100".toList])) := by
  refine ⟨constructed_of (by decide +kernel), by decide +kernel, ?_⟩
  have h : (byName "GET_DTC").map (fun c => (query codesCar fl0 c true codesObd).1.toOption.map (fun r => match r.value with | .dtcs cs => cs.map Prod.fst | _ => [])) =
      some (some ["P0104".toList, "C0123".toList, "P0108".toList, "P0200".toList, "U0100".toList]) := by decide +kernel
  cases hb : byName "GET_DTC" with
  | none => rw [hb] at h; cases h
  | some c =>
    rw [hb] at h
    simp only [Option.map_some, Option.some.injEq] at h
    cases hq : query codesCar fl0 c true codesObd with
    | mk out s' =>
      rw [hq] at h
      cases out with
      | error x => cases h
      | ok res =>
        simp only [Except.toOption, Option.map_some, Option.some.injEq] at h
        refine ⟨c, res, s', rfl, hq, ?_⟩
        split at h
        · next cs hv => exact ⟨cs, hv, h⟩
        · cases h

/-- An older car (J1850 VPW) with one pending code, P0104. -/
def oldCar : Device := demo ([("0100", "48 6B 10 41 00 00 10 00 00 55"), ("ATDPN", "A2"), ("07", "48 6B 10 47 01 04 00 00 00 00 55"),
  ("03", "48 6B 10 43 01 04 00 00 00 00 55")] ++ table)
def oldObd : OW := (ObdM.construct oldCar fl0 ["COM1".toList] none true {}).2
def oldLines : List Str := ["48 6B 10 47 01 04 00 00 00 00 55".toList]

theorem old_reported : Reported .j1850vpw 0x47 oldLines [0x10] (fun _ => [(0x01, 0x04)]) where
  sorted := by decide
  mem := by
    intro t
    have h1 : oldLines.filterMap (lineFrame? .j1850vpw) = [(0x10, [0x47, 1, 4, 0, 0, 0, 0])] := by decide +kernel
    unfold framesBy
    rw [h1]
    by_cases h0 : t = 0x10
    · subst h0; simp
    · have e0 : (0x10 == t) = false := by simpa using fun h => h0 h.symm
      simp [e0, h0]
  some_ecu := by decide
  reports := by
    intro t ht
    rw [List.mem_singleton] at ht
    subst ht
    exact .legacy (Or.inr (Or.inl rfl)) [[1, 4, 0, 0, 0, 0]] (by decide) (by decide) 4 (by decide) (by decide +kernel)
  nonzero := by
    intro t _ c hc
    rw [List.mem_singleton] at hc
    subst hc; decide

/-- On the older protocols the decoder takes the first byte of the first code for the number of
codes: P0104 becomes P0400. -/
theorem C69_refuted : ¬ C69_full := by
  intro h
  have hc : Constructed oldCar fl0 { ports := ["COM1".toList] } oldObd := constructed_of (by decide +kernel)
  obtain ⟨p, r, h1, h2⟩ := h oldCar fl0 _ oldObd hc (by decide +kernel)
  have hp : p = .j1850vpw := by
    obtain ⟨pre, evs, later, rate, xs, -, -, -, hp⟩ := h1
    have : protocolOf oldObd = some .j1850vpw := by decide +kernel
    rw [this] at hp
    injection hp with hp
    exact hp.symm
  subst hp
  obtain ⟨c, res, s', g1, g2, g3, g4, g5, g6⟩ := nameRun_spec (dev := oldCar) (name := "GET_CURRENT_DTC") (cmd := "07") (s := oldObd)
    (v := .dtcs [("P0400".toList, "Exhaust Gas Recirculation Flow".toList)])
    (b := "48 6B 10 47 01 04 00 00 00 00 55\r\r>") (lines := oldLines) (by decide +kernel) (by decide +kernel) (by decide +kernel)
  obtain ⟨res', cs, hres, hv, hcs⟩ := h2 [] c true _ _ _ _ _ [0x10] (fun _ => [(0x01, 0x04)]) g1 g2 g4 g5 (Or.inr g6) old_reported
  cases hres
  rw [g3] at hv
  injection hv with hv
  subst hv
  simp only [List.flatMap_cons, List.flatMap_nil, List.append_nil] at hcs
  cases hcs with
  | cons h _ =>
    have := (C31_unambiguous _ _ _ _ _ h.1 (show Denotes "P0400".toList 0x04 0x00 from codeOf_denotes 0x04 0x00)).1
    revert this; decide

/-! ## C70: what an empty list means -/

/-- C70 in full: a list of trouble codes, even an empty one, means that an ECU answered the request
(mode byte 43 or 47). -/
def C70_full : Prop :=
  ∀ (dev : Device) (fl : Str → Option PyFloat) (s : OW), Reachable dev fl s → ∀ (c : OBDCommand) (force : Bool) (r : Response) (s' : OW),
    (byName "GET_DTC" = some c ∨ byName "GET_CURRENT_DTC" = some c) → query dev fl c force s = (.ok r, s') → r.isNull = false →
    ∃ m ∈ r.messages, m.data.head? = some 0x43 ∨ m.data.head? = some 0x47

theorem dtc_attrs {c : OBDCommand} (hn : byName "GET_DTC" = some c ∨ byName "GET_CURRENT_DTC" = some c) : c.bytes = 0 ∧ c.decode = .dtc := by
  have hattr : ∀ n ∈ ["GET_DTC", "GET_CURRENT_DTC"], (byName n).map (fun c => (c.bytes, match c.decode with | .dtc => true | _ => false)) =
      some (0, true) := by
    decide +kernel
  have : (c.bytes, match c.decode with | .dtc => true | _ => false) = (0, true) := by
    rcases hn with h | h
    · have := hattr "GET_DTC" (by simp)
      rw [h] at this
      simpa using this
    · have := hattr "GET_CURRENT_DTC" (by simp)
      rw [h] at this
      simpa using this
  simp only [Prod.mk.injEq] at this
  refine ⟨this.1, ?_⟩
  have h3 := this.2
  split at h3 <;> simp_all

/-- What happens instead: any reply that consists of text of the adapter only, such as NO DATA,
CAN ERROR or UNABLE TO CONNECT, gives the empty list, as if there were no trouble codes. -/
theorem C70_text (dev : Device) (fl : Str → Option PyFloat) (a : Args) (s0 : OW) (hc : Constructed dev fl a s0) (hs : status s0 = .carConnected)
    (calls : List Call) (c : OBDCommand) (force : Bool) (out : Except Exc Response) (s' : OW) (evs : History) (cmd : Bytes) (lines : List Str)
    (hn : byName "GET_DTC" = some c ∨ byName "GET_CURRENT_DTC" = some c)
    (hq : query dev fl c force (session dev fl calls s0) = (out, s')) (hh : s'.hist = (session dev fl calls s0).hist ++ evs)
    (he : Ends evs cmd lines) (hcmd : cmd = [] ∨ CommandString c cmd) (hne : lines ≠ []) (ht : ∀ l ∈ lines, NotHex l) :
    ∃ r, out = .ok r ∧ r.value = .dtcs [] ∧ r.isNull = false ∧ r.messages.map Message.raw = lines := by
  obtain ⟨r, o, h1, hu, hi, hqq⟩ := connected_query hc hs
  have hattr : ∀ n ∈ ["GET_DTC", "GET_CURRENT_DTC"], (byName n).map (fun c => (c.ecu, c.bytes, match c.decode with | .dtc => true | _ => false)) =
      some (ECU.all, 0, true) := by
    decide +kernel
  have hmem : c ∈ allCommands := by
    rcases hn with h | h <;> exact mem_of_byName h
  have hat : c.ecu = ECU.all ∧ c.bytes = 0 ∧ c.decode = .dtc := by
    have : (c.ecu, c.bytes, match c.decode with | .dtc => true | _ => false) = (ECU.all, 0, true) := by
      rcases hn with h | h
      · have := hattr "GET_DTC" (by simp)
        rw [h] at this
        simpa using this
      · have := hattr "GET_CURRENT_DTC" (by simp)
        rw [h] at this
        simpa using this
    simp only [Prod.mk.injEq] at this
    refine ⟨this.1, this.2.1, ?_⟩
    have h3 := this.2.2
    split at h3 <;> simp_all
  rw [hqq calls c force out s' evs cmd lines hq hh he (table_not_header hmem hcmd _)]
  have hparse : ∃ ms, o.cls.call o.ecuMap lines = .ok ms ∧ (∀ m ∈ ms, m.data = []) ∧ ms.map Message.raw = lines := by
    have hno : ∀ l ∈ lines, lineFrame? o.cls l = none := by
      intro l hl
      exact lineFrame?_notHex o.cls (ht l hl)
    have hfr : ∀ t, framesBy o.cls t lines = [] := by
      intro t
      unfold framesBy
      rw [List.filterMap_eq_nil_iff.2 hno]; rfl
    cases hms : o.cls.call o.ecuMap lines with
    | error e =>
      exfalso
      obtain ⟨t, e', he⟩ := (C11_raises_iff o.cls hu o.ecuMap lines).1 ⟨e, hms⟩
      rw [silent_lines (hfr t)] at he
      have := call_empty ⟨o.cls, o.ecuMap⟩
      rw [show o.cls.call o.ecuMap [] = .ok [] from this] at he
      cases he
    | ok ms =>
      have hnone : ∀ m ∈ ms, m.txId = none := by
        intro m hm
        cases htx : m.txId with
        | none => rfl
        | some t =>
          have h2 := silent_message hu (hfr t) o.ecuMap ms hms
          have hx : m ∈ ms.filter (fun m => m.txId == some t) := List.mem_filter.2 ⟨hm, by simp [htx]⟩
          rw [h2] at hx; cases hx
      have hdata : ∀ m ∈ ms, m.data = [] := by
        intro m hm
        by_contra hd
        obtain ⟨t, h2⟩ := C10_has_sender o.cls hu o.ecuMap lines ms hms m hm hd
        rw [hnone m hm] at h2; cases h2
      refine ⟨ms, rfl, hdata, ?_⟩
      obtain ⟨ecus, chat, rfl, h3, h4, h5⟩ := C12_chatter o.cls o.ecuMap lines ms hms
      have : ecus = [] := by
        by_contra hne
        obtain ⟨m, hm⟩ := List.exists_mem_of_ne_nil _ hne
        have htx := hnone m (List.mem_append_left _ hm)
        cases hf : m.frames with
        | nil =>
          exact call_frames (o := o) hms m (List.mem_append_left _ hm) hf
        | cons f fs =>
          obtain ⟨s, hs, hx, -⟩ := h5 m hm f (by rw [hf]; simp)
          exact hx (ht s hs)
      subst this
      rw [List.nil_append, h3, List.filter_eq_self]
      intro l hl
      simpa using ht l hl
  obtain ⟨ms, h2, h3, h4⟩ := hparse
  have hmsne : ms ≠ [] := by
    rintro rfl
    exact hne h4.symm
  rw [show o.call lines = .ok ms from h2]
  simp only [if_neg hmsne]
  have hrun : Decoder.run fl .dtc ms = .ok (.dtcs []) := by
    obtain ⟨cs, g1, g2⟩ := C32_concatenated fl ms
    have : ms.flatMap (fun m => m.data.drop 2) = [] := by
      rw [List.flatMap_eq_nil_iff]
      intro m hm
      rw [h3 m hm]; rfl
    rw [this] at g2
    cases g2
    exact g1
  refine ⟨{ command := some c, messages := ms, value := .dtcs [] }, ?_, rfl, ?_, h4⟩
  · rw [call_all hi (show o.call lines = .ok ms from h2) fl c hat.1 hat.2.1 hmsne, hat.2.2, hrun]
  · unfold Response.isNull
    cases ms with
    | nil => exact absurd rfl hmsne
    | cons m ms => rfl

/-- The demo car does not know mode 03 and says so: an empty list, with the adapter's text. -/
example : (byName "GET_DTC").map (fun c => match (query (demo (("03", "NO DATA") :: table)) fl0 c true (ObdM.construct (demo (("03", "NO DATA") :: table)) fl0 ["COM1".toList] none true {}).2).1 with
      | .ok r => (decide (r.value = .dtcs []), r.isNull, r.messages.map Message.raw)
      | .error _ => (false, true, [])) = some (true, false, ["NO DATA".toList]) ∧ NotHex "NO DATA".toList := by
  constructor <;> decide +kernel

/-- A car whose ECUs do not answer. -/
def silentCar : Device := demo ([("03", "NO DATA")] ++ table)
def silentObd : OW := (ObdM.construct silentCar fl0 ["COM1".toList] none true {}).2

theorem C70_refuted : ¬ C70_full := by
  intro h
  have hc : Constructed silentCar fl0 { ports := ["COM1".toList] } silentObd := constructed_of (by decide +kernel)
  obtain ⟨c, res, s', g1, g2, g3, g4, g5, g6⟩ := nameRun_spec (dev := silentCar) (name := "GET_DTC") (cmd := "03") (s := silentObd)
    (v := .dtcs []) (b := "NO DATA\r\r>") (lines := ["NO DATA".toList]) (by decide +kernel) (by decide +kernel) (by decide +kernel)
  obtain ⟨r, h1, -, h3, h4⟩ := C70_text silentCar fl0 _ silentObd hc (by decide +kernel) [] c true _ _ _ _ _ (Or.inl g1) g2 g4 g5 (Or.inr g6)
    (by simp) (by decide +kernel)
  cases h1
  obtain ⟨m, hm, hd⟩ := h silentCar fl0 silentObd ⟨_, _, [], hc, rfl⟩ c true res s' (Or.inl g1) g2 h3
  have hresp : (byName "GET_DTC").map (fun c => (query silentCar fl0 c true silentObd).1.toOption.map (fun r => r.messages.map Message.data)) =
      some (some [[]]) := by decide +kernel
  rw [g1] at hresp
  simp only [Option.map_some, Option.some.injEq, g2, Except.toOption] at hresp
  have : m.data ∈ [([] : Bytes)] := by rw [← hresp]; exact List.mem_map.2 ⟨m, hm, rfl⟩
  rw [List.mem_singleton] at this
  rw [this] at hd
  rcases hd with hd | hd <;> cases hd

/-- What holds: codes that are listed were sent.  If the list is not empty, some ECU sent a message
that contains more than its first two bytes. -/
theorem C70_partial (dev : Device) (fl : Str → Option PyFloat) (s : OW) (hr : Reachable dev fl s) (c : OBDCommand) (force : Bool) (r : Response)
    (s' : OW) (hn : byName "GET_DTC" = some c ∨ byName "GET_CURRENT_DTC" = some c) (hq : query dev fl c force s = (.ok r, s'))
    (cs : List (Str × Str)) (hv : r.value = .dtcs cs) (hne : cs ≠ []) :
    ∃ e o evs cmd lines ms m t, s.interface = some e ∧ e.protocol = some o ∧ s'.hist = s.hist ++ evs ∧ Ends evs cmd lines ∧
      (cmd = [] ∨ CommandString c cmd) ∧ o.call lines = .ok ms ∧ m ∈ ms ∧ m.txId = some t ∧ 2 < m.data.length := by
  obtain rfl | ⟨e, o, evs, cmd, lines, ms, h1, h2, h3, h4, h5, h6, h7, h8⟩ := query_answer hr hq
  · cases hv
  refine ⟨e, o, evs, cmd, lines, ms, ?_⟩
  obtain ⟨a1, a2⟩ := dtc_attrs hn
  have hm : ∃ m ∈ ms, 2 < m.data.length := by
    rw [call_eq] at h8
    simp only at h8
    split at h8
    · cases h8; cases hv
    · obtain ⟨cs', g1, g2⟩ := C32_concatenated fl ((ms.filter (fun m => decide (Overlap c.ecu m.ecu))).map (fun m => { m with data := fit c.bytes m.data }))
      rw [a2, g1] at h8
      cases h8
      injection hv with hv
      subst hv
      by_contra hcon
      push Not at hcon
      have : ((ms.filter (fun m => decide (Overlap c.ecu m.ecu))).map (fun m => { m with data := fit c.bytes m.data })).flatMap (fun m => m.data.drop 2) = [] := by
        rw [List.flatMap_eq_nil_iff]
        intro m hm
        obtain ⟨m', hm', rfl⟩ := List.mem_map.1 hm
        have := hcon m' (List.mem_of_mem_filter hm')
        simp only [a1, fit, if_true, List.drop_eq_nil_iff]
        exact this
      rw [this] at g2
      cases g2
      exact hne rfl
  obtain ⟨m, hm, hlen⟩ := hm
  have hd : m.data ≠ [] := by intro h0; rw [h0] at hlen; cases hlen
  have hu : o.cls ≠ .unknown := by
    intro hu
    exact hd (unknown_data hu h6 m hm)
  obtain ⟨t, ht⟩ := C10_has_sender o.cls hu o.ecuMap lines ms h6 m hm hd
  exact ⟨m, t, h1, h2, h3, h4, h5, h6, hm, ht, hlen⟩

/-- And nothing is invented or left out: the listed codes are the pairs of bytes that follow the first two bytes of the messages
received in reply to this very request, taken together, without the pairs 00 00. -/
theorem C70_codes_partial (dev : Device) (fl : Str → Option PyFloat) (s : OW) (hr : Reachable dev fl s) (c : OBDCommand) (force : Bool) (r : Response)
    (s' : OW) (hn : byName "GET_DTC" = some c ∨ byName "GET_CURRENT_DTC" = some c) (hq : query dev fl c force s = (.ok r, s'))
    (cs : List (Str × Str)) (hv : r.value = .dtcs cs) :
    ∃ e o evs cmd lines ms, s.interface = some e ∧ e.protocol = some o ∧ s'.hist = s.hist ++ evs ∧ Ends evs cmd lines ∧
      (cmd = [] ∨ CommandString c cmd) ∧ o.call lines = .ok ms ∧ r.messages = ms.filter (fun m => decide (Overlap c.ecu m.ecu)) ∧
      List.Forall₂ Decoded (codePairs (r.messages.flatMap (fun m => m.data.drop 2))) cs := by
  obtain rfl | ⟨e, o, evs, cmd, lines, ms, h1, h2, h3, h4, h5, h6, h7, h8⟩ := query_answer hr hq
  · cases hv
  refine ⟨e, o, evs, cmd, lines, ms, h1, h2, h3, h4, h5, h6, ?_⟩
  obtain ⟨a1, a2⟩ := dtc_attrs hn
  have hid : (ms.filter (fun m => decide (Overlap c.ecu m.ecu))).map (fun m => { m with data := fit c.bytes m.data }) =
      ms.filter (fun m => decide (Overlap c.ecu m.ecu)) := by
    rw [a1]
    exact List.map_id' _
  rw [call_eq] at h8
  simp only [hid] at h8
  split at h8
  · cases h8; cases hv
  · obtain ⟨cs', g1, g2⟩ := C32_concatenated fl (ms.filter (fun m => decide (Overlap c.ecu m.ecu)))
    rw [a2, g1] at h8
    cases h8
    injection hv with hv
    subst hv
    exact ⟨rfl, g2⟩

/-- Both theorems apply to the car of C68: five codes from two ECUs (the third message is a line of text). -/
example : Reachable codesCar fl0 codesObd ∧ (byName "GET_DTC").map (fun c => (query codesCar fl0 c true codesObd).1.toOption.map (fun r =>
      ((match r.value with | .dtcs cs => cs.length | _ => 0), r.messages.map (fun m => (m.txId, m.data.length))))) = some (some (5, [(some 0, 6), (some 1, 8), (none, 0)])) :=
  ⟨⟨_, _, [], constructed_of (a := { ports := ["COM1".toList] }) (by decide +kernel), rfl⟩, by decide +kernel⟩

end Props
