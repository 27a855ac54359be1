import Verif.Props.TroubleCodes
import Verif.Props.Status
import Verif.Props.Monitor
import Verif.Props.Vin
/-!
# Check-engine light, VIN, monitor tests and freeze frames, from the question to the value (C72-C75)
-/
namespace Props
open Py Model Spec ObdM

/-- What a query to the engine gives: the decoder applied to a message with the bytes the engine said. -/
theorem engine_value (dev : Device) (fl : Str → Option PyFloat) (a : Args) (s0 : OW) (hc : Constructed dev fl a s0)
    (hs : status s0 = .carConnected) :
    ∃ (p : Proto) (r : List Str) (t : Nat), ConnectedTo fl a s0 p r ∧ EngineFor p r t ∧
      ∀ (calls : List Call) (c : OBDCommand) (force : Bool) (out : Except Exc Response) (s' : OW) (evs : History) (cmd : Bytes)
        (lines : List Str) (payload : Bytes), c ∈ allCommands → c.ecu = ECU.engine →
        query dev fl c force (session dev fl calls s0) = (out, s') → s'.hist = (session dev fl calls s0).hist ++ evs →
        Ends evs cmd lines → (cmd = [] ∨ CommandString c cmd) → ¬ Trips p lines → NoImpostor p t lines →
        payload.head? ≠ some 0x43 → Says p t payload lines →
        ∃ m, m.data = payload ∧ [m].filter (fun m => decide (Overlap c.ecu m.ecu)) = m :: [] ∧ out = c.call fl [m] ∧
          out.map Response.value = c.decode.run fl [{ m with data := fit c.bytes payload }] := by
  obtain ⟨p, r, t, h1, h2, h3⟩ := C61_partial dev fl a s0 hc hs
  refine ⟨p, r, t, h1, h2, ?_⟩
  intro calls c force out s' evs cmd lines payload hmem hecu hq hh he hcmd htr himp h43 hsay
  obtain ⟨m, hm1, hm2, -, hm4⟩ := h3 calls c force out s' evs cmd lines _ hmem hecu hq hh he hcmd htr himp h43 hsay
  have hfil : [m].filter (fun m => decide (Overlap c.ecu m.ecu)) = m :: [] := by
    rw [List.filter_cons_of_pos]
    · rfl
    · rw [hecu, hm2]; decide
  refine ⟨m, hm1, hfil, hm4, ?_⟩
  rw [hm4, call_value fl c [m] m [] hfil, hm1]
  rfl

/-- A successful outcome of a decoder is a response with that value. -/
theorem map_value {out : Except Exc Response} {v : Value} (h : out.map Response.value = .ok v) : ∃ res, out = .ok res ∧ res.value = v := by
  cases out with
  | error e => cases h
  | ok res => exact ⟨res, rfl, by injection h⟩

/-! ## C72: the check-engine light -/

/-- C72: on a connection to a car there is an ECU, the engine, such that whenever it answers a
STATUS query with the bytes A B C D (and the reply is not one on which the parser fails, and nobody
else uses the standard address of the engine, see C61), whatever other lines there are, the
response says: check-engine light on iff bit 7 of A is set, number of codes the low seven bits of A,
ignition type by bit 3 of B, and each monitor by its two bits. -/
theorem C72_check_engine (dev : Device) (fl : Str → Option PyFloat) (a : Args) (s0 : OW) (hc : Constructed dev fl a s0)
    (hs : status s0 = .carConnected) :
    ∃ (p : Proto) (r : List Str) (t : Nat), ConnectedTo fl a s0 p r ∧ EngineFor p r t ∧
      ∀ (calls : List Call) (c : OBDCommand) (force : Bool) (out : Except Exc Response) (s' : OW) (evs : History) (cmd : Bytes)
        (lines : List Str) (A B C D : UInt8), byName "STATUS" = some c →
        query dev fl c force (session dev fl calls s0) = (out, s') → s'.hist = (session dev fl calls s0).hist ++ evs →
        Ends evs cmd lines → (cmd = [] ∨ CommandString c cmd) → ¬ Trips p lines → NoImpostor p t lines →
        Says p t [0x41, 0x01, A, B, C, D] lines →
        ∃ res st, out = .ok res ∧ res.value = .status st ∧
          st.mil = bitOf A 7 ∧ st.dtcCount = A.toNat % 128 ∧
          st.ignitionType = (if bitOf B 3 then "compression" else "spark") ∧
          (∀ e ∈ baseMonitors, testOf st e.1 =
            some { name := some e.1, available := bitOf B e.2, complete := !bitOf B (e.2 + 4) }) ∧
          (∀ e ∈ ownMonitors (bitOf B 3), testOf st e.1 =
            some { name := some e.1, available := bitOf C e.2, complete := !bitOf D e.2 }) ∧
          (∀ e ∈ otherMonitors (bitOf B 3), e.1 ∉ (ownMonitors (bitOf B 3)).map Prod.fst → ∃ n, testOf st e.1 =
            some { name := n, available := false, complete := false }) := by
  obtain ⟨p, r, t, h1, h2, h3⟩ := engine_value dev fl a s0 hc hs
  refine ⟨p, r, t, h1, h2, ?_⟩
  intro calls c force out s' evs cmd lines A B C D hb hq hh he hcmd htr himp hsay
  have hattr : (byName "STATUS").map (fun c => (c.ecu, c.bytes, match c.decode with | .status => true | _ => false)) = some (ECU.engine, 6, true) := by
    decide +kernel
  rw [hb] at hattr
  simp only [Option.map_some, Option.some.injEq, Prod.mk.injEq] at hattr
  obtain ⟨a1, a2, a3⟩ := hattr
  have a3 : c.decode = .status := by split at a3 <;> simp_all
  obtain ⟨m, hm1, -, -, hm4⟩ := h3 calls c force out s' evs cmd lines _ (mem_of_byName hb) a1 hq hh he hcmd htr himp (by simp) hsay
  rw [a2, a3] at hm4
  obtain ⟨st, g1, g2⟩ := C34_status fl { m with data := fit 6 [0x41, 0x01, A, B, C, D] } [] 0x41 0x01 A B C D [] rfl
  rw [g1] at hm4
  obtain ⟨res, e1, e2⟩ := map_value hm4
  exact ⟨res, st, e1, e2, g2⟩

/-- No frame of the lines begins like a trouble code message. -/
def calm (p : Proto) (lines : List Str) : Bool :=
  (lines.filterMap (lineFrame? p)).all (fun x => decide ((15 < (x.2.headD 0).toNat ∨ x.2[1]? ≠ some 0x43) ∧ (isFirst x.2 = true → x.2[2]? ≠ some 0x43 ∧ 3 ≤ x.2.length)))

theorem not_trips_of_calm {p : Proto} {n : Nat} (hp : p.family = .can n) {lines : List Str} (h : calm p lines = true) : ¬ Trips p lines := by
  have hf : ∀ t, ∀ d ∈ framesBy p t lines, (15 < (d.headD 0).toNat ∨ d[1]? ≠ some 0x43) ∧
      (isFirst d = true → d[2]? ≠ some 0x43 ∧ 3 ≤ d.length) := by
    intro t d hd
    unfold framesBy at hd
    obtain ⟨x, hx, rfl⟩ := List.mem_map.1 hd
    exact of_decide_eq_true (List.all_eq_true.1 h x (List.mem_filter.1 hx).1)
  rintro (⟨n, t, -, h⟩ | ⟨h, -⟩)
  · cases h with
    | single a rest h ha hd =>
      obtain ⟨g1, -⟩ := hf t (a :: rest) (by rw [h]; simp)
      have g1 : (a :: rest)[1]? ≠ some 0x43 := by
        rcases g1 with g1 | g1
        · exact absurd ha.2 (by simpa using g1)
        · exact g1
      cases rest with
      | nil => simp at hd
      | cons b rest =>
        obtain ⟨k, hk⟩ : ∃ k, a.toNat = k + 1 := ⟨a.toNat - 1, by omega⟩
        rw [hk, List.take_succ_cons] at hd
        injection hd with hd
        exact g1 (by rw [← hd]; rfl)
    | segmented first bs cfs h1 h2 h3 h4 h5 hd =>
      have : first ∈ (framesBy p t lines).filter isFirst := by rw [h1]; simp
      obtain ⟨this, hfirst⟩ := List.mem_filter.1 this
      obtain ⟨g2, g3⟩ := (hf t first this).2 hfirst
      clear h1 h2 h3 h4 h5 this hfirst
      match first, g2, g3 with
      | x :: y :: z :: w, g2, _ =>
        simp only [List.drop_succ_cons, List.drop_zero, List.cons_append] at hd
        generalize announced (x :: y :: z :: w) = k at hd
        cases k with
        | zero => simp at hd
        | succ k =>
          rw [List.take_succ_cons] at hd
          injection hd with hd
          exact g2 (by rw [← hd]; rfl)
  · rw [hp] at h; cases h

/-- A car: the light is on, three codes, a spark ignition engine; the transmission says otherwise, on the
same bus, and the adapter adds a line. -/
def lightCar : Device := demo ([("0101", "SEARCHING...\r7E9 06 41 01 00 00 00 00\r7E8 06 41 01 83 07 FF 00")] ++ table)
def lightObd : OW := (ObdM.construct lightCar fl0 ["COM1".toList] none true {}).2
def lightLines : List Str := ["SEARCHING...".toList, "7E9 06 41 01 00 00 00 00".toList, "7E8 06 41 01 83 07 FF 00".toList]


/-- Everything that C72 asks for happens with this car. -/
example : Constructed lightCar fl0 { ports := ["COM1".toList] } lightObd ∧ status lightObd = .carConnected ∧
    protocolOf lightObd = some .can11_500 ∧ ¬ Trips .can11_500 lightLines ∧ NoImpostor .can11_500 0 lightLines ∧
    Says .can11_500 0 [0x41, 0x01, 0x83, 0x07, 0xFF, 0x00] lightLines ∧
    (nameRun lightCar "STATUS" lightObd).map (fun x => (x.1.map (fun v => match v with
      | .status st => (st.mil, st.dtcCount, st.ignitionType)
      | _ => (false, 0, "")), x.2)) =
      some (some (true, 3, "spark"), lightObd.hist,
        nameEvents "0101" "SEARCHING...\r7E9 06 41 01 00 00 00 00\r7E8 06 41 01 83 07 FF 00\r\r>") := by
  refine ⟨constructed_of (by decide +kernel), by decide +kernel, by decide +kernel, not_trips_of_calm rfl (by decide +kernel), ?_, ?_, by decide +kernel⟩
  · intro e he hne
    cases he
    exact absurd rfl hne
  · exact .single (.e11 0) (Or.inl rfl) rfl [] (by simp) (by simp) "7E8 06 41 01 83 07 FF 00".toList (by unfold CanLine Spells; decide +kernel)
      (by decide +kernel)

/-! ## C73: the vehicle identification number -/

/-- C73 in full: whenever the engine answers a VIN query with a 17-character VIN, in the way of CAN or in
that of the older protocols, the response is this VIN. -/
def C73_full : Prop :=
  ∀ (dev : Device) (fl : Str → Option PyFloat) (a : Args) (s0 : OW), Constructed dev fl a s0 → status s0 = .carConnected →
    ∃ (p : Proto) (r : List Str) (t : Nat), ConnectedTo fl a s0 p r ∧ EngineFor p r t ∧
      ∀ (calls : List Call) (c : OBDCommand) (force : Bool) (out : Except Exc Response) (s' : OW) (evs : History) (cmd : Bytes)
        (lines : List Str) (can : Bool) (vin : Bytes), byName "VIN" = some c →
        query dev fl c force (session dev fl calls s0) = (out, s') → s'.hist = (session dev fl calls s0).hist ++ evs →
        Ends evs cmd lines → (cmd = [] ∨ CommandString c cmd) → ¬ Trips p lines → NoImpostor p t lines →
        IsVin vin → Says p t (vinReply can vin) lines →
        ∃ res, out = .ok res ∧ res.value = .bytes vin

/-- What holds: the response is the VIN without the digits 0, 1 and 2 at its ends, hence the VIN itself
if there are none. -/
theorem C73_partial (dev : Device) (fl : Str → Option PyFloat) (a : Args) (s0 : OW) (hc : Constructed dev fl a s0)
    (hs : status s0 = .carConnected) :
    ∃ (p : Proto) (r : List Str) (t : Nat), ConnectedTo fl a s0 p r ∧ EngineFor p r t ∧
      ∀ (calls : List Call) (c : OBDCommand) (force : Bool) (out : Except Exc Response) (s' : OW) (evs : History) (cmd : Bytes)
        (lines : List Str) (can : Bool) (vin : Bytes), byName "VIN" = some c →
        query dev fl c force (session dev fl calls s0) = (out, s') → s'.hist = (session dev fl calls s0).hist ++ evs →
        Ends evs cmd lines → (cmd = [] ∨ CommandString c cmd) → ¬ Trips p lines → NoImpostor p t lines →
        IsVin vin → Says p t (vinReply can vin) lines →
        (∃ res short, out = .ok res ∧ res.value = .bytes short ∧ Trimmed digit012 vin short) ∧
        ((∀ b, vin.head? = some b → digit012 b = false) → (∀ b, vin.getLast? = some b → digit012 b = false) →
          ∃ res, out = .ok res ∧ res.value = .bytes vin) := by
  obtain ⟨p, r, t, h1, h2, h3⟩ := engine_value dev fl a s0 hc hs
  refine ⟨p, r, t, h1, h2, ?_⟩
  intro calls c force out s' evs cmd lines can vin hb hq hh he hcmd htr himp hvin hsay
  have hattr : (byName "VIN").map (fun c => c.ecu) = some ECU.engine := by decide +kernel
  rw [hb] at hattr
  simp only [Option.map_some, Option.some.injEq] at hattr
  obtain ⟨m, hm1, hm2, hm3, -⟩ := h3 calls c force out s' evs cmd lines _ (mem_of_byName hb) hattr hq hh he hcmd htr himp
    (by cases can <;> simp [vinReply]) hsay
  constructor
  · obtain ⟨short, g1, g2⟩ := C37_vin_partial fl c hb [m] m [] hm2 can vin hvin hm1
    rw [← hm3] at g2
    obtain ⟨res, e1, e2⟩ := map_value g2
    exact ⟨res, short, e1, e2, g1⟩
  · intro hh hl
    have g2 := C37_kept_partial fl c hb [m] m [] hm2 can vin hvin hm1 hh hl
    rw [← hm3] at g2
    exact map_value g2

/-- An American car, VIN 1HGCM82633A004352, and a French one, VIN VF1BB05CF3600123X. -/
def usCar : Device := demo ([("0902", "7E8 10 14 49 02 01 31 48 47\r7E8 21 43 4D 38 32 36 33 33\r7E8 22 41 30 30 34 33 35 32")] ++ table)
def usObd : OW := (ObdM.construct usCar fl0 ["COM1".toList] none true {}).2
def usLines : List Str := ["7E8 10 14 49 02 01 31 48 47".toList, "7E8 21 43 4D 38 32 36 33 33".toList, "7E8 22 41 30 30 34 33 35 32".toList]
def frCar : Device := demo ([("0902", "7E8 10 14 49 02 01 56 46 31\r7E8 21 42 42 30 35 43 46 33\r7E8 22 36 30 30 31 32 33 58")] ++ table)
def frObd : OW := (ObdM.construct frCar fl0 ["COM1".toList] none true {}).2
def frLines : List Str := ["7E8 10 14 49 02 01 56 46 31".toList, "7E8 21 42 42 30 35 43 46 33".toList, "7E8 22 36 30 30 31 32 33 58".toList]

theorem us_says : Says .can11_500 0 (vinReply true usVin) usLines :=
  .segmented (.e11 0) (Or.inl rfl) rfl [] ⟨by decide, by decide, by decide⟩
    [("7E8 10 14 49 02 01 31 48 47".toList, 0), ("7E8 21 43 4D 38 32 36 33 33".toList, 1), ("7E8 22 41 30 30 34 33 35 32".toList, 2)]
    (by unfold Received CanLine Spells; decide +kernel) (by decide) (by decide +kernel)

theorem fr_says : Says .can11_500 0 (vinReply true frVin) frLines :=
  .segmented (.e11 0) (Or.inl rfl) rfl [] ⟨by decide, by decide, by decide⟩
    [("7E8 10 14 49 02 01 56 46 31".toList, 0), ("7E8 21 42 42 30 35 43 46 33".toList, 1), ("7E8 22 36 30 30 31 32 33 58".toList, 2)]
    (by unfold Received CanLine Spells; decide +kernel) (by decide) (by decide +kernel)

/-- Everything that C73 asks for happens with these cars. -/
example : Constructed frCar fl0 { ports := ["COM1".toList] } frObd ∧ status frObd = .carConnected ∧
    protocolOf frObd = some .can11_500 ∧ ¬ Trips .can11_500 frLines ∧ NoImpostor .can11_500 0 frLines ∧
    IsVin frVin ∧ Says .can11_500 0 (vinReply true frVin) frLines ∧
    nameRun frCar "VIN" frObd = some (some (.bytes frVin), frObd.hist,
        nameEvents "0902" "7E8 10 14 49 02 01 56 46 31\r7E8 21 42 42 30 35 43 46 33\r7E8 22 36 30 30 31 32 33 58\r\r>") := by
  refine ⟨constructed_of (by decide +kernel), by decide +kernel, by decide +kernel, not_trips_of_calm rfl (by decide +kernel), ?_,
    ⟨by decide, by decide⟩, fr_says, by decide +kernel⟩
  intro e he hne
  cases he
  exact absurd rfl hne

/-- Which ECU is the engine, if only the ECU with the address 0 answered `0100`. -/
theorem engine_zero {fl : Str → Option PyFloat} {a : Args} {s : OW} {p : Proto} {r : List Str} {t : Nat} (h1 : ConnectedTo fl a s p r)
    (h2 : EngineFor p r t) (hp : protocolOf s = some .can11_500) {reply : List Str} (hr : (repliesTo (ascii "0100") s.hist).all (· == reply) = true)
    (hm : (match Proto.can11_500.call Proto.can11_500.defaultMap reply with
      | .ok ms => ms.map (fun m => (m.txId, m.data.isEmpty))
      | .error _ => []) = [(some 0, false)]) : p = .can11_500 ∧ t = 0 := by
  have hp' : p = .can11_500 := by
    obtain ⟨pre, evs, later, rate, xs, -, -, -, hp'⟩ := h1
    rw [hp] at hp'
    injection hp' with hp'
    exact hp'.symm
  subst hp'
  refine ⟨rfl, ?_⟩
  have hr' : r = reply := by simpa using List.all_eq_true.1 hr _ (mem_repliesTo (connectedTo_replied h1))
  subst hr'
  obtain ⟨ms, hms, hE⟩ := h2
  rw [hms] at hm
  simp only at hm
  have hlen : ms.length = 1 := by simpa using congrArg List.length hm
  obtain ⟨m, rfl⟩ := List.length_eq_one_iff.1 hlen
  simp only [List.map_cons, List.map_nil, List.cons.injEq, Prod.mk.injEq, and_true] at hm
  rcases hE with hE | ⟨hE, -⟩
  · obtain ⟨d, m', hm', h3, -⟩ := hE.answered
    rw [List.mem_singleton] at hm'
    subst hm'
    rw [hm.1] at h3
    injection h3 with h3
    exact h3.symm
  · exact absurd ⟨m, by simp, hm.1, rfl, by simpa using hm.2⟩ (hE 0 m.data)

theorem C73_refuted : ¬ C73_full := by
  intro h
  have hc : Constructed usCar fl0 { ports := ["COM1".toList] } usObd := constructed_of (by decide +kernel)
  obtain ⟨p, r, t, h1, h2, h3⟩ := h usCar fl0 _ usObd hc (by decide +kernel)
  obtain ⟨rfl, rfl⟩ := engine_zero h1 h2 (by decide +kernel) (reply := ["7E8 06 41 00 00 10 00 00".toList]) (by decide +kernel) (by decide +kernel)
  obtain ⟨c, res, s', g1, g2, g3, g4, g5, g6⟩ := nameRun_spec (dev := usCar) (name := "VIN") (cmd := "0902") (s := usObd)
    (v := .bytes (ascii "HGCM82633A00435"))
    (b := "7E8 10 14 49 02 01 31 48 47\r7E8 21 43 4D 38 32 36 33 33\r7E8 22 41 30 30 34 33 35 32\r\r>") (lines := usLines)
    (by decide +kernel) (by decide +kernel) (by decide +kernel)
  obtain ⟨res', hres, hv⟩ := h3 [] c true _ _ _ _ _ true usVin g1 g2 g4 g5 (Or.inr g6) (not_trips_of_calm rfl (by decide +kernel))
    (fun e he hne => by cases he; exact absurd rfl hne) ⟨by decide, by decide⟩ us_says
  cases hres
  rw [g3] at hv
  exact absurd hv (by decide +kernel)

/-! ## C74: the monitor tests -/

/-- C74 in full: every result of a monitor test that an ECU sends, in an answer of its own to the
query of a monitor command, is found in the response (if the ECU does not send another result for the
same test ID later in the message). -/
def C74_full : Prop :=
  ∀ (dev : Device) (fl : Str → Option PyFloat) (a : Args) (s0 : OW), Constructed dev fl a s0 → status s0 = .carConnected →
    ∃ (p : Proto) (r : List Str), ConnectedTo fl a s0 p r ∧
      ∀ (calls : List Call) (c : OBDCommand) (force : Bool) (out : Except Exc Response) (s' : OW) (evs : History) (cmd : Bytes)
        (lines : List Str) (t : Nat) (body : Bytes), c ∈ allCommands → c.decode = .monitor →
        query dev fl c force (session dev fl calls s0) = (out, s') → s'.hist = (session dev fl calls s0).hist ++ evs →
        Ends evs cmd lines → (cmd = [] ∨ CommandString c cmd) → ¬ Trips p lines → Says p t (0x46 :: body) lines →
        ∃ res mon, out = .ok res ∧ res.value = .monitor mon ∧
          ∀ pre b post, blocks body = pre ++ b :: post → b.known = true → (∀ b' ∈ post, b'.known = true → b'.tid ≠ b.tid) →
            ∃ test ∈ mon.allTests, Reports b test

theorem monitor_attrs : ∀ c ∈ allCommands, c.decode = .monitor → c.ecu = ECU.all ∧ c.bytes = 0 := by
  have h : allCommands.all (fun c => match c.decode with | .monitor => decide (c.ecu = ECU.all ∧ c.bytes = 0) | _ => true) = true := by
    decide +kernel
  intro c hc hd
  have := List.all_eq_true.1 h c hc
  rw [hd] at this
  exact of_decide_eq_true this

/-- The first message is that of the lowest address. -/
theorem lowest_first {p : Proto} (hp : p ≠ .unknown) {map : Dict (Option Nat) Nat} {lines : List Str} {ms : List Message} (hms : p.call map lines = .ok ms)
    {t : Nat} (hlow : ∀ t' < t, framesBy p t' lines = []) {m : Message} (hm : m ∈ ms) (ht : m.txId = some t)
    (huniq : ms.filter (fun m => m.txId == some t) = [m]) : ∃ rest, ms = m :: rest := by
  have hord := C11_order p map lines ms hms
  obtain ⟨-, hE⟩ := (call_ok_iff p map lines ms).1 hms
  have htx : ∀ x ∈ ecuMessages p map (framesOf p lines), ∃ t', x.txId = some t' := by
    intro x hx
    unfold ecuMessages at hx
    obtain ⟨t', ht', hx⟩ := List.mem_filterMap.1 hx
    obtain ⟨f, hf, hft⟩ := (mem_txs _ _).1 ht'
    obtain ⟨_, t2, ht2⟩ := framesOf_good p hp lines f hf
    split at hx
    · injection hx with hx
      subst hx
      rw [ecuMessage_txId _ _ _ _ (fun h0 => (fromTx_empty.1 h0) ht'), ← hft]
      exact ⟨t2, ht2⟩
    · cases hx
  have hch : ∀ x ∈ (nonObdLines lines).map chatter, x.txId = none := by
    intro x hx
    obtain ⟨l, -, rfl⟩ := List.mem_map.1 hx
    rfl
  cases hl : ecuMessages p map (framesOf p lines) with
  | nil =>
    rw [hl, List.nil_append] at hE
    rw [hE] at hm
    rw [hch m hm] at ht; cases ht
  | cons x l =>
    obtain ⟨t', ht'⟩ := htx x (by rw [hl]; simp)
    rw [hl, List.cons_append] at hE
    have hx : x ∈ ms := by rw [hE]; simp
    have hge : ¬ t' < t := by
      intro hlt
      have := silent_message hp (hlow t' hlt) map ms hms
      have hmm : x ∈ ms.filter (fun m => m.txId == some t') := List.mem_filter.2 ⟨hx, by simp [ht']⟩
      rw [this] at hmm; cases hmm
    have hle : t' ≤ t := by
      rw [hE, List.filterMap_cons_some ht', List.pairwise_cons] at hord
      rw [hE] at hm
      rcases List.mem_cons.1 hm with rfl | hm
      · rw [ht] at ht'; cases ht'; omega
      · have := hord.1 t (List.mem_filterMap.2 ⟨m, hm, ht⟩)
        omega
    have : t' = t := by omega
    subst this
    have hmm : x ∈ ms.filter (fun m => m.txId == some t') := List.mem_filter.2 ⟨hx, by simp [ht']⟩
    rw [huniq, List.mem_singleton] at hmm
    subst hmm
    exact ⟨_, hE⟩

/-- The last element with a property. -/
theorem last_split {α : Type} {P : α → Prop} (x : α) : ∀ (l : List α), x ∈ l → P x → ∃ pre y post, l = pre ++ y :: post ∧ P y ∧ ∀ z ∈ post, ¬ P z
  | y :: l, hx, hp => by
    by_cases h : ∃ z ∈ l, P z
    · obtain ⟨z, hz, hpz⟩ := h
      obtain ⟨pre, w, post, h1, h2, h3⟩ := last_split z l hz hpz
      exact ⟨y :: pre, w, post, by rw [h1]; rfl, h2, h3⟩
    · have h : ∀ z ∈ l, ¬ P z := fun z hz hp => h ⟨z, hz, hp⟩
      rcases List.mem_cons.1 hx with rfl | hx
      · exact ⟨[], x, l, rfl, hp, h⟩
      · exact absurd hp (h x hx)

/-- What holds: the results of one ECU are there, those of the lowest address that sent anything; by test
ID, and in the list of all results; and nothing else is. -/
theorem C74_partial (dev : Device) (fl : Str → Option PyFloat) (a : Args) (s0 : OW) (hc : Constructed dev fl a s0)
    (hs : status s0 = .carConnected) :
    ∃ (p : Proto) (r : List Str), ConnectedTo fl a s0 p r ∧
      ∀ (calls : List Call) (c : OBDCommand) (force : Bool) (out : Except Exc Response) (s' : OW) (evs : History) (cmd : Bytes)
        (lines : List Str) (t : Nat) (body : Bytes), c ∈ allCommands → c.decode = .monitor →
        query dev fl c force (session dev fl calls s0) = (out, s') → s'.hist = (session dev fl calls s0).hist ++ evs →
        Ends evs cmd lines → (cmd = [] ∨ CommandString c cmd) → ¬ Trips p lines → Says p t (0x46 :: body) lines →
        (∀ t' < t, framesBy p t' lines = []) →
        ∃ res mon, out = .ok res ∧ res.value = .monitor mon ∧
          (∀ pre b post, blocks body = pre ++ b :: post → b.known = true → (∀ b' ∈ post, b'.known = true → b'.tid ≠ b.tid) →
            Reports b (mon.getTid b.tid.toNat) ∧ mon.getTid b.tid.toNat ∈ mon.allTests) ∧
          (∀ test ∈ mon.allTests, ∃ b ∈ blocks body, b.known = true ∧ Reports b test) := by
  obtain ⟨r, o, h1, hu, hi, hq⟩ := connected_query hc hs
  refine ⟨o.cls, r, h1, ?_⟩
  intro calls c force out s' evs cmd lines t body hmem hdec hqq hh he hcmd htr hsay hlow
  obtain ⟨a1, a2⟩ := monitor_attrs c hmem hdec
  rw [hq calls c force out s' evs cmd lines hqq hh he (table_not_header hmem hcmd _)]
  cases hms : o.call lines with
  | error x => exact absurd (trips_of hms).2 htr
  | ok ms =>
    obtain ⟨m, hm1, hm2⟩ := says_message hsay (by simp) o.ecuMap ms hms
    have hin : m ∈ ms.filter (fun m => m.txId == some t) := by rw [hm1]; simp
    obtain ⟨hin, htx⟩ := List.mem_filter.1 hin
    obtain ⟨rest, rfl⟩ := lowest_first hu hms hlow hin (by simpa using htx) hm1
    simp only [List.cons_ne_nil, if_false]
    rw [call_all hi hms fl c a1 a2 (by simp), hdec]
    obtain ⟨mon, g1, g2⟩ := C35_by_tid fl m rest
    obtain ⟨mon', g3, g4⟩ := C35_list fl m rest
    have : mon' = mon := by rw [g1] at g3; injection g3 with g3; injection g3 with g3; exact g3.symm
    subst this
    rw [g1]
    refine ⟨_, mon', rfl, rfl, ?_, ?_⟩
    · intro pre b post hb hk hpost
      have h3 := (g2 b.tid.toNat).1 pre b post (by rw [hm2]; exact hb) hk rfl
        (fun b' hb' hk' h => hpost b' hb' hk' (UInt8.toNat_inj.1 h))
      exact ⟨h3, (g4 _).2 ⟨(C35_passed b _ h3).1, _, rfl⟩⟩
    · intro test htest
      obtain ⟨hn, tid, rfl⟩ := (g4 test).1 htest
      by_cases hex : ∃ b ∈ blocks body, b.known = true ∧ b.tid.toNat = tid
      · obtain ⟨b0, hb0, hk0⟩ := hex
        obtain ⟨pre, b, post, hb, ⟨hk, ht⟩, hpost⟩ := last_split (P := fun b => b.known = true ∧ b.tid.toNat = tid) b0 _ hb0 hk0
        refine ⟨b, by rw [hb]; simp, hk, ?_⟩
        exact (g2 tid).1 pre b post (by rw [hm2]; exact hb) hk ht (fun b' hb' hk' ht' => hpost b' hb' ⟨hk', ht'⟩)
      · have := (g2 tid).2 (fun b hb hk ht => hex ⟨b, by rw [hm2] at hb; exact hb, hk, ht⟩)
        rw [this] at hn
        exact absurd hn (by decide)

/-- A car in which the engine and the transmission both have results, of the tests 01 and 81, for MONITOR_MISFIRE_GENERAL (A1). -/
def testsCar : Device := demo ([("06A1", "7E9 10 0A 46 A1 81 01 00 09\r7E8 10 0A 46 A1 01 01 00 05\r7E9 21 00 00 00 0A 00 00 00\r7E8 21 00 00 00 0A 00 00 00")] ++ table)
def testsObd : OW := (ObdM.construct testsCar fl0 ["COM1".toList] none true {}).2
def testsLines : List Str := ["7E9 10 0A 46 A1 81 01 00 09".toList, "7E8 10 0A 46 A1 01 01 00 05".toList,
  "7E9 21 00 00 00 0A 00 00 00".toList, "7E8 21 00 00 00 0A 00 00 00".toList]
def engineTests : Bytes := [0xA1, 0x01, 0x01, 0x00, 0x05, 0x00, 0x00, 0x00, 0x0A]
def boxTests : Bytes := [0xA1, 0x81, 0x01, 0x00, 0x09, 0x00, 0x00, 0x00, 0x0A]

theorem tests_says : Says .can11_500 0 (0x46 :: engineTests) testsLines :=
  .segmented (.e11 0) (Or.inl rfl) rfl [0, 0, 0] ⟨by decide, by decide, by decide⟩
    [("7E8 10 0A 46 A1 01 01 00 05".toList, 0), ("7E8 21 00 00 00 0A 00 00 00".toList, 1)]
    (by unfold Received CanLine Spells; decide +kernel) (by decide) (by decide +kernel)

theorem tests_says' : Says .can11_500 1 (0x46 :: boxTests) testsLines :=
  .segmented (.e11 1) (Or.inl rfl) rfl [0, 0, 0] ⟨by decide, by decide, by decide⟩
    [("7E9 10 0A 46 A1 81 01 00 09".toList, 0), ("7E9 21 00 00 00 0A 00 00 00".toList, 1)]
    (by unfold Received CanLine Spells; decide +kernel) (by decide) (by decide +kernel)

theorem tests_run : (nameRun testsCar "MONITOR_MISFIRE_GENERAL" testsObd).map (fun x => (x.1.map (fun v => match v with
      | .monitor mon => mon.allTests.map (fun t => t.tid)
      | _ => []), x.2)) =
    some (some [some 1], testsObd.hist,
      nameEvents "06A1" "7E9 10 0A 46 A1 81 01 00 09\r7E8 10 0A 46 A1 01 01 00 05\r7E9 21 00 00 00 0A 00 00 00\r7E8 21 00 00 00 0A 00 00 00\r\r>") := by
  decide +kernel


theorem C74_refuted : ¬ C74_full := by
  intro h
  have hc : Constructed testsCar fl0 { ports := ["COM1".toList] } testsObd := constructed_of (by decide +kernel)
  obtain ⟨p, r, h1, h3⟩ := h testsCar fl0 _ testsObd hc (by decide +kernel)
  have hp : p = .can11_500 := by
    obtain ⟨pre, evs, later, rate, xs, -, -, -, hp⟩ := h1
    have : protocolOf testsObd = some .can11_500 := by decide +kernel
    rw [this] at hp
    injection hp with hp
    exact hp.symm
  subst hp
  have hr := tests_run
  cases hn : nameRun testsCar "MONITOR_MISFIRE_GENERAL" testsObd with
  | none => rw [hn] at hr; cases hr
  | some x =>
    obtain ⟨v, x1, x2⟩ := x
    rw [hn] at hr
    simp only [Option.map_some, Option.some.injEq, Prod.mk.injEq] at hr
    obtain ⟨hv, rfl, rfl⟩ := hr
    cases v with
    | none => cases hv
    | some v =>
      simp only [Option.map_some, Option.some.injEq] at hv
      obtain ⟨c, res, s', g1, g2, g3, g4, g5, g6⟩ := nameRun_spec (lines := testsLines) hn (by decide +kernel) (by decide +kernel)
      have hattr : (byName "MONITOR_MISFIRE_GENERAL").map (fun c => (match c.decode with | .monitor => true | _ => false)) = some true := by
        decide +kernel
      rw [g1] at hattr
      simp only [Option.map_some, Option.some.injEq] at hattr
      have hd : c.decode = .monitor := by split at hattr <;> simp_all
      obtain ⟨res', mon, hres, hmon, hall⟩ := h3 [] c true _ _ _ _ _ 1 boxTests (mem_of_byName g1) hd g2 g4 g5 (Or.inr g6)
        (not_trips_of_calm rfl (by decide +kernel)) tests_says'
      cases hres
      rw [g3] at hmon
      subst hmon
      simp only at hv
      obtain ⟨test, ht, hrep⟩ := hall [] ⟨0x81, 0x01, [0x00, 0x09], [0, 0], [0, 0x0A]⟩ [] rfl (by decide +kernel) (by simp)
      have : test.tid ∈ mon.allTests.map (fun t => t.tid) := List.mem_map.2 ⟨test, ht, rfl⟩
      rw [hv, List.mem_singleton, hrep.1] at this
      exact absurd this (by decide)

/-- Everything that C74_partial asks for happens with this car, for the engine. -/
example : Constructed testsCar fl0 { ports := ["COM1".toList] } testsObd ∧ status testsObd = .carConnected ∧
    protocolOf testsObd = some .can11_500 ∧ ¬ Trips .can11_500 testsLines ∧ Says .can11_500 0 (0x46 :: engineTests) testsLines ∧
    (∀ t' < 0, framesBy .can11_500 t' testsLines = []) ∧ (blocks engineTests).length = 1 ∧ ((blocks engineTests).all (·.known)) = true :=
  ⟨constructed_of (by decide +kernel), by decide +kernel, by decide +kernel, not_trips_of_calm rfl (by decide +kernel), tests_says, by simp,
    by decide, by decide +kernel⟩

/-! ## C75: freeze frames -/

/-- C75 in full: a mode 02 command of a scalar sensor gives the value in the freeze frame: in its answer
the engine repeats the PID and the number of the frame, then come the data. -/
def C75_full : Prop :=
  ∀ (dev : Device) (fl : Str → Option PyFloat) (a : Args) (s0 : OW), Constructed dev fl a s0 → status s0 = .carConnected →
    ∃ (p : Proto) (r : List Str) (t : Nat), ConnectedTo fl a s0 p r ∧ EngineFor p r t ∧
      ∀ (calls : List Call) (c : OBDCommand) (force : Bool) (out : Except Exc Response) (s' : OW) (evs : History) (cmd : Bytes)
        (lines : List Str) (pid frame : UInt8) (data : Bytes) (sen : Sensor), c ∈ allCommands → c.ecu = ECU.engine →
        c.mode = .ok (some 2) → c.pid = .ok (some pid.toNat) → sensor? c.decode = some sen → c.decode ≠ .evapPressure →
        query dev fl c force (session dev fl calls s0) = (out, s') → s'.hist = (session dev fl calls s0).hist ++ evs →
        Ends evs cmd lines → (cmd = [] ∨ CommandString c cmd) → ¬ Trips p lines → NoImpostor p t lines →
        data.length + 2 = c.bytes → Says p t (0x42 :: pid :: frame :: data) lines →
        ∃ res v, out = .ok res ∧ res.value = .qty v sen.unit ∧
          |v - sen.physical (sen.raw (0x42 :: pid :: data))| ≤ (|sen.scale * sen.raw (0x42 :: pid :: data)| + |sen.offset|) / 2 ^ 50

/-- What happens: the number of the frame is taken for the first data byte. -/
theorem C75_partial (dev : Device) (fl : Str → Option PyFloat) (a : Args) (s0 : OW) (hc : Constructed dev fl a s0)
    (hs : status s0 = .carConnected) :
    ∃ (p : Proto) (r : List Str) (t : Nat), ConnectedTo fl a s0 p r ∧ EngineFor p r t ∧
      ∀ (calls : List Call) (c : OBDCommand) (force : Bool) (out : Except Exc Response) (s' : OW) (evs : History) (cmd : Bytes)
        (lines : List Str) (pid frame : UInt8) (data : Bytes) (sen : Sensor), c ∈ allCommands → c.ecu = ECU.engine →
        c.mode = .ok (some 2) → c.pid = .ok (some pid.toNat) → sensor? c.decode = some sen → c.decode ≠ .evapPressure →
        query dev fl c force (session dev fl calls s0) = (out, s') → s'.hist = (session dev fl calls s0).hist ++ evs →
        Ends evs cmd lines → (cmd = [] ∨ CommandString c cmd) → ¬ Trips p lines → NoImpostor p t lines →
        data.length + 2 = c.bytes → Says p t (0x42 :: pid :: frame :: data) lines →
        ∃ res v, out = .ok res ∧ res.value = .qty v sen.unit ∧
          |v - sen.physical (sen.raw (0x42 :: pid :: frame :: data))| ≤
            (|sen.scale * sen.raw (0x42 :: pid :: frame :: data)| + |sen.offset|) / 2 ^ 50 := by
  obtain ⟨p, r, t, h1, h2, h3⟩ := engine_value dev fl a s0 hc hs
  refine ⟨p, r, t, h1, h2, ?_⟩
  intro calls c force out s' evs cmd lines pid frame data sen hmem hecu hmode hpid hsen hev hq hh he hcmd htr himp hlen hsay
  obtain ⟨m, hm1, hm2, hm3, hm4⟩ := h3 calls c force out s' evs cmd lines _ hmem hecu hq hh he hcmd htr himp (by simp) hsay
  have hok := List.all_eq_true.1 sizes_table c hmem
  unfold sizesOk at hok
  rw [hsen] at hok
  simp only [Bool.and_eq_true, Bool.or_eq_true, decide_eq_true_eq] at hok
  have hfit : fit c.bytes (0x42 :: pid :: frame :: data) = (0x42 :: pid :: frame :: data).take c.bytes := by
    unfold fit
    rw [if_neg (by omega), List.take_append_of_le_length (by simp; omega)]
  have hraw : sen.raw (fit c.bytes (0x42 :: pid :: frame :: data)) = sen.raw (0x42 :: pid :: frame :: data) := by
    rw [hfit]
    unfold Sensor.raw
    rw [List.drop_take, List.take_take, Nat.min_eq_left (by omega)]
  have hsg : sen.signed = false := by
    generalize c.decode = d at hsen hev
    unfold sensor? at hsen
    split at hsen <;> first
      | (cases hsen; done)
      | (exact absurd rfl ‹_›)
      | (injection hsen with hsen; subst hsen; rfl)
  have hrun := run_mag fl c.decode sen hsen hsg { m with data := fit c.bytes (0x42 :: pid :: frame :: data) } [] (by
      show 2 + sen.first + sen.width ≤ (fit c.bytes (0x42 :: pid :: frame :: data)).length
      rw [hfit]; simp; omega) (by
    intro hp; rcases hok.2 with h | h
    · rw [hp] at h; cases h
    · show (fit c.bytes (0x42 :: pid :: frame :: data)).length = _
      rw [hfit]; simp; omega)
  rw [hrun] at hm4
  obtain ⟨res, e1, e2⟩ := map_value hm4
  have hcall : c.call fl [m] = .ok res := by rw [← hm3, e1]
  have hmsg : res.messages = [{ m with data := fit c.bytes (0x42 :: pid :: frame :: data) }] := by
    rw [call_eq, hm2] at hcall
    simp only [List.map_cons, List.map_nil, List.cons_ne_nil, if_false, hm1] at hcall
    split at hcall
    · injection hcall with hcall; rw [← hcall]
    · cases hcall
  obtain ⟨v, hv1, hv2⟩ := C28_accuracy fl c hmem sen hsen hev [m] res _ [] hcall hmsg
  refine ⟨res, v, e1, hv1, ?_⟩
  rw [← hraw]; exact hv2

/-- A car that stored a freeze frame (number 0) at 100 km/h. -/
def frozenCar : Device := demo ([("020D", "7E8 04 42 0D 00 64")] ++ table)
def frozenObd : OW := (ObdM.construct frozenCar fl0 ["COM1".toList] none true {}).2
def frozenLines : List Str := ["7E8 04 42 0D 00 64".toList]

theorem frozen_says : Says .can11_500 0 [0x42, 0x0D, 0x00, 0x64] frozenLines :=
  .single (.e11 0) (Or.inl rfl) rfl [] (by simp) (by simp) "7E8 04 42 0D 00 64".toList (by unfold CanLine Spells; decide +kernel) (by decide +kernel)

theorem C75_refuted : ¬ C75_full := by
  intro h
  have hc : Constructed frozenCar fl0 { ports := ["COM1".toList] } frozenObd := constructed_of (by decide +kernel)
  obtain ⟨p, r, t, h1, h2, h3⟩ := h frozenCar fl0 _ frozenObd hc (by decide +kernel)
  obtain ⟨rfl, rfl⟩ := engine_zero h1 h2 (by decide +kernel) (reply := ["7E8 06 41 00 00 10 00 00".toList]) (by decide +kernel) (by decide +kernel)
  obtain ⟨c, res, s', g1, g2, g3, g4, g5, g6⟩ := nameRun_spec (dev := frozenCar) (name := "DTC_SPEED") (cmd := "020D") (s := frozenObd)
    (v := .qty 0 "kph") (b := "7E8 04 42 0D 00 64\r\r>") (lines := frozenLines) (by decide +kernel) (by decide +kernel) (by decide +kernel)
  have hattr : (byName "DTC_SPEED").map (fun c => (c.ecu, c.bytes, match c.decode with | .uas 9 => true | _ => false)) =
      some (ECU.engine, 3, true) := by decide +kernel
  have hmode : (byName "DTC_SPEED").map OBDCommand.mode = some (.ok (some 2)) := by decide +kernel
  have hpid : (byName "DTC_SPEED").map OBDCommand.pid = some (.ok (some 0x0D)) := by decide +kernel
  rw [g1] at hattr hmode hpid
  simp only [Option.map_some, Option.some.injEq, Prod.mk.injEq] at hattr hmode hpid
  obtain ⟨a1, a2, a5⟩ := hattr
  have a5 : c.decode = .uas 9 := by split at a5 <;> simp_all
  obtain ⟨res', v, hres, hv, hacc⟩ := h3 [] c true _ _ _ _ _ 0x0D 0x00 [0x64] _ (mem_of_byName g1) a1 hmode hpid
    (show sensor? c.decode = some { width := 1, scale := 1, unit := "kph", lo := 0, hi := 255 } by rw [a5]; rfl)
    (by rw [a5]; intro h; cases h) g2 g4 g5 (Or.inr g6) (not_trips_of_calm rfl (by decide +kernel))
    (fun e he hne => by cases he; exact absurd rfl hne) (by rw [a2]; rfl) frozen_says
  cases hres
  rw [g3] at hv
  simp only [Value.qty.injEq] at hv
  rw [← hv.1] at hacc
  have hraw : Sensor.raw { width := 1, scale := 1, unit := "kph", lo := 0, hi := 255 } [0x42, 0x0D, 0x64] = 100 := by decide
  rw [hraw] at hacc
  norm_num [Sensor.physical] at hacc

/-- All that C75 asks for happens with this car, see the proof above. -/
example : Constructed frozenCar fl0 { ports := ["COM1".toList] } frozenObd ∧ status frozenObd = .carConnected ∧
    ¬ Trips .can11_500 frozenLines ∧ (nameRun frozenCar "DTC_SPEED" frozenObd).map (·.1) = some (some (.qty 0 "kph")) :=
  ⟨constructed_of (by decide +kernel), by decide +kernel, not_trips_of_calm rfl (by decide +kernel), by decide +kernel⟩
end Props
