import Verif.Lemmas.EndToEnd
import Verif.Props.Connect
/-!
# From the question to the value (C61, C62)
-/
namespace Props
open Py Model Spec ObdM

/-! ## C61: what the engine says is what the user gets -/

/-- C61 in full, for the engine speed: on a connection to a car there is an ECU, the engine, such
that whenever it answers a query of the engine speed with the bytes `A B`, whatever other lines
there are, the response is `(256 A + B) / 4` rpm. -/
def C61_full : Prop :=
  ∀ (dev : Device) (fl : Str → Option PyFloat) (a : Args) (s0 : OW), Constructed dev fl a s0 → status s0 = .carConnected →
    ∃ (p : Proto) (r : List Str) (t : Nat), ConnectedTo fl a s0 p r ∧ EngineFor p r t ∧
      ∀ (calls : List Call) (c : OBDCommand) (force : Bool) (out : Except Exc Response) (s' : OW) (evs : History) (cmd : Bytes)
        (lines : List Str) (A B : UInt8), byName "RPM" = some c →
        query dev fl c force (session dev fl calls s0) = (out, s') → s'.hist = (session dev fl calls s0).hist ++ evs →
        Ends evs cmd lines → (cmd = [] ∨ CommandString c cmd) → Says p t [0x41, 0x0C, A, B] lines →
        ∃ res, out = .ok res ∧ res.value = .qty ((256 * A.toNat + B.toNat : ℚ) / 4) "rpm"

theorem table_strings : ∀ c ∈ allCommands, 2 ≤ c.command.length ∧ (c.command.head? ≠ some 0x41 ∨ 3 ≤ c.command.length ∧ c.command.take 3 ≠ ascii "AT ") := by
  have h : allCommands.all (fun c => decide (2 ≤ c.command.length ∧ (c.command.head? ≠ some 0x41 ∨ 3 ≤ c.command.length ∧ c.command.take 3 ≠ ascii "AT "))) = true := by
    decide +kernel
  intro c hc
  exact of_decide_eq_true (List.all_eq_true.1 h c hc)

theorem table_not_header {c : OBDCommand} (hc : c ∈ allCommands) {cmd : Bytes} (h : cmd = [] ∨ CommandString c cmd) (hd : Bytes) :
    cmd ≠ headerLine hd := by
  have hh : headerLine hd = [0x41, 0x54, 0x20, 0x53, 0x48, 0x20] ++ (hd ++ ascii " ") := by
    rw [headerLine, List.append_assoc]; rfl
  rintro rfl
  rcases h with h | h
  · rw [hh] at h; cases h
  · obtain ⟨h1, h2⟩ := table_strings c hc
    have : ∃ x, headerLine hd = c.command ++ x := by
      rcases h with h | ⟨n, h⟩
      · exact ⟨[], by rw [h]; simp⟩
      · exact ⟨_, h⟩
    obtain ⟨x, hx⟩ := this
    rw [hh] at hx
    rcases h2 with h2 | ⟨h2, h3⟩
    · match hcc : c.command, h1 with
      | y :: ys, _ =>
        rw [hcc] at hx h2
        simp only [List.cons_append, List.cons.injEq] at hx
        exact h2 (by rw [← hx.1]; rfl)
    · apply h3
      have h4 := congrArg (List.take 3) hx
      rw [List.take_append_of_le_length h2] at h4
      rw [← h4]; rfl

/-- What holds, for every command of the tables that is meant for the engine: if the reply is
not one on which the parser fails (C14), and no other ECU uses the standard address of the
engine, then the outcome is that of the command for a lone message of the engine with exactly
these bytes, whatever other ECUs and the adapter say. -/
theorem C61_partial (dev : Device) (fl : Str → Option PyFloat) (a : Args) (s0 : OW) (hc : Constructed dev fl a s0)
    (hs : status s0 = .carConnected) :
    ∃ (p : Proto) (r : List Str) (t : Nat), ConnectedTo fl a s0 p r ∧ EngineFor p r t ∧
      ∀ (calls : List Call) (c : OBDCommand) (force : Bool) (out : Except Exc Response) (s' : OW) (evs : History) (cmd : Bytes)
        (lines : List Str) (payload : Bytes), c ∈ allCommands → c.ecu = ECU.engine →
        query dev fl c force (session dev fl calls s0) = (out, s') → s'.hist = (session dev fl calls s0).hist ++ evs →
        Ends evs cmd lines → (cmd = [] ∨ CommandString c cmd) → ¬ Trips p lines → NoImpostor p t lines →
        payload.head? ≠ some 0x43 → Says p t payload lines →
        ∃ m, m.data = payload ∧ m.ecu = ECU.engine ∧ m.txId = some t ∧ out = c.call fl [m] := by
  obtain ⟨pre, ev, later, port, rate, xs, id, r, o, e, h1, h2, h3, h4, h5, h6, h7, h8, h9⟩ := constructed_car hc hs
  have hcls : o.cls.elmId ∈ knownIds := by
    obtain ⟨e1, e2, -, -, -, r1, r2, volt, ys, -, -, -, hneg⟩ := h4
    rw [h8]
    generalize a.cfg.protocol = pr at hneg
    cases hneg with
    | requested => assumption
    | announced => assumption
    | tried l id' id before after r r' r'' r3 xs ha hn hu ho ht hu3 =>
      have : id ∈ tryOrder := by rw [ho]; simp
      revert this
      exact (by decide : ∀ id ∈ tryOrder, id ∈ knownIds) id
  have hunk : o.cls ≠ .unknown := by
    intro hu; rw [hu] at hcls; revert hcls; decide
  have hport : portName s0 = port := by simp [portName, h5, Elm.portName, h6]
  have hcon : ConnectedTo fl a s0 o.cls r :=
    ⟨pre, ev, later, rate, xs, h1, h2, by rw [hport, h8]; exact h4, by simp [protocolOf, h5, h7]⟩
  -- the engine, and who else is tagged so
  have heng : ∃ t, EngineFor o.cls r t ∧ o.tag t = ECU.engine ∧ ∀ t', t' ≠ t → o.tag t' = standardTag o.cls t' := by
    cases hms : o.cls.call o.cls.defaultMap r with
    | error x =>
      unfold Proto.init at h9
      simp only [bind, Except.bind, hms] at h9
      cases h9
    | ok ms =>
      by_cases ha : ∃ t d, Answered ms t d
      · obtain ⟨t, g1, g2, g3⟩ := C20_engine_partial o.cls r o h9 ms hms ha
        exact ⟨t, ⟨ms, hms, Or.inl g1⟩, g2, g3⟩
      · have hn : ∀ t d, ¬ Answered ms t d := fun t d h' => ha ⟨t, d, h'⟩
        obtain ⟨o', g1, g2⟩ := C20_no_answer o.cls r ms hms hn
        rw [h9] at g1
        cases g1
        have : ∃ t, standardEngine o.cls = some t := by
          cases ho : o.cls <;> first | exact absurd ho hunk | exact ⟨_, rfl⟩
        obtain ⟨t, ht⟩ := this
        exact ⟨t, ⟨ms, hms, Or.inr ⟨hn, ht⟩⟩, by rw [g2]; simp [standardTag, ht], fun t' _ => g2 t'⟩
  obtain ⟨t, g1, g2, g3⟩ := heng
  refine ⟨o.cls, r, t, hcon, g1, ?_⟩
  intro calls c force out s' evs cmd lines payload hmem hecu hq hh he hcmd htr himp h43 hsay
  have hsnd := osound_session dev fl calls s0 (constructed_sound hc)
  have hsame := sameProto_session dev fl o calls s0 (fun e' he' => by rw [h5] at he'; cases he'; exact Or.inl h7)
  have hst : status (session dev fl calls s0) ≠ .notConnected := by
    intro hst
    rw [query_nc hst] at hq
    cases hq
    have : evs = [] := by simpa using hh
    obtain ⟨pre, bs, b, hx, -⟩ := he
    rw [this] at hx; simp at hx
  obtain ⟨e', o', hl⟩ := live_of_sound hsnd hst
  have : o' = o := by
    rcases hsame e' hl.iface with h | h
    · rw [hl.proto] at h; cases h; rfl
    · exact absurd h hl.status
  subst this
  have hout := query_final hl hq hh he (table_not_header hmem hcmd _)
  cases hcall : o'.call lines with
  | error x => exact absurd (trips_of hcall).2 htr
  | ok ms =>
    rw [hcall] at hout
    simp only at hout
    obtain ⟨m, hm1, hm2⟩ := says_message hsay h43 o'.ecuMap ms hcall
    have hmem1 : m ∈ ms := by
      have : m ∈ ms.filter (fun m => m.txId == some t) := by rw [hm1]; simp
      exact (List.mem_filter.1 this).1
    have htx : m.txId = some t := by
      have : m ∈ ms.filter (fun m => m.txId == some t) := by rw [hm1]; simp
      simpa using (List.mem_filter.1 this).2
    have hecum : m.ecu = ECU.engine := by
      rw [C21_tags o'.cls r o' h9 lines ms hcall m hmem1, htx]; exact g2
    have hfil : ms.filter (fun m => decide (Overlap c.ecu m.ecu)) = [m] := by
      rw [← hm1]
      apply List.filter_congr
      intro m' hm'
      have htag := C21_tags o'.cls r o' h9 lines ms hcall m' hm'
      rw [hecu]
      cases htx' : m'.txId with
      | none =>
        rw [htx'] at htag
        simp only at htag
        rw [htag]
        have hf : ((none : Option Nat) == some t) = false := rfl
        rw [hf]; decide
      | some t' =>
        rw [htx'] at htag
        simp only at htag
        by_cases ht : t' = t
        · subst ht
          rw [htag, g2]; simp; decide
        · rw [htag, g3 t' ht]
          have : standardTag o'.cls t' ≠ ECU.engine := by
            intro hx
            have hstd : standardEngine o'.cls = some t' := by
              unfold standardTag at hx
              split at hx
              · assumption
              · split at hx <;> cases hx
            have := silent_message hunk (himp t' hstd ht) o'.ecuMap ms hcall
            have hmm : m' ∈ ms.filter (fun m => m.txId == some t') := List.mem_filter.2 ⟨hm', by simp [htx']⟩
            rw [this] at hmm; cases hmm
          have h01 : standardTag o'.cls t' = ECU.transmission ∨ standardTag o'.cls t' = ECU.unknown := by
            unfold standardTag at this ⊢
            split
            · next h => exact absurd (by rw [if_pos h]) this
            · split
              · exact Or.inl rfl
              · exact Or.inr rfl
          have hf : (some t' == some t) = false := by simpa using ht
          rw [hf]
          rcases h01 with h | h <;> rw [h] <;> decide
    have hne : ms ≠ [] := List.ne_nil_of_mem hmem1
    rw [if_neg hne] at hout
    refine ⟨m, hm2, hecum, htx, ?_⟩
    rw [hout, call_eq, call_eq, hfil]
    have : [m].filter (fun m => decide (Overlap c.ecu m.ecu)) = [m] := by
      rw [← hfil, List.filter_filter]; simp
    rw [this]

/-- A scalar sensor, answered by a lone message of the engine of the right size. -/
theorem engine_alone (fl : Str → Option PyFloat) (c : OBDCommand) (hc : c ∈ allCommands) (s : Sensor) (hs : sensor? c.decode = some s)
    (hsg : s.signed = false) (hecu : c.ecu = ECU.engine) (m : Message) (hm : m.ecu = ECU.engine) (hlen : m.data.length = c.bytes) :
    ∃ r, c.call fl [m] = .ok r ∧ r.value = .qty (mag c.decode (s.raw m.data)) s.unit ∧ r.messages = [m] := by
  have hfil : [m].filter (fun m => decide (Overlap c.ecu m.ecu)) = [m] := by
    rw [List.filter_cons_of_pos]
    · rfl
    · rw [hecu, hm]; decide
  have hfit : fit c.bytes m.data = m.data := by
    unfold fit
    split
    · rfl
    · rw [← hlen]; simp
  have hok := List.all_eq_true.1 sizes_table c hc
  unfold sizesOk at hok
  rw [hs] at hok
  simp only [Bool.and_eq_true, Bool.or_eq_true, decide_eq_true_eq] at hok
  have hrun := run_mag fl c.decode s hs hsg m [] (by omega) (by
    intro hp; rcases hok.2 with h | h
    · rw [hp] at h; cases h
    · omega)
  refine ⟨{ command := some c, messages := [m], value := .qty (mag c.decode (s.raw m.data)) s.unit }, ?_, rfl, rfl⟩
  rw [call_eq, hfil]
  simp only [List.map_cons, List.map_nil, hfit, List.cons_ne_nil, if_false, hrun]

theorem mag_rpm (n : ℤ) (h0 : 0 ≤ n) (h1 : n < 65536) : mag (.uas 7) n = (n : ℚ) / 4 := by
  have hl : uasLookup 7 = some (.lin false (.dec (1 / 4)) "rpm" 0) := by decide +kernel
  have hn : |n| ≤ 2 ^ 53 := by rw [abs_le]; constructor <;> norm_num <;> omega
  have e1 : rnd (1 / 4) = 1 / 4 := by
    have := rnd_dyadic 1 2 (by norm_num)
    norm_num at this ⊢; exact this
  have e2 : rnd ((n : ℚ) / 4) = n / 4 := by
    have := rnd_dyadic n 2 hn
    norm_num at this; exact this
  simp only [mag, hl, uasMag, fmul, fadd, rnd_zero, add_zero]
  rw [rnd_int n hn, e1, mul_one_div, e2, e2]

/-- The engine speed: exactly `(256 A + B) / 4` rpm. -/
theorem C61_rpm_partial (dev : Device) (fl : Str → Option PyFloat) (a : Args) (s0 : OW) (hc : Constructed dev fl a s0)
    (hs : status s0 = .carConnected) :
    ∃ (p : Proto) (r : List Str) (t : Nat), ConnectedTo fl a s0 p r ∧ EngineFor p r t ∧
      ∀ (calls : List Call) (c : OBDCommand) (force : Bool) (out : Except Exc Response) (s' : OW) (evs : History) (cmd : Bytes)
        (lines : List Str) (A B : UInt8), byName "RPM" = some c →
        query dev fl c force (session dev fl calls s0) = (out, s') → s'.hist = (session dev fl calls s0).hist ++ evs →
        Ends evs cmd lines → (cmd = [] ∨ CommandString c cmd) → ¬ Trips p lines → NoImpostor p t lines →
        Says p t [0x41, 0x0C, A, B] lines →
        ∃ res, out = .ok res ∧ res.value = .qty ((256 * A.toNat + B.toNat : ℚ) / 4) "rpm" := by
  obtain ⟨p, r, t, h1, h2, h3⟩ := C61_partial dev fl a s0 hc hs
  refine ⟨p, r, t, h1, h2, ?_⟩
  intro calls c force out s' evs cmd lines A B hb hq hh he hcmd htr himp hsay
  have hattr : (byName "RPM").map (fun c => (c.ecu, c.bytes, match c.decode with | .uas 7 => true | _ => false)) = some (ECU.engine, 4, true) := by
    decide +kernel
  rw [hb] at hattr
  simp only [Option.map_some, Option.some.injEq, Prod.mk.injEq] at hattr
  obtain ⟨a1, a2, a3⟩ := hattr
  have a3 : c.decode = .uas 7 := by split at a3 <;> simp_all
  obtain ⟨m, hm1, hm2, -, hm4⟩ := h3 calls c force out s' evs cmd lines _ (mem_of_byName hb) a1 hq hh he hcmd htr himp (by simp) hsay
  obtain ⟨res, hr1, hr2, -⟩ := engine_alone fl c (mem_of_byName hb) { width := 2, scale := 1 / 4, unit := "rpm", lo := 0, hi := 1638375 / 100 }
    (by rw [a3]; rfl) rfl a1 m hm2 (by rw [hm1, a2]; rfl)
  refine ⟨res, by rw [hm4, hr1], ?_⟩
  rw [hr2, a3, hm1]
  have hraw : Sensor.raw { width := 2, scale := 1 / 4, unit := "rpm", lo := 0, hi := 1638375 / 100 } [0x41, 0x0C, A, B] = 256 * A.toNat + B.toNat := by
    simp [Sensor.raw, reading, beValue]; ring
  rw [hraw, mag_rpm _ (by positivity) (by have := A.toNat_lt; have := B.toNat_lt; omega)]
  push_cast; rfl

/-- Every scalar sensor (except the evaporation system pressure, whose conversion is wrong, C28):
a reply of the right size is converted within rounding errors. -/
theorem C61_sensor_partial (dev : Device) (fl : Str → Option PyFloat) (a : Args) (s0 : OW) (hc : Constructed dev fl a s0)
    (hs : status s0 = .carConnected) :
    ∃ (p : Proto) (r : List Str) (t : Nat), ConnectedTo fl a s0 p r ∧ EngineFor p r t ∧
      ∀ (calls : List Call) (c : OBDCommand) (force : Bool) (out : Except Exc Response) (s' : OW) (evs : History) (cmd : Bytes)
        (lines : List Str) (payload : Bytes) (sen : Sensor), c ∈ allCommands → c.ecu = ECU.engine → sensor? c.decode = some sen →
        c.decode ≠ .evapPressure →
        query dev fl c force (session dev fl calls s0) = (out, s') → s'.hist = (session dev fl calls s0).hist ++ evs →
        Ends evs cmd lines → (cmd = [] ∨ CommandString c cmd) → ¬ Trips p lines → NoImpostor p t lines →
        payload.head? ≠ some 0x43 → payload.length = c.bytes → Says p t payload lines →
        ∃ res v, out = .ok res ∧ res.value = .qty v sen.unit ∧
          |v - sen.physical (sen.raw payload)| ≤ (|sen.scale * sen.raw payload| + |sen.offset|) / 2 ^ 50 := by
  obtain ⟨p, r, t, h1, h2, h3⟩ := C61_partial dev fl a s0 hc hs
  refine ⟨p, r, t, h1, h2, ?_⟩
  intro calls c force out s' evs cmd lines payload sen hmem hecu hsen hev hq hh he hcmd htr himp h43 hlen hsay
  obtain ⟨m, hm1, hm2, -, hm4⟩ := h3 calls c force out s' evs cmd lines _ hmem hecu hq hh he hcmd htr himp h43 hsay
  have hsg : sen.signed = false := by
    generalize c.decode = d at hsen hev
    unfold sensor? at hsen
    split at hsen <;> first
      | (cases hsen; done)
      | (exact absurd rfl ‹_›)
      | (injection hsen with hsen; subst hsen; rfl)
  obtain ⟨res, hr1, -, hr3⟩ := engine_alone fl c hmem sen hsen hsg hecu m hm2 (by rw [hm1, hlen])
  obtain ⟨v, hv1, hv2⟩ := C28_accuracy fl c hmem sen hsen hev [m] res m [] hr1 hr3
  refine ⟨res, v, by rw [hm4, hr1], hv1, ?_⟩
  rw [hm1] at hv2
  exact hv2

/-! ### a case, and the exception -/

/-- The replies to `cmd` in a history. -/
def repliesTo (cmd : Bytes) : History → List (List Str)
  | [] => []
  | .write b ok :: h =>
    (if b = line cmd ∧ ok = true then
      (h.takeWhile (fun e => match e with | .read (some _) => true | _ => false)).filterMap
        (fun e => match e with | .read (some b) => some (cleanLines b) | _ => none) else []) ++ repliesTo cmd h
  | _ :: h => repliesTo cmd h

theorem mem_repliesTo {h : History} {cmd : Bytes} {l : List Str} (hr : Replied h cmd l) : l ∈ repliesTo cmd h := by
  obtain ⟨pre, bs, b, post, rfl, hl, -⟩ := hr
  have hskip : ∀ (pre rest : History), l ∈ repliesTo cmd rest → l ∈ repliesTo cmd (pre ++ rest) := by
    intro pre rest h
    induction pre with
    | nil => exact h
    | cons e pre ih =>
      cases e <;> simp only [List.cons_append, repliesTo]
      all_goals first
        | exact ih
        | exact List.mem_append_right _ ih
  apply hskip
  simp only [repliesTo, and_self, if_true]
  apply List.mem_append_left
  have ht : ∀ (bs : List Bytes), (bs.map (fun b => Event.read (some b)) ++ Event.read (some b) :: post).takeWhile
      (fun e => match e with | .read (some _) => true | _ => false) =
      bs.map (fun b => Event.read (some b)) ++ Event.read (some b) :: post.takeWhile (fun e => match e with | .read (some _) => true | _ => false) := by
    intro bs
    induction bs with
    | nil => simp [List.takeWhile_cons]
    | cons x bs ih => simp only [List.map_cons, List.cons_append, List.takeWhile_cons, if_true]; rw [ih]
  rw [ht]
  rw [List.mem_filterMap]
  exact ⟨.read (some b), by simp, by rw [linesOf_unique hl]⟩

theorem dialogue_replied {h evs later : History} {xs : List (Bytes × List Str)} (hd : Dialogue evs xs) {x : Bytes × List Str} (hx : x ∈ xs) :
    Replied (h ++ evs ++ later) x.1 x.2 := by
  induction hd generalizing h with
  | nil => cases hx
  | @cons cmd lines bs b evs xs hl hbs hd ih =>
    rcases List.mem_cons.1 hx with rfl | hx
    · exact ⟨h, bs, b, evs ++ later, by simp, hl, hbs⟩
    · have := ih (h := h ++ .write (line cmd) true :: (bs.map (fun b => Event.read (some b)) ++ [.read (some b)])) hx
      simpa using this

theorem connectedTo_replied {fl : Str → Option PyFloat} {a : Args} {s : OW} {p : Proto} {r : List Str} (h : ConnectedTo fl a s p r) :
    Replied s.hist (ascii "0100") r := by
  obtain ⟨pre, evs, later, rate, xs, h1, -, ⟨e1, e2, h2, -, h3, r1, r2, volt, ys, rfl, -, -, hneg⟩, -⟩ := h
  rw [h1, h2]
  have := dialogue_replied (h := pre ++ .open_ (portName s) none :: ((if a.cfg.startLowPower then [.write (line (ascii " ")) true] else []) ++ e1))
    (later := later) h3 (x := (ascii "0100", r)) (by simp [hneg.mem])
  simpa using this

/-- A car whose engine is at an unusual address (7EA); at the usual one (7E8) there is an ECU that
answers only to `010C`. -/
def oddEngine : Device := demo ([("0100", "7EA 06 41 00 00 10 00 00"), ("010C", "7E8 04 41 0C 00 00\r7EA 04 41 0C 1A F8")] ++ table)
def oddEngineObd : OW := (ObdM.construct oddEngine fl0 ["COM1".toList] none true {}).2

/-- What a query of the engine speed on `s` gives: the value, and the I/O. -/
def rpmRun (dev : Device) (s : OW) : Option (Option Value × History × History) :=
  (byName "RPM").map (fun c => ((query dev fl0 c true s).1.toOption.map (·.value),
    (query dev fl0 c true s).2.hist.take s.hist.length, (query dev fl0 c true s).2.hist.drop s.hist.length))

/-- The I/O of a query that sends `010C` and gets the reply `b`. -/
def rpmEvents (b : String) : History := [.write (line (ascii "010C")) true, .read (some (ascii b))]

theorem rpmRun_spec {dev : Device} {s : OW} {v : Value} {b : String} {lines : List Str}
    (h : rpmRun dev s = some (some v, s.hist, rpmEvents b)) (hl : cleanLines (ascii b) = lines) :
    ∃ (c : OBDCommand) (res : Response) (s' : OW), byName "RPM" = some c ∧ query dev fl0 c true s = (.ok res, s') ∧ res.value = v ∧
      s'.hist = s.hist ++ rpmEvents b ∧ Ends (rpmEvents b) (ascii "010C") lines ∧ CommandString c (ascii "010C") := by
  unfold rpmRun at h
  cases hb : byName "RPM" with
  | none => rw [hb] at h; cases h
  | some c =>
    rw [hb] at h
    simp only [Option.map_some, Option.some.injEq, Prod.mk.injEq] at h
    obtain ⟨h1, h2, h3⟩ := h
    have hcmd : (byName "RPM").map (·.command) = some (ascii "010C") := by decide +kernel
    rw [hb] at hcmd
    simp only [Option.map_some, Option.some.injEq] at hcmd
    cases hq : query dev fl0 c true s with
    | mk out s' =>
      rw [hq] at h1 h2 h3
      simp only at h1 h2 h3
      cases out with
      | error x => cases h1
      | ok res =>
        simp only [Except.toOption, Option.map_some, Option.some.injEq] at h1
        refine ⟨c, res, s', rfl, hq, h1, ?_, ?_, Or.inl hcmd.symm⟩
        · rw [← h3]
          conv => rhs; lhs; rw [← h2]
          exact (List.take_append_drop _ _).symm
        · exact ⟨[], [], ascii b, rfl, hl ▸ cleanLines_spec _, by simp⟩

theorem C61_refuted : ¬ C61_full := by
  intro h
  have hc : Constructed oddEngine fl0 { ports := ["COM1".toList] } oddEngineObd := constructed_of (by decide +kernel)
  obtain ⟨p, r, t, h1, ⟨ms, hms, hE⟩, h2⟩ := h oddEngine fl0 _ oddEngineObd hc (by decide +kernel)
  have hp : p = .can11_500 := by
    obtain ⟨pre, evs, later, rate, xs, -, -, -, hp⟩ := h1
    have : protocolOf oddEngineObd = some .can11_500 := by decide +kernel
    rw [this] at hp
    injection hp with hp
    exact hp.symm
  subst hp
  have hr : r = ["7EA 06 41 00 00 10 00 00".toList] := by
    have h3 := mem_repliesTo (connectedTo_replied h1)
    have h4 : repliesTo (ascii "0100") oddEngineObd.hist = [["7EA 06 41 00 00 10 00 00".toList], ["7EA 06 41 00 00 10 00 00".toList]] := by decide +kernel
    rw [h4] at h3
    simpa using h3
  subst hr
  have hans : ∀ t d, Answered ms t d ↔ t = 2 ∧ d = [0x41, 0, 0, 0x10, 0, 0] := by
    obtain ⟨m, g1, g2, g3⟩ := C06_single_frame .can11_500 (.e11 2) (Or.inl rfl) Proto.can11_500.defaultMap [0x41, 0, 0, 0x10, 0, 0] []
      (by simp) (by simp) (by simp) "7EA 06 41 00 00 10 00 00".toList (by unfold CanLine Spells; decide +kernel)
    rw [g1] at hms
    cases hms
    intro t d
    constructor
    · rintro ⟨m', hm', g4, g5, -⟩
      rw [List.mem_singleton] at hm'
      subst hm'
      rw [g2] at g4
      cases g4
      exact ⟨rfl, by rw [← g5, g3]⟩
    · rintro ⟨rfl, rfl⟩
      exact ⟨m, by simp, g2, g3, by simp⟩
  have ht : t = 2 := by
    rcases hE with hE | ⟨hE, -⟩
    · obtain ⟨d, hd⟩ := hE.answered
      exact ((hans _ _).1 hd).1
    · exact absurd ((hans 2 _).2 ⟨rfl, rfl⟩) (hE _ _)
  subst ht
  obtain ⟨c, res, s', g1, g2, g3, g4, g5, g6⟩ := rpmRun_spec (dev := oddEngine) (s := oddEngineObd) (v := .qty 0 "rpm")
    (b := "7E8 04 41 0C 00 00\r7EA 04 41 0C 1A F8\r\r>") (lines := ["7E8 04 41 0C 00 00".toList, "7EA 04 41 0C 1A F8".toList])
    (by decide +kernel) (by decide +kernel)
  obtain ⟨res', hres, hv⟩ := h2 [] c true _ _ _ _ _ 0x1A 0xF8 g1 g2 g4 g5 (Or.inr g6)
    (.single (.e11 2) (Or.inl rfl) rfl [] (by simp) (by simp) "7EA 04 41 0C 1A F8".toList (by unfold CanLine Spells; decide +kernel) (by decide +kernel))
  cases hres
  rw [g3] at hv
  simp only [Value.qty.injEq] at hv
  have := hv.1
  have e1 : (0x1A : UInt8).toNat = 26 := rfl
  have e2 : (0xF8 : UInt8).toNat = 248 := rfl
  rw [e1, e2] at this
  norm_num at this

/-- A car with a talkative adapter and a second ECU. -/
def busyCar : Device := demo ([("010C", "SEARCHING...\r7E9 04 41 0C 00 00\r7E8 04 41 0C 1A F8\rBUS ERROR")] ++ table)
def busyObd : OW := (ObdM.construct busyCar fl0 ["COM1".toList] none true {}).2
def busyLines : List Str := ["SEARCHING...".toList, "7E9 04 41 0C 00 00".toList, "7E8 04 41 0C 1A F8".toList, "BUS ERROR".toList]

theorem busy_not_trips : ¬ Trips .can11_500 busyLines := by
  have hf : ∀ t, framesBy .can11_500 t busyLines = [] ∨ framesBy .can11_500 t busyLines = [[4, 0x41, 0x0C, 0, 0]] ∨
      framesBy .can11_500 t busyLines = [[4, 0x41, 0x0C, 0x1A, 0xF8]] := by
    intro t
    have h1 : busyLines.filterMap (lineFrame? .can11_500) = [(1, [4, 0x41, 0x0C, 0, 0]), (0, [4, 0x41, 0x0C, 0x1A, 0xF8])] := by decide +kernel
    unfold framesBy
    rw [h1]
    by_cases h0 : t = 0
    · subst h0; right; right; rfl
    · by_cases h1 : t = 1
      · subst h1; right; left; rfl
      · left
        have e0 : (0 == t) = false := by simpa using fun h => h0 h.symm
        have e1 : (1 == t) = false := by simpa using fun h => h1 h.symm
        simp [e0, e1]
  rintro (⟨n, t, -, h⟩ | ⟨h, -⟩)
  · rcases hf t with h0 | h0 | h0 <;> rw [h0] at h
    · cases h with
      | single a rest h ha hd => cases h
      | segmented first bs cfs h1 => cases h1
    · cases h with
      | single a rest h ha hd => cases h; cases hd
      | segmented first bs cfs h1 => cases h1
    · cases h with
      | single a rest h ha hd => cases h; cases hd
      | segmented first bs cfs h1 => cases h1
  · cases h

/-- Everything the theorems ask for happens with this car: the engine is ECU 0, it says
`41 0C 1A F8`, and the response is 1726 rpm. -/
example : Constructed busyCar fl0 { ports := ["COM1".toList] } busyObd ∧ status busyObd = .carConnected ∧
    (∃ c res s', byName "RPM" = some c ∧ query busyCar fl0 c true busyObd = (.ok res, s') ∧ res.value = .qty 1726 "rpm" ∧
      s'.hist = busyObd.hist ++ rpmEvents "SEARCHING...\r7E9 04 41 0C 00 00\r7E8 04 41 0C 1A F8\rBUS ERROR\r\r>" ∧
      Ends (rpmEvents "SEARCHING...\r7E9 04 41 0C 00 00\r7E8 04 41 0C 1A F8\rBUS ERROR\r\r>") (ascii "010C") busyLines ∧
      CommandString c (ascii "010C")) ∧
    ¬ Trips .can11_500 busyLines ∧ NoImpostor .can11_500 0 busyLines ∧ Says .can11_500 0 [0x41, 0x0C, 0x1A, 0xF8] busyLines := by
  refine ⟨constructed_of (by decide +kernel), by decide +kernel, rpmRun_spec (by decide +kernel) (by decide +kernel), busy_not_trips, ?_, ?_⟩
  · intro e he hne
    cases he
    exact absurd rfl hne
  · exact .single (.e11 0) (Or.inl rfl) rfl [] (by simp) (by simp) "7E8 04 41 0C 1A F8".toList (by unfold CanLine Spells; decide +kernel)
      (by decide +kernel)

/-! ## C62: only answers to the request are decoded -/

/-- C62 in full: a response that is not null holds an answer to the request, for every command
of the tables with a mode and a PID. -/
def C62_full : Prop :=
  ∀ (dev : Device) (fl : Str → Option PyFloat) (s : OW), Reachable dev fl s → ∀ (c : OBDCommand) (force : Bool) (r : Response) (s' : OW)
    (mode pid : Nat), c ∈ allCommands → c.mode = .ok (some mode) → c.pid = .ok (some pid) →
    query dev fl c force s = (.ok r, s') → r.isNull = false → ∃ m ∈ r.messages, AnswersTo mode pid m.data

/-- Where the messages of a response come from: from the reply to this very request (or its
repetition), sent by this query, not from an earlier one; from an ECU that the command listens
to; cut or filled to the size of the command.  On CAN the bytes are those of the frames of one ECU
(C10). -/
theorem C62_fresh (dev : Device) (fl : Str → Option PyFloat) (s : OW) (hr : Reachable dev fl s) (c : OBDCommand) (force : Bool)
    (r : Response) (s' : OW) (hq : query dev fl c force s = (.ok r, s')) (m : Message) (hm : m ∈ r.messages) :
    ∃ e o evs cmd lines ms m', s.interface = some e ∧ e.protocol = some o ∧ s'.hist = s.hist ++ evs ∧ Ends evs cmd lines ∧
      (cmd = [] ∨ CommandString c cmd) ∧ o.call lines = .ok ms ∧ m' ∈ ms ∧ Overlap c.ecu m'.ecu ∧ m'.ecu = m.ecu ∧ m.data = fit c.bytes m'.data ∧
      ∀ n t, o.cls.family = .can n → m'.txId = some t → ∃ d, Explains (framesBy o.cls t lines) d ∧ m'.data = dtcCut d := by
  have hsnd := reachable_sound hr
  have hnn : r ≠ {} := by rintro rfl; cases hm
  have main : ∀ (s1 : OW) (e1 : Elm) (o : ProtoObj) (ev : History), Live s1 e1 o → s1.hist = s.hist ++ ev → body dev fl c s1 = (.ok r, s') →
      ∃ evs cmd lines ms m', s'.hist = s.hist ++ evs ∧ Ends evs cmd lines ∧
      (cmd = [] ∨ CommandString c cmd) ∧ o.call lines = .ok ms ∧ m' ∈ ms ∧ Overlap c.ecu m'.ecu ∧ m'.ecu = m.ecu ∧ m.data = fit c.bytes m'.data ∧
      ∀ n t, o.cls.family = .can n → m'.txId = some t → ∃ d, Explains (framesBy o.cls t lines) d ∧ m'.data = dtcCut d := by
    intro s1 e1 o ev hl1 hh1 hb
    rcases body_cases (dev := dev) (fl := fl) (c := c) hl1 with ⟨pre, l1, ev1, x, h1, h2, h3, h4⟩ | ⟨pre, l1, ev1, ms, h1, h2, h3, h4⟩ | ⟨ev1, h1, h4⟩
    · rw [h4] at hb; cases hb
    · rw [h4] at hb
      have h5 : s1.hist ++ ev1 = s'.hist := congrArg (fun x : Except Exc Response × OW => x.2.hist) hb
      have h6 := congrArg Prod.fst hb
      simp only at h6
      by_cases hms : ms = []
      · rw [if_pos hms] at h6; cases h6; cases hm
      · rw [if_neg hms] at h6
        rw [call_eq] at h6
        simp only at h6
        split at h6
        · cases h6; cases hm
        · split at h6
          · cases h6
            obtain ⟨m', hm', rfl⟩ := List.mem_map.1 hm
            obtain ⟨hm1, hm2⟩ := List.mem_filter.1 hm'
            refine ⟨ev ++ ev1, buildCommand s1 c, l1, ms, m', by rw [← h5, hh1, List.append_assoc], dialogue_ends h2, build_string s1 c, h3, hm1,
              by simpa using hm2, rfl, rfl, ?_⟩
            intro n t hf ht
            exact (C10_sound o.cls n hf o.ecuMap l1 ms h3 m' hm1 t ht).2
          · cases h6
    · rw [h4] at hb
      have h6 := congrArg Prod.fst hb
      cases h6
      cases hm
  rcases query_cases dev fl c force s with ⟨h1, -⟩ | ⟨x, h1, -⟩ | ⟨h1, hst, -⟩
  · rw [h1] at hq; cases hq; exact absurd rfl hnn
  · rw [h1] at hq; cases hq
  · obtain ⟨e, o, hl⟩ := live_of_sound hsnd hst
    refine ⟨e, o, ?_⟩
    suffices h : ∃ evs cmd lines ms m', s'.hist = s.hist ++ evs ∧ Ends evs cmd lines ∧
        (cmd = [] ∨ CommandString c cmd) ∧ o.call lines = .ok ms ∧ m' ∈ ms ∧ Overlap c.ecu m'.ecu ∧ m'.ecu = m.ecu ∧ m.data = fit c.bytes m'.data ∧
        ∀ n t, o.cls.family = .can n → m'.txId = some t → ∃ d, Explains (framesBy o.cls t lines) d ∧ m'.data = dtcCut d by
      obtain ⟨evs, cmd, lines, ms, m', h⟩ := h
      exact ⟨evs, cmd, lines, ms, m', hl.iface, hl.proto, h⟩
    rw [h1, exchange_eq] at hq
    by_cases hd : c.header = s.lastHeader
    · rw [PyM.bind_ok (setHeader_same hd)] at hq
      exact main s e o [] hl (by simp) hq
    · rcases setHeader_cases (dev := dev) hl hd with ⟨pre, l1, ev1, x, h2, h3, h4, h5⟩ | ⟨pre, l1, ev1, ms, h2, h3, h4, h5⟩ | ⟨ev1, h2, h5⟩
      · rw [PyM.bind_apply, h5] at hq; cases hq
      · rw [PyM.bind_ok h5] at hq
        exact main _ { e with lowPower := false } o ev1 ⟨rfl, hl.status, hl.port, hl.proto⟩ rfl hq
      · rw [PyM.bind_ok h5, body_nc (e := lost { e with lowPower := false }) rfl rfl] at hq
        have h6 := congrArg Prod.fst hq
        simp only at h6
        split at h6
        · cases h6; exact absurd rfl hnn
        · cases h6

/-- What holds: if the ECUs that the command listens to only send answers to the request, then a
response that is not null holds such an answer. -/
theorem C62_partial (dev : Device) (fl : Str → Option PyFloat) (s : OW) (hr : Reachable dev fl s) (c : OBDCommand) (force : Bool)
    (r : Response) (s' : OW) (mode pid : Nat) (hc : c.bytes ≠ 1) (hq : query dev fl c force s = (.ok r, s'))
    (hn : r.isNull = false)
    (hans : ∀ e o evs cmd lines ms m, s.interface = some e → e.protocol = some o → s'.hist = s.hist ++ evs → Ends evs cmd lines →
      o.call lines = .ok ms → m ∈ ms → Overlap c.ecu m.ecu → AnswersTo mode pid m.data) :
    ∃ m ∈ r.messages, AnswersTo mode pid m.data := by
  have hne : r.messages ≠ [] := by
    intro h0
    unfold Response.isNull at hn
    rw [h0] at hn
    cases hn
  obtain ⟨m, hm⟩ := List.exists_mem_of_ne_nil _ hne
  refine ⟨m, hm, ?_⟩
  obtain ⟨e, o, evs, cmd, lines, ms, m', h1, h2, h3, h4, -, h6, h7, h8, -, h9, -⟩ := C62_fresh dev fl s hr c force r s' hq m hm
  obtain ⟨a, b, rest, h10, h11, h12⟩ := hans e o evs cmd lines ms m' h1 h2 h3 h4 h6 h7 h8
  rw [h9, h10]
  unfold fit
  split
  · exact ⟨a, b, rest, rfl, h11, h12⟩
  · next h0 =>
    obtain ⟨k, hk⟩ : ∃ k, c.bytes = k + 2 := ⟨c.bytes - 2, by omega⟩
    rw [hk]
    exact ⟨a, b, _, rfl, h11, h12⟩

/-- A car that refuses the request (negative response `7F 01 12`). -/
def refusing : Device := demo ([("010C", "7E8 03 7F 01 12")] ++ table)
def refusingObd : OW := (ObdM.construct refusing fl0 ["COM1".toList] none true {}).2

/-- The refusal is decoded as 1152 rpm. -/
theorem C62_refuted : ¬ C62_full := by
  intro h
  have hc : Constructed refusing fl0 { ports := ["COM1".toList] } refusingObd := constructed_of (by decide +kernel)
  obtain ⟨c, res, s', g1, g2, g3, -, -, -⟩ := rpmRun_spec (dev := refusing) (s := refusingObd) (v := .qty 1152 "rpm")
    (b := "7E8 03 7F 01 12\r\r>") (lines := ["7E8 03 7F 01 12".toList]) (by decide +kernel) (by decide +kernel)
  have hattr : (byName "RPM").map (fun c => (c.mode.toOption, c.pid.toOption)) = some (some (some 1), some (some 12)) := by decide +kernel
  have hresp : (byName "RPM").map (fun c => (query refusing fl0 c true refusingObd).1.toOption.map (fun r => (r.isNull, r.messages.map Message.data))) =
      some (some (false, [[0x7F, 1, 0x12, 0]])) := by decide +kernel
  rw [g1] at hattr hresp
  simp only [Option.map_some, Option.some.injEq, Prod.mk.injEq, g2, Except.toOption] at hattr hresp
  obtain ⟨a1, a2⟩ := hattr
  obtain ⟨a3, a4⟩ := hresp
  have e1 : c.mode = .ok (some 1) := by
    cases hm : c.mode with
    | error x => rw [hm] at a1; cases a1
    | ok v => rw [hm] at a1; simpa using a1
  have e2 : c.pid = .ok (some 12) := by
    cases hm : c.pid with
    | error x => rw [hm] at a2; cases a2
    | ok v => rw [hm] at a2; simpa using a2
  obtain ⟨m, hm1, a, b, rest, h1, h2, -⟩ := h refusing fl0 refusingObd ⟨_, _, [], hc, rfl⟩ c true res s' 1 12 (mem_of_byName g1) e1 e2 g2 a3
  have : m.data ∈ [[0x7F, 1, 0x12, 0]] := by rw [← a4]; exact List.mem_map.2 ⟨m, hm1, rfl⟩
  rw [List.mem_singleton, h1] at this
  cases this
  cases h2

/-- The demo car answers properly, so `C62_partial` applies. -/
example : ∃ m ∈ ((query (demo table) fl0 tableRpm true (demoObd true)).1.toOption.map Response.messages).getD [], AnswersTo 1 12 m.data := by
  have h : (((query (demo table) fl0 tableRpm true (demoObd true)).1.toOption.map Response.messages).getD []).map (·.data) = [[0x41, 0x0C, 0x1A, 0xF8]] := by
    decide +kernel
  obtain ⟨m, hm⟩ : ∃ m, ((query (demo table) fl0 tableRpm true (demoObd true)).1.toOption.map Response.messages).getD [] = [m] ∧ m.data = [0x41, 0x0C, 0x1A, 0xF8] := by
    cases hx : ((query (demo table) fl0 tableRpm true (demoObd true)).1.toOption.map Response.messages).getD [] with
    | nil => rw [hx] at h; cases h
    | cons m rest => rw [hx] at h; cases rest with
      | nil => exact ⟨m, rfl, by simpa using h⟩
      | cons => simp at h
  exact ⟨m, by rw [hm.1]; simp, _, _, _, hm.2, rfl, rfl⟩

end Props
