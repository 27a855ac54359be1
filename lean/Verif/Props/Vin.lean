import Verif.Lemmas.Strip
import Verif.Props.Enums
/-!
# C37, C38, C65: identification strings
-/
namespace Props
open Py Model Spec

theorem payload_cons (m : Message) (rest : List Message) : payload (m :: rest) = .ok (m.data.drop 2) := rfl

/-- The bytes that the decoder keeps of `pre ++ text ++ post`. -/
theorem decode_padded (m : Message) (rest : List Message) (n : Nat) (x y : UInt8) (pre text post : Bytes)
    (hm : m.data = x :: y :: (pre ++ text ++ post)) (hn : n ≤ (pre ++ text ++ post).length)
    (hpre : ∀ b ∈ pre, b = 0 ∨ b = 1 ∨ b = 2) (hpost : ∀ b ∈ post, b = 0)
    (hh : pre ≠ [] ∨ ∀ b, text.head? = some b → isSpaceByte b = false)
    (hl : post ≠ [] ∨ ∀ b, text.getLast? = some b → isSpaceByte b = false) (ht : text ≠ []) :
    decodeEncodedString (m :: rest) n = .ok (some (stripBy stripSet text)) := by
  have hsp : ∀ b : UInt8, b = 0 ∨ b = 1 ∨ b = 2 → isSpaceByte b = false := by rintro b (rfl | rfl | rfl) <;> decide
  have hst : ∀ b : UInt8, b = 0 ∨ b = 1 ∨ b = 2 → stripSet b = true := by rintro b (rfl | rfl | rfl) <;> decide
  simp only [decodeEncodedString, payload_cons, hm, List.drop_succ_cons, List.drop_zero, bind, Except.bind]
  rw [if_neg (by omega)]
  have e1 : stripBy isSpaceByte (pre ++ text ++ post) = pre ++ text ++ post := by
    apply stripBy_id
    · intro b hb
      cases pre with
      | cons p ps =>
        simp only [List.cons_append, List.head?_cons, Option.some.injEq] at hb
        subst hb; exact hsp _ (hpre _ (List.mem_cons_self ..))
      | nil =>
        obtain ⟨t, ts, rfl⟩ := List.exists_cons_of_ne_nil ht
        rcases hh with h | h
        · exact absurd rfl h
        · simp only [List.nil_append, List.cons_append, List.head?_cons, Option.some.injEq] at hb
          exact h b (by simpa using hb)
    · intro b hb
      rw [List.getLast?_append, List.getLast?_append] at hb
      cases hp : post.getLast? with
      | some q =>
        rw [hp] at hb
        simp only [Option.some_or, Option.some.injEq] at hb
        subst hb; exact hsp _ (Or.inl (hpost _ (List.mem_of_getLast? hp)))
      | none =>
        have : post = [] := List.getLast?_eq_none_iff.1 hp
        rcases hl with h | h
        · exact absurd this h
        · cases hq : text.getLast? with
          | none => exact absurd (List.getLast?_eq_none_iff.1 hq) ht
          | some q =>
            rw [hp, hq] at hb
            simp only [Option.none_or, Option.some_or, Option.some.injEq] at hb
            subst hb; exact h q hq
  rw [e1, stripBy_pad stripSet pre text post (fun b hb => hst b (hpre b hb)) (fun b hb => hst b (Or.inl (hpost b hb)))]
  rfl

theorem alnum_strip : ∀ n : Fin 256, alnum (UInt8.ofNat n) = true →
    stripSet (UInt8.ofNat n) = digit012 (UInt8.ofNat n) ∧ isSpaceByte (UInt8.ofNat n) = false := by decide +kernel

theorem alnum_strip' (b : UInt8) (h : alnum b = true) : stripSet b = digit012 b ∧ isSpaceByte b = false := by
  have := alnum_strip ⟨b.toNat, b.toNat_lt⟩
  simp only [UInt8.ofNat_toNat] at this
  exact this h

theorem trimmed_congr {α} (p q : α → Bool) (l s : List α) (h : ∀ x ∈ l, p x = q x) (ht : Trimmed p l s) : Trimmed q l s := by
  obtain ⟨a, b, rfl, ha, hb, hh, hl⟩ := ht
  refine ⟨a, b, rfl, ?_, ?_, ?_, ?_⟩
  · intro x hx; rw [← h x (by simp [hx])]; exact ha x hx
  · intro x hx; rw [← h x (by simp [hx])]; exact hb x hx
  · intro x hx; rw [← h x (by simp [List.mem_of_mem_head? hx])]; exact hh x hx
  · intro x hx; rw [← h x (by simp [List.mem_of_getLast? hx])]; exact hl x hx

/-- Querying the VIN of a car that sends `vin`. -/
def C37_full : Prop :=
  ∀ (fl : Str → Option PyFloat) (c : OBDCommand), byName "VIN" = some c →
  ∀ (ms : List Message) (m : Message) (rest : List Message),
    ms.filter (fun m => decide (Overlap c.ecu m.ecu)) = m :: rest →
  ∀ (can : Bool) (vin : Bytes), IsVin vin → m.data = vinReply can vin →
    (c.call fl ms).map Response.value = .ok (.bytes vin)

theorem encoded_run (fl : Str → Option PyFloat) (n : Nat) (ms : List Message) (b : Bytes)
    (h : decodeEncodedString ms n = .ok (some b)) : Decoder.run fl (.encodedString n) ms = .ok (.bytes b) := by
  simp only [Decoder.run, h, bind, Except.bind]; rfl

theorem vin_command (c : OBDCommand) (hc : byName "VIN" = some c) : c.bytes = 22 ∧ c.decode = .encodedString 17 := by
  obtain ⟨hb, hp⟩ := decodedBy (names := ["VIN"]) (p := fun d => match d with | .encodedString 17 => true | _ => false)
    (n := 22) (by decide +kernel) (c := c) (by simp [hc])
  refine ⟨hb, ?_⟩
  revert hp
  split
  · next h => intro _; exact h
  · intro h; cases h

/-- C37, exactly what is returned: the VIN without the digits 0, 1 and 2 at its ends. -/
theorem C37_vin_partial (fl : Str → Option PyFloat) (c : OBDCommand) (hc : byName "VIN" = some c)
    (ms : List Message) (m : Message) (rest : List Message)
    (h : ms.filter (fun m => decide (Overlap c.ecu m.ecu)) = m :: rest)
    (can : Bool) (vin : Bytes) (hv : IsVin vin) (hd : m.data = vinReply can vin) :
    ∃ short, Trimmed digit012 vin short ∧ (c.call fl ms).map Response.value = .ok (.bytes short) := by
  obtain ⟨hb, hdec⟩ := vin_command c hc
  obtain ⟨hlen, halnum⟩ := hv
  rw [call_value fl c ms m rest h, hb, hdec]
  have ht : vin ≠ [] := by intro e; rw [e] at hlen; cases hlen
  refine ⟨stripBy stripSet vin, trimmed_congr stripSet digit012 vin _ (fun x hx => (alnum_strip' x (halnum x hx)).1)
    (stripBy_trimmed _ _), encoded_run fl 17 _ _ ?_⟩
  cases can with
  | true =>
    have hfit : fit 22 m.data = 0x49 :: 0x02 :: ([0x01] ++ vin ++ [0, 0]) := by
      rw [hd]
      simp only [fit, vinReply, if_true]
      rw [if_neg (by decide), List.take_append, List.take_of_length_le (by simp [hlen])]
      simp [hlen]
    exact decode_padded _ _ 17 0x49 0x02 [0x01] vin [0, 0] hfit (by simp [hlen]) (by simp) (by simp)
      (Or.inl (by simp)) (Or.inl (by simp)) ht
  | false =>
    have hfit : fit 22 m.data = 0x49 :: 0x02 :: ([0, 0, 0] ++ vin ++ []) := by
      rw [hd]
      simp only [fit, vinReply, Bool.false_eq_true, if_false]
      rw [if_neg (by decide), List.take_append_of_le_length (by simp [hlen]), List.take_of_length_le (by simp [hlen])]
      simp
    exact decode_padded _ _ 17 0x49 0x02 [0, 0, 0] vin [] hfit (by simp [hlen]) (by simp) (by simp)
      (Or.inl (by simp)) (Or.inr (fun b hb => (alnum_strip' b (halnum b (List.mem_of_getLast? hb))).2)) ht

/-- C37: a VIN that neither starts nor ends with 0, 1 or 2 is returned as sent. -/
theorem C37_kept_partial (fl : Str → Option PyFloat) (c : OBDCommand) (hc : byName "VIN" = some c)
    (ms : List Message) (m : Message) (rest : List Message)
    (h : ms.filter (fun m => decide (Overlap c.ecu m.ecu)) = m :: rest)
    (can : Bool) (vin : Bytes) (hv : IsVin vin) (hd : m.data = vinReply can vin)
    (hh : ∀ b, vin.head? = some b → digit012 b = false) (hl : ∀ b, vin.getLast? = some b → digit012 b = false) :
    (c.call fl ms).map Response.value = .ok (.bytes vin) := by
  obtain ⟨short, ht, hr⟩ := C37_vin_partial fl c hc ms m rest h can vin hv hd
  rw [hr, ← trimmed_unique digit012 vin short ht, stripBy_id digit012 vin hh hl]

/-- A VIN of the United States, starting with 1. -/
def usVin : Bytes := ascii "1HGCM82633A004352"
def frVin : Bytes := ascii "VF1BB05CF3600123X"

example : IsVin usVin ∧ IsVin frVin ∧ digit012 frVin.head! = false := ⟨⟨by decide, by decide⟩, ⟨by decide, by decide⟩, by decide⟩

theorem vin_witness : answer "VIN" (vinReply true usVin) = some (.ok (.bytes (ascii "HGCM82633A00435"))) := by decide +kernel

/-- The reply of one engine message, as an instance of the hypotheses of the theorems. -/
theorem answer_filter {name : String} {data : Bytes} {v : Value} (h : answer name data = some (.ok v)) :
    ∃ c, byName name = some c ∧
      (c.call (fun _ => none) [{ frames := [], ecu := ECU.engine, data := data }]).map Response.value = .ok v := by
  obtain ⟨c, r, hc, -, hv, hr⟩ := answer_spec h
  exact ⟨c, hc, by rw [hr, ← hv]; rfl⟩

theorem engine_kept {name : String} {c : OBDCommand} (hc : byName name = some c)
    (key : (match byName name with | some c => c.ecu.testBit 1 | none => false) = true) (data : Bytes) :
    [({ frames := [], ecu := ECU.engine, data := data } : Message)].filter (fun m => decide (Overlap c.ecu m.ecu)) =
      [{ frames := [], ecu := ECU.engine, data := data }] := by
  rw [hc] at key
  have : Overlap c.ecu ECU.engine := ⟨1, key, by decide⟩
  simp [this]

theorem C37_refuted : ¬ C37_full := by
  intro h
  obtain ⟨c, hc, hv⟩ := answer_filter vin_witness
  have := h (fun _ => none) c hc _ _ _ (engine_kept hc (by decide +kernel) (vinReply true usVin)) true usVin ⟨by decide, by decide⟩ rfl
  have := hv.symm.trans this
  exact absurd this (by decide)

/-! ## Calibration ID (C65) -/

def C65_full : Prop :=
  ∀ (fl : Str → Option PyFloat) (c : OBDCommand), byName "CALIBRATION_ID" = some c →
  ∀ (ms : List Message) (m : Message) (rest : List Message),
    ms.filter (fun m => decide (Overlap c.ecu m.ecu)) = m :: rest →
  ∀ (can : Bool) (id : Bytes), id.length = 16 → (∀ b ∈ id, alnum b = true) → m.data = calReply can id →
    (c.call fl ms).map Response.value = .ok (.bytes id)

theorem cal_command (c : OBDCommand) (hc : byName "CALIBRATION_ID" = some c) : c.bytes = 18 ∧ c.decode = .encodedString 16 := by
  obtain ⟨hb, hp⟩ := decodedBy (names := ["CALIBRATION_ID"]) (p := fun d => match d with | .encodedString 16 => true | _ => false)
    (n := 18) (by decide +kernel) (c := c) (by simp [hc])
  refine ⟨hb, ?_⟩
  revert hp
  split
  · next h => intro _; exact h
  · intro h; cases h

/-- C65: on the protocols other than CAN, a 16-character calibration ID is returned without
the digits 0, 1 and 2 at its ends; on CAN its last character is lost first. -/
theorem C65_calibration_partial (fl : Str → Option PyFloat) (c : OBDCommand) (hc : byName "CALIBRATION_ID" = some c)
    (ms : List Message) (m : Message) (rest : List Message)
    (h : ms.filter (fun m => decide (Overlap c.ecu m.ecu)) = m :: rest)
    (can : Bool) (id : Bytes) (hlen : id.length = 16) (halnum : ∀ b ∈ id, alnum b = true) (hd : m.data = calReply can id) :
    ∃ short, Trimmed digit012 (if can then id.take 15 else id) short ∧
      (c.call fl ms).map Response.value = .ok (.bytes short) := by
  obtain ⟨hb, hdec⟩ := cal_command c hc
  rw [call_value fl c ms m rest h, hb, hdec]
  have hmem : ∀ b ∈ (if can then id.take 15 else id), alnum b = true := by
    intro b hb; split at hb
    · exact halnum b (List.mem_of_mem_take hb)
    · exact halnum b hb
  refine ⟨stripBy stripSet (if can then id.take 15 else id), trimmed_congr stripSet digit012 _ _
    (fun x hx => (alnum_strip' x (hmem x hx)).1) (stripBy_trimmed _ _), encoded_run fl 16 _ _ ?_⟩
  have hsp : ∀ b ∈ (if can then id.take 15 else id), isSpaceByte b = false := fun b hb => (alnum_strip' b (hmem b hb)).2
  cases can with
  | true =>
    have hfit : fit 18 m.data = 0x49 :: 0x04 :: ([0x01] ++ id.take 15 ++ []) := by
      rw [hd]
      simp only [fit, calReply, if_true]
      rw [if_neg (by decide)]
      simp only [List.cons_append, List.take_succ_cons, List.nil_append, List.append_nil]
      rw [List.take_append_of_le_length (by omega)]
    have hl : (id.take 15).length = 15 := by simp [hlen]
    exact decode_padded _ _ 16 0x49 0x04 [0x01] (id.take 15) [] hfit (by simp [hlen]) (by simp) (by simp)
      (Or.inl (by simp)) (Or.inr (fun b hb => hsp b (List.mem_of_getLast? hb)))
      (by intro e; rw [e] at hl; cases hl)
  | false =>
    have hfit : fit 18 m.data = 0x49 :: 0x04 :: ([] ++ id ++ []) := by
      rw [hd]
      simp only [fit, calReply, Bool.false_eq_true, if_false]
      rw [if_neg (by decide), List.take_append_of_le_length (by simp [hlen]), List.take_of_length_le (by simp [hlen])]
      simp
    exact decode_padded _ _ 16 0x49 0x04 [] id [] hfit (by simp [hlen]) (by simp) (by simp)
      (Or.inr (fun b hb => hsp b (List.mem_of_mem_head? hb))) (Or.inr (fun b hb => hsp b (List.mem_of_getLast? hb)))
      (by intro e; rw [e] at hlen; cases hlen)

theorem cal_witness : answer "CALIBRATION_ID" (calReply true (ascii "ABCDEFGHIJKLMNOP")) =
    some (.ok (.bytes (ascii "ABCDEFGHIJKLMNO"))) := by decide +kernel

theorem C65_refuted : ¬ C65_full := by
  intro h
  obtain ⟨c, hc, hv⟩ := answer_filter cal_witness
  have := h (fun _ => none) c hc _ _ _ (engine_kept hc (by decide +kernel) (calReply true _)) true (ascii "ABCDEFGHIJKLMNOP")
    (by decide) (by decide) rfl
  have := hv.symm.trans this
  exact absurd this (by decide)

/-! ## Calibration verification number (C38) -/

def C38_full : Prop :=
  ∀ (fl : Str → Option PyFloat) (c : OBDCommand), byName "CVN" = some c →
  ∀ (ms : List Message) (m : Message) (rest : List Message),
    ms.filter (fun m => decide (Overlap c.ecu m.ecu)) = m :: rest →
  ∀ (can : Bool) (cvn : Bytes), cvn.length = 4 → m.data = cvnReply can cvn →
    ∃ s, (c.call fl ms).map Response.value = .ok (.str s) ∧ unhexlify s = .ok cvn

theorem cvn_command (c : OBDCommand) (hc : byName "CVN" = some c) : c.bytes = 10 ∧ c.decode = .cvn := by
  obtain ⟨hb, hp⟩ := decodedBy (names := ["CVN"]) (p := fun d => match d with | .cvn => true | _ => false)
    (n := 10) (by decide +kernel) (c := c) (by simp [hc])
  exact ⟨hb, by revert hp; cases c.decode <;> simp⟩

/-- The bytes lost at the ends of a calibration verification number: 00, 01, 02 and the
ASCII codes of the characters backslash, x, 0, 1 and 2. -/
def cvnLost (b : UInt8) : Bool := b.toNat ∈ [0x00, 0x01, 0x02, 0x5C, 0x78, 0x30, 0x31, 0x32]

theorem stripSet_lost : ∀ n : Fin 256, stripSet (UInt8.ofNat n) = cvnLost (UInt8.ofNat n) := by decide +kernel

/-- C38: what is returned for a CVN: the hex digits of the number without certain bytes at its
ends. -/
theorem C38_cvn_partial (fl : Str → Option PyFloat) (c : OBDCommand) (hc : byName "CVN" = some c)
    (ms : List Message) (m : Message) (rest : List Message)
    (h : ms.filter (fun m => decide (Overlap c.ecu m.ecu)) = m :: rest)
    (can : Bool) (cvn : Bytes) (hlen : cvn.length = 4) (hd : m.data = cvnReply can cvn)
    (hsp : can = true ∨ ∀ b, cvn.head? = some b → isSpaceByte b = false) :
    ∃ short s, Trimmed cvnLost cvn short ∧ (c.call fl ms).map Response.value = .ok (.str s) ∧ unhexlify s = .ok short := by
  obtain ⟨hb, hdec⟩ := cvn_command c hc
  rw [call_value fl c ms m rest h, hb, hdec]
  have ht : cvn ≠ [] := by intro e; rw [e] at hlen; cases hlen
  have main : ∀ m' rest', m'.data = fit 10 m.data → decodeEncodedString (m' :: rest') 4 = .ok (some (stripBy stripSet cvn)) := by
    intro m' rest' e
    cases can with
    | true =>
      have hfit : fit 10 m.data = 0x49 :: 0x06 :: ([0x01] ++ cvn ++ [0, 0, 0]) := by
        rw [hd]
        simp only [fit, cvnReply, if_true]
        rw [if_neg (by decide), List.take_append, List.take_of_length_le (by simp [hlen])]
        simp [hlen]
      exact decode_padded _ _ 4 0x49 0x06 [0x01] cvn [0, 0, 0] (e.trans hfit) (by simp [hlen]) (by simp) (by simp)
        (Or.inl (by simp)) (Or.inl (by simp)) ht
    | false =>
      have hfit : fit 10 m.data = 0x49 :: 0x06 :: ([] ++ cvn ++ [0, 0, 0, 0]) := by
        rw [hd]
        simp only [fit, cvnReply, Bool.false_eq_true, if_false]
        rw [if_neg (by decide), List.take_append, List.take_of_length_le (by simp [hlen])]
        simp [hlen]
      exact decode_padded _ _ 4 0x49 0x06 [] cvn [0, 0, 0, 0] (e.trans hfit) (by simp [hlen]) (by simp) (by simp)
        (Or.inr (by rcases hsp with h | h
                    · cases h
                    · exact h)) (Or.inl (by simp)) ht
  refine ⟨stripBy stripSet cvn, bytesToHex (stripBy stripSet cvn), trimmed_congr stripSet cvnLost _ _ (fun x _ => ?_)
    (stripBy_trimmed _ _), ?_, C02_roundtrip _⟩
  · have := stripSet_lost ⟨x.toNat, x.toNat_lt⟩
    simpa using this
  · simp only [Decoder.run, decCvn]
    rw [main _ _ rfl]
    rfl

/-- C38, the rest of the legacy layout: there a CVN loses first the ASCII whitespace bytes (09 to 0D and 20) in front, and of what
is left the same bytes at the ends as before.  With `C38_cvn_partial` this covers every reply. -/
theorem C38_legacy_partial (fl : Str → Option PyFloat) (c : OBDCommand) (hc : byName "CVN" = some c)
    (ms : List Message) (m : Message) (rest : List Message)
    (h : ms.filter (fun m => decide (Overlap c.ecu m.ecu)) = m :: rest)
    (cvn : Bytes) (hlen : cvn.length = 4) (hd : m.data = cvnReply false cvn) :
    ∃ blanks inner short s, cvn = blanks ++ inner ∧ (∀ b ∈ blanks, (9 ≤ b.toNat ∧ b.toNat ≤ 13) ∨ b.toNat = 32) ∧
      (∀ b, inner.head? = some b → ¬ ((9 ≤ b.toNat ∧ b.toNat ≤ 13) ∨ b.toNat = 32)) ∧
      Trimmed cvnLost inner short ∧ (c.call fl ms).map Response.value = .ok (.str s) ∧ unhexlify s = .ok short := by
  obtain ⟨hb, hdec⟩ := cvn_command c hc
  rw [call_value fl c ms m rest h, hb, hdec]
  have hsp : ∀ b : UInt8, isSpaceByte b = true ↔ (9 ≤ b.toNat ∧ b.toNat ≤ 13) ∨ b.toNat = 32 := by intro b; simp [isSpaceByte]
  obtain ⟨blanks, hsplit, hbl⟩ := dropWhile_split isSpaceByte cvn
  have hhead : ∀ b, (cvn.dropWhile isSpaceByte).head? = some b → isSpaceByte b = false := by
    intro b hb
    have := List.head?_dropWhile_not isSpaceByte cvn
    rw [hb] at this
    exact this
  have hfit : fit 10 m.data = 0x49 :: 0x06 :: (cvn ++ [0, 0, 0, 0]) := by
    rw [hd]
    simp only [fit, cvnReply, Bool.false_eq_true, if_false]
    rw [if_neg (by decide), List.take_append, List.take_of_length_le (by simp [hlen])]
    simp [hlen]
  have main : ∀ m' rest', m'.data = fit 10 m.data → decodeEncodedString (m' :: rest') 4 = .ok (some (stripBy stripSet (cvn.dropWhile isSpaceByte))) := by
    intro m' rest' e
    have e1 : stripBy isSpaceByte (cvn ++ [0, 0, 0, 0]) = cvn.dropWhile isSpaceByte ++ [0, 0, 0, 0] := by
      refine trimmed_unique isSpaceByte _ _ ⟨blanks, [], ?_, hbl, by simp, ?_, ?_⟩
      · rw [List.append_nil, ← List.append_assoc, ← hsplit]
      · intro b hb
        cases hq : cvn.dropWhile isSpaceByte with
        | nil => rw [hq] at hb; simp at hb; subst hb; decide
        | cons x xs => rw [hq] at hb; simp at hb; subst hb; exact hhead x (by rw [hq]; rfl)
      · intro b hb
        rw [List.getLast?_append] at hb
        simp at hb
        subst hb; decide
    simp only [decodeEncodedString, payload_cons, e.trans hfit, List.drop_succ_cons, List.drop_zero, bind, Except.bind]
    rw [if_neg (by simp), e1]
    have := stripBy_pad stripSet [] (cvn.dropWhile isSpaceByte) [0, 0, 0, 0] (by simp) (by decide)
    rw [List.nil_append] at this
    rw [this]
    rfl
  refine ⟨blanks, cvn.dropWhile isSpaceByte, stripBy stripSet (cvn.dropWhile isSpaceByte), _, hsplit, fun b hb => (hsp b).1 (hbl b hb),
    fun b hb he => ?_, trimmed_congr stripSet cvnLost _ _ (fun x _ => ?_) (stripBy_trimmed _ _), ?_, C02_roundtrip _⟩
  · exact absurd ((hsp b).2 he) (by rw [hhead b hb]; decide)
  · have := stripSet_lost ⟨x.toNat, x.toNat_lt⟩
    simpa using this
  · simp only [Decoder.run, decCvn]
    rw [main _ _ rfl]
    rfl

example : answer "CVN" (cvnReply false [0x20, 0x31, 0xBC, 0x41]) = some (.ok (.str "bc41".toList)) := by decide +kernel

/-- C38: on CAN, a CVN whose first and last bytes are not among those is returned completely. -/
theorem C38_kept_partial (fl : Str → Option PyFloat) (c : OBDCommand) (hc : byName "CVN" = some c)
    (ms : List Message) (m : Message) (rest : List Message)
    (h : ms.filter (fun m => decide (Overlap c.ecu m.ecu)) = m :: rest)
    (cvn : Bytes) (hlen : cvn.length = 4) (hd : m.data = cvnReply true cvn)
    (hh : ∀ b, cvn.head? = some b → cvnLost b = false) (hl : ∀ b, cvn.getLast? = some b → cvnLost b = false) :
    ∃ s, (c.call fl ms).map Response.value = .ok (.str s) ∧ unhexlify s = .ok cvn := by
  obtain ⟨short, s, ht, hr, hu⟩ := C38_cvn_partial fl c hc ms m rest h true cvn hlen hd (Or.inl rfl)
  refine ⟨s, hr, ?_⟩
  rw [hu, ← trimmed_unique cvnLost cvn short ht, stripBy_id cvnLost cvn hh hl]

example : cvnLost 0x18 = false ∧ cvnLost 0x4A = false := by decide

/-- C38, every reply: of the first eight bytes after mode and PID (zeros where the reply is shorter), first the ASCII
whitespace bytes at both ends are lost, then the bytes 00 01 02 5C 78 30 31 32 at both ends. -/
theorem C38_any_partial (fl : Str → Option PyFloat) (c : OBDCommand) (hc : byName "CVN" = some c)
    (ms : List Message) (m : Message) (rest : List Message)
    (h : ms.filter (fun m => decide (Overlap c.ecu m.ecu)) = m :: rest)
    (x y : UInt8) (d : Bytes) (hd : m.data = x :: y :: d) :
    ∃ inner short s, Trimmed (fun b : UInt8 => decide ((9 ≤ b.toNat ∧ b.toNat ≤ 13) ∨ b.toNat = 32)) (d.take 8 ++ List.replicate (8 - d.length) 0) inner ∧
      Trimmed cvnLost inner short ∧ (c.call fl ms).map Response.value = .ok (.str s) ∧ unhexlify s = .ok short := by
  obtain ⟨hb, hdec⟩ := cvn_command c hc
  rw [call_value fl c ms m rest h, hb, hdec]
  have hfit : fit 10 m.data = x :: y :: (d.take 8 ++ List.replicate (8 - d.length) 0) := by
    rw [hd, fit, if_neg (by decide), List.take_append, List.length_cons, List.length_cons, List.take_succ_cons, List.take_succ_cons,
      List.cons_append, List.cons_append]
    congr 3
    rw [List.take_replicate]
    congr 1
    omega
  have hlen : (d.take 8 ++ List.replicate (8 - d.length) (0 : UInt8)).length = 8 := by simp; omega
  refine ⟨_, _, _, trimmed_congr isSpaceByte _ _ _ (fun b _ => ?_) (stripBy_trimmed _ _),
    trimmed_congr stripSet cvnLost _ _ (fun b _ => ?_) (stripBy_trimmed _ _), ?_, C02_roundtrip _⟩
  · have : isSpaceByte b = true ↔ (9 ≤ b.toNat ∧ b.toNat ≤ 13) ∨ b.toNat = 32 := by simp [isSpaceByte]
    rw [Bool.eq_iff_iff, this, decide_eq_true_eq]
  · have := stripSet_lost ⟨b.toNat, b.toNat_lt⟩
    simpa using this
  · simp only [Decoder.run, decCvn, decodeEncodedString, payload_cons, hfit, List.drop_succ_cons, List.drop_zero, bind, Except.bind]
    rw [if_neg (by omega)]
    rfl

theorem trimmed_length {α} {p : α → Bool} {l s : List α} (h : Trimmed p l s) : s.length ≤ l.length := by
  obtain ⟨a, b, rfl, _⟩ := h
  simp; omega

/-- C38: two or more CVNs are *never* returned completely: of the reply of a CAN car with `n ≥ 2` of them (the count and then
four bytes each) fewer than `4 n` bytes come back. -/
theorem C38_several_refuted (fl : Str → Option PyFloat) (c : OBDCommand) (hc : byName "CVN" = some c)
    (ms : List Message) (m : Message) (rest : List Message)
    (h : ms.filter (fun m => decide (Overlap c.ecu m.ecu)) = m :: rest)
    (n : UInt8) (hn : 2 ≤ n.toNat) (cvns : Bytes) (_hlen : cvns.length = 4 * n.toNat) (hd : m.data = 0x49 :: 0x06 :: n :: cvns) :
    ∃ s got, (c.call fl ms).map Response.value = .ok (.str s) ∧ unhexlify s = .ok got ∧ got.length < 4 * n.toNat := by
  obtain ⟨inner, short, s, h1, h2, h3, h4⟩ := C38_any_partial fl c hc ms m rest h _ _ _ hd
  refine ⟨s, short, h3, h4, ?_⟩
  have hl : ((n :: cvns).take 8 ++ List.replicate (8 - (n :: cvns).length) (0 : UInt8)).length = 8 := by simp; omega
  have l1 := trimmed_length h1
  have l2 := trimmed_length h2
  by_cases h8 : 2 < n.toNat
  · omega
  · -- the count byte 02 itself is among the lost ones
    have e2 : n = 2 := UInt8.toNat_inj.1 (by show n.toNat = 2; omega)
    by_contra hc8
    have e8 : short.length = 8 := by
      have : n.toNat = 2 := by rw [e2]; rfl
      omega
    obtain ⟨a, b, hab, -, -, -, -⟩ := h1
    obtain ⟨a', b', hab', -, -, hh, -⟩ := h2
    have la := congrArg List.length hab
    have lb := congrArg List.length hab'
    simp only [List.length_append] at la lb
    rw [List.length_append] at hl
    have ea : a = [] := List.length_eq_zero_iff.1 (by omega)
    have ea' : a' = [] := List.length_eq_zero_iff.1 (by omega)
    have eb' : b' = [] := List.length_eq_zero_iff.1 (by omega)
    rw [ea', eb', List.nil_append, List.append_nil] at hab'
    rw [ea, List.nil_append, hab', e2] at hab
    have : short.head? = some 2 := by
      cases short with
      | nil => cases e8
      | cons q qs =>
        rw [List.take_succ_cons, List.cons_append, List.cons_append] at hab
        injection hab with hq _
        rw [← hq]; rfl
    exact absurd (hh 2 this) (by decide)

example : answer "CVN" [0x49, 0x06, 0x02, 0x18, 0x19, 0xBC, 0x42, 0x88, 0x89, 0x8A, 0x8B] = some (.ok (.str "1819bc4288898a".toList)) ∧
    answer "CVN" [0x49, 0x06, 0x03, 0x18, 0x19, 0xBC, 0x42, 0x88, 0x89, 0x8A, 0x8B, 0x01, 0x02, 0x03, 0x04] =
      some (.ok (.str "031819bc4288898a".toList)) := by decide +kernel

theorem cvn_witness : answer "CVN" (cvnReply true [0x17, 0x91, 0xBC, 0x00]) = some (.ok (.str "1791bc".toList)) := by decide +kernel

theorem C38_refuted : ¬ C38_full := by
  intro h
  obtain ⟨c, hc, hv⟩ := answer_filter cvn_witness
  obtain ⟨s, hs, hu⟩ := h (fun _ => none) c hc _ _ _ (engine_kept hc (by decide +kernel) (cvnReply true _)) true [0x17, 0x91, 0xBC, 0x00] rfl rfl
  have hs := hv.symm.trans hs
  injection hs with hs
  injection hs with hs
  subst hs
  revert hu
  decide

end Props
