import Verif.Spec.Dtc
import Verif.Lemmas.Utils
import Verif.Props.Sensors
/-!
# C31-C33: trouble codes
-/
namespace Props
open Py Model Spec

/-- The code of two bytes as the library writes it. -/
def codeOf (a b : UInt8) : Str :=
  [['P', 'C', 'B', 'U'][a.toNat / 64]!, lowerHex[a.toNat / 16 % 4]!, lowerHex[a.toNat % 16]!,
   lowerHex[b.toNat / 16]!, lowerHex[b.toNat % 16]!]

theorem digit_table : ∀ n : Fin 16, digit? lowerHex[n.val]! = some n.val := by decide

theorem letter_table : ∀ n : Fin 4, ['P', 'C', 'B', 'U'][n.val]? = some (['P', 'C', 'B', 'U'][n.val]!) := by decide

theorem dec_table : ∀ n : Fin 4, Nat.toDigits 10 n.val = [lowerHex[n.val]!] := by decide

theorem mask3 : ∀ n : Fin 16, (n.val &&& 0b0011) = n.val % 4 := by decide

theorem parseDtcPair_eq (a b : UInt8) : parseDtcPair a b = .ok (codeOf a b, dtcDesc (codeOf a b)) := by
  have ha := a.toNat_lt
  have hb := b.toNat_lt
  have h1 : idx ['P', 'C', 'B', 'U'] (a.toNat >>> 6) = .ok (['P', 'C', 'B', 'U'][a.toNat / 64]!) := by
    rw [Nat.shiftRight_eq_div_pow]
    unfold idx
    rw [show (2 : Nat) ^ 6 = 64 by rfl, letter_table ⟨a.toNat / 64, by omega⟩]
  have h2 : Nat.toDigits 10 ((a.toNat >>> 4) &&& 0b0011) = [lowerHex[a.toNat / 16 % 4]!] := by
    rw [Nat.shiftRight_eq_div_pow, show (2 : Nat) ^ 4 = 16 by rfl, mask3 ⟨a.toNat / 16, by omega⟩,
      dec_table ⟨a.toNat / 16 % 4, by omega⟩]
  have h3 : slice (bytesToHex [a, b]) 1 4 = [lowerHex[a.toNat % 16]!, lowerHex[b.toNat / 16]!, lowerHex[b.toNat % 16]!] := by
    rw [bytesToHex_eq]; rfl
  simp only [parseDtcPair, h1, h2, h3, bind, Except.bind]
  rfl

/-- Position of a code in dictionary order. -/
def rank (s : Str) : Nat := s.foldl (fun a c => a * 128 + c.toNat) 0

def increasing : List Nat → Bool
  | a :: b :: l => Nat.blt a b && increasing (b :: l)
  | _ => true

theorem dtc_increasing : increasing (dtcTable.map (fun e => rank e.1.toList)) = true := by decide +kernel

theorem increasing_pairwise : ∀ (l : List Nat), increasing l = true → l.Pairwise (· < ·)
  | [], _ => .nil
  | [_], _ => by simp
  | a :: b :: l, h => by
    simp only [increasing, Bool.and_eq_true, Nat.blt_eq] at h
    have ih := increasing_pairwise (b :: l) h.2
    rw [List.pairwise_cons]
    refine ⟨?_, ih⟩
    intro c hc
    rcases List.mem_cons.1 hc with rfl | hc
    · exact h.1
    · exact Nat.lt_trans h.1 ((List.pairwise_cons.1 ih).1 c hc)

theorem find_unique (t : List (String × String)) (h : (t.map (fun e => rank e.1.toList)).Pairwise (· < ·))
    (e : String × String) (he : e ∈ t) : t.find? (fun x => x.1.toList == e.1.toList) = some e := by
  induction t with
  | nil => cases he
  | cons x t ih =>
    rw [List.map_cons, List.pairwise_cons] at h
    rcases List.mem_cons.1 he with rfl | he
    · simp
    · rw [List.find?_cons_of_neg]
      · exact ih h.2 he
      · simp only [beq_iff_eq]
        intro hx
        have := h.1 (rank e.1.toList) (List.mem_map.2 ⟨e, he, rfl⟩)
        rw [hx] at this
        omega

theorem dtcDesc_table (e : String × String) (he : e ∈ dtcTable) : dtcDesc e.1.toList = e.2.toList := by
  unfold dtcDesc
  rw [find_unique dtcTable (increasing_pairwise _ dtc_increasing) e he]

theorem dtcDesc_absent (code : Str) (h : (dtcTable.map (fun e => rank e.1.toList)).all (fun r => !(r == rank code)) = true) :
    dtcDesc code = [] := by
  unfold dtcDesc
  rw [List.find?_eq_none.2]
  intro e he hc
  simp only [beq_iff_eq] at hc
  have := List.all_eq_true.1 h _ (List.mem_map.2 ⟨e, he, rfl⟩)
  rw [hc] at this
  simp at this

theorem mem_of_index (e : String × String) (i : Nat) (h : dtcTable[i]? = some e) : e ∈ dtcTable := List.mem_of_getElem? h

theorem parseDtcPair_known (a b : UInt8) (e : String × String) (he : e ∈ dtcTable) (h : codeOf a b = e.1.toList) :
    parseDtcPair a b = .ok (e.1.toList, e.2.toList) := by
  rw [parseDtcPair_eq, h, dtcDesc_table e he]

theorem codeOf_denotes (a b : UInt8) : Denotes (codeOf a b) a b := by
  have ha := a.toNat_lt
  have hb := b.toNat_lt
  exact ⟨_, _, _, _, _, rfl, letter_table ⟨a.toNat / 64, by omega⟩, digit_table ⟨a.toNat / 16 % 4, by omega⟩,
    digit_table ⟨a.toNat % 16, by omega⟩, digit_table ⟨b.toNat / 16, by omega⟩, digit_table ⟨b.toNat % 16, by omega⟩⟩

/-- The description is the one of the table, or empty for a code that is not in the table. -/
def Described (code desc : Str) : Prop :=
  (∀ e ∈ dtcTable, e.1.toList = code → desc = e.2.toList) ∧ ((∀ e ∈ dtcTable, e.1.toList ≠ code) → desc = [])

theorem dtcDesc_described (code : Str) : Described code (dtcDesc code) := by
  constructor
  · rintro e he rfl; exact dtcDesc_table e he
  · intro h
    unfold dtcDesc
    rw [List.find?_eq_none.2]
    intro e he hc
    exact h e he (by simpa using hc)

theorem letter_inj : ∀ m n : Fin 4, systemLetters[m.val]? = systemLetters[n.val]? → m = n := by decide

/-- C31: a code denotes at most one pair of bytes. -/
theorem C31_unambiguous (code : Str) (a b a' b' : UInt8) (h : Denotes code a b) (h' : Denotes code a' b') :
    a = a' ∧ b = b' := by
  obtain ⟨l, d, x, y, z, rfl, h1, h2, h3, h4, h5⟩ := h
  obtain ⟨l', d', x', y', z', he, h1', h2', h3', h4', h5'⟩ := h'
  simp only [List.cons.injEq, and_true] at he
  obtain ⟨rfl, rfl, rfl, rfl, rfl⟩ := he
  rw [h2, Option.some.injEq] at h2'
  rw [h3, Option.some.injEq] at h3'
  rw [h4, Option.some.injEq] at h4'
  rw [h5, Option.some.injEq] at h5'
  have hl := letter_inj ⟨a.toNat / 64, by have := a.toNat_lt; omega⟩ ⟨a'.toNat / 64, by have := a'.toNat_lt; omega⟩
    (by show systemLetters[a.toNat / 64]? = systemLetters[a'.toNat / 64]?; rw [h1, h1'])
  have hl' : a.toNat / 64 = a'.toNat / 64 := congrArg Fin.val hl
  exact ⟨UInt8.toNat_inj.1 (by omega), UInt8.toNat_inj.1 (by omega)⟩

example : Denotes "P0104".toList 0x01 0x04 ∧ Denotes "U212f".toList 0xE1 0x2F :=
  ⟨⟨'P', '0', '1', '0', '4', by decide +kernel⟩, ⟨'U', '2', '1', '2', 'f', by decide +kernel⟩⟩

/-- C31 in full, for a reply holding one trouble code: it is decoded to the code that the
two bytes denote, except that 00 00 means "no code". -/
def C31_full : Prop :=
  ∀ (fl : Str → Option PyFloat) (m : Message) (rest : List Message) (x y a b : UInt8), m.data = [x, y, a, b] →
    (¬ (a = 0 ∧ b = 0) → ∃ code desc, Decoder.run fl .singleDtc (m :: rest) = .ok (.dtc code desc) ∧ Denotes code a b) ∧
    (a = 0 ∧ b = 0 → Decoder.run fl .singleDtc (m :: rest) = .ok .none)

/-- C31 for everything but 00 00 -- which the code reports as P0000 without description. -/
theorem C31_single_partial (fl : Str → Option PyFloat) (m : Message) (rest : List Message) (x y a b : UInt8)
    (h : m.data = [x, y, a, b]) :
    ∃ code desc, Decoder.run fl .singleDtc (m :: rest) = .ok (.dtc code desc) ∧ Denotes code a b ∧
      Described code desc := by
  refine ⟨codeOf a b, dtcDesc (codeOf a b), ?_, codeOf_denotes a b, dtcDesc_described _⟩
  have hp : payload (m :: rest) = .ok [a, b] := by simp [payload, idx, h, bind, Except.bind, pure, Except.pure]
  simp only [Decoder.run, decSingleDtc, hp, bind, Except.bind, parseDtcPair_eq]
  rfl

/-- C31: any other length gives None. -/
theorem C31_length (fl : Str → Option PyFloat) (m : Message) (rest : List Message) (h : (m.data.drop 2).length ≠ 2) :
    Decoder.run fl .singleDtc (m :: rest) = .ok .none := by
  have hp : payload (m :: rest) = .ok (m.data.drop 2) := rfl
  simp only [Decoder.run, decSingleDtc, hp, bind, Except.bind]
  generalize m.data.drop 2 = d at h
  match d, h with
  | [], _ => rfl
  | [_], _ => rfl
  | [_, _], h => simp at h
  | _ :: _ :: _ :: _, _ => rfl

theorem C31_refuted : ¬ C31_full := by
  intro h
  have := (h (fun _ => none) { frames := [], data := [0x42, 0x02, 0, 0] } [] 0x42 0x02 0 0 rfl).2 ⟨rfl, rfl⟩
  obtain ⟨code, desc, h1, -⟩ := C31_single_partial (fun _ => none) { frames := [], data := [0x42, 0x02, 0, 0] } []
    0x42 0x02 0 0 rfl
  rw [h1] at this
  injection this with this
  cases this

example : Decoder.run (fun _ => none) .singleDtc [{ frames := [], data := [0x42, 0x02, 0x01, 0x04] }] =
    .ok (.dtc "P0104".toList "Mass or Volume Air Flow Circuit Intermittent".toList) := by decide +kernel
example : codeOf 0xE1 0x2F = "U212f".toList ∧ codeOf 0x41 0x23 = "C0123".toList := by decide

/-! ## C32 -/

/-- The decoded form of a pair of bytes. -/
def Decoded (p : UInt8 × UInt8) (c : Str × Str) : Prop := Denotes c.1 p.1 p.2 ∧ Described c.1 c.2

theorem dtcPairs_spec : ∀ (d : Bytes), ∃ cs, dtcPairs d = .ok cs ∧ List.Forall₂ Decoded (codePairs d) cs
  | a :: b :: rest => by
    obtain ⟨cs, h1, h2⟩ := dtcPairs_spec rest
    by_cases h : a = 0 ∧ b = 0
    · refine ⟨cs, ?_, ?_⟩
      · rw [dtcPairs, if_pos h]; exact h1
      · obtain ⟨rfl, rfl⟩ := h
        simpa [codePairs, pairs] using h2
    · refine ⟨(codeOf a b, dtcDesc (codeOf a b)) :: cs, ?_, ?_⟩
      · rw [dtcPairs, if_neg h]
        simp only [parseDtcPair_eq, h1, bind, Except.bind]; rfl
      · have : codePairs (a :: b :: rest) = (a, b) :: codePairs rest := by
          simp only [codePairs, pairs]
          rw [List.filter_cons_of_pos]
          simp only [ne_eq, Prod.mk.injEq, decide_eq_true_eq]; exact h
        rw [this]
        exact List.Forall₂.cons ⟨codeOf_denotes a b, dtcDesc_described _⟩ h2
  | [] => ⟨[], rfl, List.Forall₂.nil⟩
  | [_] => ⟨[], rfl, List.Forall₂.nil⟩

/-- The codes are those of the concatenated payloads, in order. -/
theorem C32_concatenated (fl : Str → Option PyFloat) (ms : List Message) :
    ∃ cs, Decoder.run fl .dtc ms = .ok (.dtcs cs) ∧
      List.Forall₂ Decoded (codePairs (ms.flatMap (fun m => m.data.drop 2))) cs := by
  obtain ⟨cs, h1, h2⟩ := dtcPairs_spec (ms.flatMap (fun m => m.data.drop 2))
  refine ⟨cs, ?_, h2⟩
  have : ms.foldl (fun acc m => acc ++ m.data.drop 2) [] = ms.flatMap (fun m => m.data.drop 2) := by
    rw [foldl_append_eq (fun (m : Message) => m.data.drop 2) ms []]; rfl
  simp only [Decoder.run, decDtc, this, h1, bind, Except.bind]
  rfl

/-- C32 in full: the codes of every message, message by message. -/
def C32_full : Prop :=
  ∀ (fl : Str → Option PyFloat) (ms : List Message), ∃ cs, Decoder.run fl .dtc ms = .ok (.dtcs cs) ∧
    List.Forall₂ Decoded (ms.flatMap (fun m => codePairs (m.data.drop 2))) cs

theorem codePairs_append : ∀ (d e : Bytes), d.length % 2 = 0 → codePairs (d ++ e) = codePairs d ++ codePairs e
  | a :: b :: rest, e, h => by
    have := codePairs_append rest e (by simp at h; omega)
    simp only [codePairs, List.cons_append, pairs, List.filter_cons] at this ⊢
    split <;> (first | (rw [this]; done) | (rw [this]; rfl))
  | [], e, _ => rfl
  | [_], _, h => by simp at h

/-- C32 if only the last message may have an odd payload (which no ECU sends). -/
theorem C32_even_partial (fl : Str → Option PyFloat) (ms : List Message)
    (h : ∀ m ∈ ms.dropLast, (m.data.drop 2).length % 2 = 0) :
    ∃ cs, Decoder.run fl .dtc ms = .ok (.dtcs cs) ∧
      List.Forall₂ Decoded (ms.flatMap (fun m => codePairs (m.data.drop 2))) cs := by
  obtain ⟨cs, h1, h2⟩ := C32_concatenated fl ms
  refine ⟨cs, h1, ?_⟩
  have key : codePairs (ms.flatMap (fun m => m.data.drop 2)) = ms.flatMap (fun m => codePairs (m.data.drop 2)) := by
    clear h1 h2
    induction ms with
    | nil => rfl
    | cons m ms ih =>
      cases ms with
      | nil => simp
      | cons m' ms' =>
        rw [List.flatMap_cons (x := m), List.flatMap_cons (x := m), codePairs_append _ _ (h m (by simp)), ih (fun x hx => h x (by
          simp only [List.dropLast_cons_cons]; exact List.mem_cons_of_mem _ hx))]
  rw [← key]; exact h2

theorem C32_refuted : ¬ C32_full := by
  intro h
  obtain ⟨cs, h1, h2⟩ := h (fun _ => none)
    [{ frames := [], data := [0x43, 1, 0x01] }, { frames := [], data := [0x43, 1, 0x02, 0x03] }]
  have e : Decoder.run (fun _ => none) .dtc
      [{ frames := [], data := [0x43, 1, 0x01] }, { frames := [], data := [0x43, 1, 0x02, 0x03] }] =
      .ok (.dtcs [("P0102".toList, "Mass or Volume Air Flow Circuit Low Input".toList)]) := by decide +kernel
  rw [e] at h1
  injection h1 with h1
  injection h1 with h1
  rw [← h1] at h2
  have hp : ([{ frames := [], data := [0x43, 1, 0x01] }, { frames := [], data := [0x43, 1, 0x02, 0x03] }] : List Message).flatMap
      (fun m => codePairs (m.data.drop 2)) = [(0x02, 0x03)] := by decide
  rw [hp] at h2
  cases h2 with
  | cons h _ =>
    have := (C31_unambiguous _ _ _ _ _ h.1 (codeOf_denotes 0x01 0x02)).1
    revert this; decide

example : Decoder.run (fun _ => none) .dtc
    [{ frames := [], data := [0x43, 2, 0x01, 0x04, 0x00, 0x00] }, { frames := [], data := [0x43, 1, 0x00, 0x03, 0x01] }] =
    .ok (.dtcs [("P0104".toList, "Mass or Volume Air Flow Circuit Intermittent".toList),
      ("P0003".toList, "Fuel Volume Regulator Control Circuit Low".toList)]) := by decide +kernel

/-! ## C33 -/

/-- C33 in full: the bytes of every code of the table are decoded with its description. -/
def C33_full : Prop :=
  ∀ (fl : Str → Option PyFloat) (e : String × String) (_ : e ∈ dtcTable) (x y a b : UInt8) (m : Message)
    (rest : List Message), Denotes e.1.toList a b → m.data = [x, y, a, b] →
    ∃ code, Decoder.run fl .singleDtc (m :: rest) = .ok (.dtc code e.2.toList)

theorem digit_dec (c : Char) (n : Nat) (hc : '0' ≤ c ∧ c ≤ '9') (h : digit? c = some n) : c = lowerHex[n]! := by
  have key : ∀ k : Fin 58, 48 ≤ k.val → digit? (Char.ofNat k.val) = some (k.val - 48) ∧
      Char.ofNat k.val = lowerHex[k.val - 48]! := by decide
  have h1 : 48 ≤ c.toNat := hc.1
  have h2 : c.toNat ≤ 57 := hc.2
  obtain ⟨k1, k2⟩ := key ⟨c.toNat, by omega⟩ h1
  simp only [Char.ofNat_toNat] at k1 k2
  rw [h, Option.some.injEq] at k1
  rw [k1]; exact k2

/-- C33 for the codes written with decimal digits only; the code is returned as written. -/
theorem C33_decimal_partial (fl : Str → Option PyFloat) (e : String × String) (he : e ∈ dtcTable)
    (x y a b : UInt8) (m : Message) (rest : List Message) (hd : Denotes e.1.toList a b)
    (hdec : ∀ c ∈ e.1.toList.drop 1, '0' ≤ c ∧ c ≤ '9') (h : m.data = [x, y, a, b]) :
    Decoder.run fl .singleDtc (m :: rest) = .ok (.dtc e.1.toList e.2.toList) := by
  have hcode : e.1.toList = codeOf a b := by
    obtain ⟨l, d, p, q, r, he, h1, h2, h3, h4, h5⟩ := hd
    rw [he] at hdec ⊢
    simp only [List.drop_succ_cons, List.drop_zero, List.mem_cons, List.not_mem_nil, or_false, forall_eq_or_imp,
      forall_eq] at hdec
    obtain ⟨c1, c2, c3, c4⟩ := hdec
    unfold codeOf
    rw [← digit_dec d _ c1 h2, ← digit_dec p _ c2 h3, ← digit_dec q _ c3 h4, ← digit_dec r _ c4 h5]
    have := letter_table ⟨a.toNat / 64, by have := a.toNat_lt; omega⟩
    simp only at this
    unfold systemLetters at h1
    rw [this, Option.some.injEq] at h1
    rw [h1]
  have hp : payload (m :: rest) = .ok [a, b] := by simp [payload, idx, h, bind, Except.bind, pure, Except.pure]
  simp only [Decoder.run, decSingleDtc, hp, bind, Except.bind, parseDtcPair_eq, ← hcode, dtcDesc_table e he]
  rfl

instance (s : Str) (a b : UInt8) : Decidable (Denotes s a b) :=
  match s with
  | [l, d, x, y, z] => decidable_of_iff (systemLetters[a.toNat / 64]? = some l ∧
      digit? d = some (a.toNat / 16 % 4) ∧ digit? x = some (a.toNat % 16) ∧
      digit? y = some (b.toNat / 16) ∧ digit? z = some (b.toNat % 16)) (by
        constructor
        · intro h; exact ⟨l, d, x, y, z, rfl, h⟩
        · rintro ⟨l', d', x', y', z', he, h⟩
          simp only [List.cons.injEq, and_true] at he
          obtain ⟨rfl, rfl, rfl, rfl, rfl⟩ := he
          exact h)
  | [] => isFalse (by rintro ⟨l, d, x, y, z, he, _⟩; cases he)
  | [_] => isFalse (by rintro ⟨l, d, x, y, z, he, _⟩; cases he)
  | [_, _] => isFalse (by rintro ⟨l, d, x, y, z, he, _⟩; cases he)
  | [_, _, _] => isFalse (by rintro ⟨l, d, x, y, z, he, _⟩; cases he)
  | [_, _, _, _] => isFalse (by rintro ⟨l, d, x, y, z, he, _⟩; cases he)
  | _ :: _ :: _ :: _ :: _ :: _ :: _ => isFalse (by rintro ⟨l, d, x, y, z, he, _⟩; cases he)

theorem p0a00_mem : ("P0A00", "Motor Electronics Coolant Temperature Sensor Circuit") ∈ dtcTable :=
  mem_of_index _ 994 (by decide +kernel)

theorem p0a00_desc : dtcDesc (codeOf 0x0A 0x00) = [] := dtcDesc_absent _ (by decide +kernel)

theorem C33_refuted : ¬ C33_full := by
  intro h
  obtain ⟨code, hc⟩ := h (fun _ => none) _ p0a00_mem 0x42 0x02 0x0A 0x00
    { frames := [], data := [0x42, 0x02, 0x0A, 0x00] } [] (by decide +kernel) rfl
  have hp : payload [{ frames := [], data := [0x42, 0x02, 0x0A, 0x00] }] = .ok [0x0A, 0x00] := rfl
  simp only [Decoder.run, decSingleDtc, hp, bind, Except.bind, parseDtcPair_eq, p0a00_desc] at hc
  injection hc with hc
  injection hc with _ hc
  revert hc; decide +kernel

example : ∃ e ∈ dtcTable, Denotes e.1.toList 0x01 0x04 ∧ ∀ c ∈ e.1.toList.drop 1, '0' ≤ c ∧ c ≤ '9' :=
  ⟨("P0104", "Mass or Volume Air Flow Circuit Intermittent"), mem_of_index _ 103 (by decide +kernel), by decide +kernel, by decide +kernel⟩

end Props
