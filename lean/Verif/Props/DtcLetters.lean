import Verif.Props.Dtc
/-!
# C33: codes with the digits A to F are never described
-/
namespace Props
open Py Model Spec

/-- A hexadecimal digit in lower case. -/
def lowLetter (c : Char) : Bool := 'a' ≤ c && c ≤ 'f'

theorem table_upper : dtcTable.all (fun e => !e.1.toList.any lowLetter) = true := by decide +kernel

theorem lowLetter_table : ∀ n : Fin 16, 10 ≤ n.val → lowLetter lowerHex[n.val]! = true := by decide

theorem desc_letters (a b : UInt8) (h : 10 ≤ a.toNat % 16 ∨ 10 ≤ b.toNat / 16 ∨ 10 ≤ b.toNat % 16) : dtcDesc (codeOf a b) = [] := by
  have ha := a.toNat_lt
  have hb := b.toNat_lt
  have hany : (codeOf a b).any lowLetter = true := by
    unfold codeOf
    simp only [List.any_cons, List.any_nil, Bool.or_false, Bool.or_eq_true]
    rcases h with h | h | h
    · exact Or.inr (Or.inr (Or.inl (lowLetter_table ⟨a.toNat % 16, by omega⟩ h)))
    · exact Or.inr (Or.inr (Or.inr (Or.inl (lowLetter_table ⟨b.toNat / 16, by omega⟩ h))))
    · exact Or.inr (Or.inr (Or.inr (Or.inr (lowLetter_table ⟨b.toNat % 16, by omega⟩ h))))
  unfold dtcDesc
  rw [List.find?_eq_none.2]
  intro e he hc
  have h1 := List.all_eq_true.1 table_upper e he
  simp only [beq_iff_eq] at hc
  rw [hc, hany] at h1
  cases h1

/-- C33, the other codes: a code with one of the digits A to F, in the table or not, comes without a description. -/
theorem C33_letters_partial (fl : Str → Option PyFloat) (x y a b : UInt8) (m : Message) (rest : List Message) (h : m.data = [x, y, a, b])
    (hl : 10 ≤ a.toNat % 16 ∨ 10 ≤ b.toNat / 16 ∨ 10 ≤ b.toNat % 16) :
    ∃ code, Denotes code a b ∧ Decoder.run fl .singleDtc (m :: rest) = .ok (.dtc code []) := by
  refine ⟨codeOf a b, codeOf_denotes a b, ?_⟩
  have hp : payload (m :: rest) = .ok [a, b] := by simp [payload, idx, h, bind, Except.bind, pure, Except.pure]
  simp only [Decoder.run, decSingleDtc, hp, bind, Except.bind, parseDtcPair_eq, desc_letters a b hl]
  rfl

theorem pairs_letters : ∀ (d : Bytes) (cs : List (Str × Str)), dtcPairs d = .ok cs →
    cs = (codePairs d).map (fun p => (codeOf p.1 p.2, dtcDesc (codeOf p.1 p.2)))
  | [], cs, h => by cases h; rfl
  | [_], cs, h => by cases h; rfl
  | a :: b :: rest, cs, h => by
    unfold dtcPairs at h
    split at h
    · next e =>
      rw [pairs_letters rest cs h]
      simp [codePairs, pairs, e.1, e.2]
    · next e =>
      rw [parseDtcPair_eq] at h
      simp only [bind, Except.bind] at h
      cases hr : dtcPairs rest with
      | error x => rw [hr] at h; cases h
      | ok cs' =>
        rw [hr] at h
        cases h
        rw [pairs_letters rest cs' hr]
        have : (a, b) ≠ (0, 0) := fun hx => e ⟨congrArg Prod.fst hx, congrArg Prod.snd hx⟩
        simp [codePairs, pairs, this]

/-- The lists of codes: the description of every code in a list is that of the table if the code is written with decimal digits, and
empty otherwise. -/
theorem C33_lists_partial (fl : Str → Option PyFloat) (ms : List Message) (cs : List (Str × Str))
    (h : Decoder.run fl .dtc ms = .ok (.dtcs cs)) (code desc : Str) (hm : (code, desc) ∈ cs) :
    ∃ a b : UInt8, Denotes code a b ∧
      (10 ≤ a.toNat % 16 ∨ 10 ≤ b.toNat / 16 ∨ 10 ≤ b.toNat % 16 → desc = []) ∧
      (∀ e ∈ dtcTable, Denotes e.1.toList a b → (∀ c ∈ e.1.toList.drop 1, '0' ≤ c ∧ c ≤ '9') → code = e.1.toList ∧ desc = e.2.toList) ∧
      ((∀ e ∈ dtcTable, ¬ Denotes e.1.toList a b) → desc = []) := by
  simp only [Decoder.run, decDtc] at h
  cases hp : dtcPairs (ms.foldl (fun acc m => acc ++ m.data.drop 2) []) with
  | error x => rw [hp] at h; cases h
  | ok cs' =>
    rw [hp] at h
    simp only [bind, Except.bind, pure, Except.pure] at h
    injection h with h
    injection h with h
    subst h
    rw [pairs_letters _ _ hp] at hm
    obtain ⟨⟨a, b⟩, -, hab⟩ := List.mem_map.1 hm
    simp only [Prod.mk.injEq] at hab
    obtain ⟨rfl, rfl⟩ := hab
    refine ⟨a, b, codeOf_denotes a b, desc_letters a b, ?_, ?_⟩
    · intro e he hd hdec
      have hrun := C33_decimal_partial fl e he 0 0 a b { frames := [], data := [0, 0, a, b] } [] hd hdec rfl
      have hp : payload [{ frames := [], data := [0, 0, a, b] }] = .ok [a, b] := rfl
      simp only [Decoder.run, decSingleDtc, hp, bind, Except.bind, parseDtcPair_eq, pure, Except.pure] at hrun
      injection hrun with hrun
      injection hrun with h1 h2
      exact ⟨h1, h2⟩
    · intro hno
      refine (dtcDesc_described _).2 ?_
      intro e he heq
      exact hno e he (by rw [heq]; exact codeOf_denotes a b)

/-- A list with P0104 (described) and P0A09 (in the table, not described). -/
example : (match Decoder.run (fun _ => none) .dtc [{ frames := [], data := [0x43, 0x02, 0x01, 0x04, 0x0A, 0x09] }] with
    | .ok (.dtcs cs) => cs
    | _ => []) =
  [("P0104".toList, "Mass or Volume Air Flow Circuit Intermittent".toList), ("P0a09".toList, [])] ∧
  ∃ e ∈ dtcTable, e.1 = "P0A09" := by
  refine ⟨by decide +kernel, ?_⟩
  have h : (dtcTable.any (fun e => e.1 == "P0A09")) = true := by decide +kernel
  obtain ⟨e, he, h2⟩ := List.any_eq_true.1 h
  exact ⟨e, he, by simpa using h2⟩

end Props
