import Verif.Props.Verdict
import Verif.Props.Utils
import Verif.Model.Text
import Verif.Spec.Printed
/-!
# C87: the printed report of a monitor; C04: the printed form of a bit array
-/
namespace Props
open Py Model Spec

theorem lines_app (l s : Str) (h : '\n' ∉ l) : textLines (l ++ '\n' :: s) = l :: textLines s := by
  induction l with
  | nil => simp [textLines]
  | cons c l ih =>
    simp only [List.mem_cons, not_or] at h
    rw [List.cons_append, textLines, if_neg (Ne.symm h.1), ih h.2]

theorem lines_one (l : Str) (h : '\n' ∉ l) : textLines l = [l] := by
  induction l with
  | nil => rfl
  | cons c l ih =>
    simp only [List.mem_cons, not_or] at h
    rw [textLines, if_neg (Ne.symm h.1), ih h.2]

theorem lines_join : ∀ (ls : List Str), ls ≠ [] → (∀ l ∈ ls, '\n' ∉ l) → textLines (['\n'].intercalate ls) = ls
  | [], h, _ => absurd rfl h
  | [l], _, h => by
    rw [show ['\n'].intercalate [l] = l by simp [List.intercalate]]
    exact lines_one l (h l (by simp))
  | l :: k :: ls, _, h => by
    rw [show ['\n'].intercalate (l :: k :: ls) = l ++ '\n' :: ['\n'].intercalate (k :: ls) by simp [List.intercalate]]
    rw [lines_app _ _ (h l (by simp)), lines_join (k :: ls) (by simp) (fun x hx => h x (by simp [hx]))]

theorem desc_plain : testIds.all (fun e => decide ('\n' ∉ e.2.2.toList)) = true := by decide +kernel

theorem testName_plain (tid : UInt8) : '\n' ∉ (testName tid).2.toList := by
  unfold testName
  cases h : Dict.get? testIds tid.toNat with
  | none => decide
  | some e => exact of_decide_eq_true (List.all_eq_true.1 desc_plain _ (mem_of_get? h))

/-- Either nothing known was sent for a test ID, or there is a last such block. -/
theorem last_or_none (tid : Nat) (bs : List Block) : (∀ b ∈ bs, b.known = true → b.tid.toNat ≠ tid) ∨
    ∃ pre b post, bs = pre ++ b :: post ∧ b.known = true ∧ b.tid.toNat = tid ∧ ∀ b' ∈ post, b'.known = true → b'.tid.toNat ≠ tid := by
  induction bs with
  | nil => exact Or.inl (by simp)
  | cons b bs ih =>
    rcases ih with h | ⟨pre, b', post, e, h⟩
    · by_cases hb : b.known = true ∧ b.tid.toNat = tid
      · exact Or.inr ⟨[], b, bs, rfl, hb.1, hb.2, h⟩
      · refine Or.inl fun x hx hk => ?_
        rcases List.mem_cons.1 hx with rfl | hx
        · exact fun he => hb ⟨hk, he⟩
        · exact h x hx hk
    · exact Or.inr ⟨b :: pre, b', post, by rw [e]; rfl, h⟩

theorem adds_keys {a b : MonitorObj} {bs : List Block} (hA : Adds a bs b) : (Dict.keys a.tests).Nodup → (Dict.keys b.tests).Nodup := by
  induction hA with
  | nil => exact id
  | skip _ _ ih => exact ih
  | add _ _ _ ih => exact fun h0 => ih (Dict.keys_set_nodup _ _ _ h0)

theorem get_of_mem {d : Dict Nat MonitorTest} (hn : (Dict.keys d).Nodup) {k : Nat} {v : MonitorTest} (h : (k, v) ∈ d) : d.get? k = some v := by
  induction d with
  | nil => cases h
  | cons p d ih =>
    obtain ⟨k', v'⟩ := p
    simp only [Dict.keys, List.map_cons, List.nodup_cons] at hn
    rw [Dict.get?_cons]
    rcases List.mem_cons.1 h with h | h
    · injection h with e1 e2; subst e1; subst e2; simp
    · by_cases e : k' = k
      · subst e
        exact absurd (List.mem_map.2 ⟨_, h, rfl⟩) hn.1
      · rw [if_neg e]; exact ih hn.2 h

/-- The IDs of the listed tests are distinct and are those of the blocks with known scaling; each listed test
reports the last block of its ID. -/
theorem monitor_tests (fl : Str → Option PyFloat) (m : Message) (rest : List Message) :
    ∃ mon, Decoder.run fl .monitor (m :: rest) = .ok (.monitor mon) ∧
      (mon.allTests.map (fun t => t.tid)).Nodup ∧
      (∀ t ∈ mon.allTests, ∃ pre b post, blocks (m.data.drop 1) = pre ++ b :: post ∧ b.known = true ∧
        (∀ b' ∈ post, b'.known = true → b'.tid ≠ b.tid) ∧ Reports b t) ∧
      (∀ pre b post, blocks (m.data.drop 1) = pre ++ b :: post → b.known = true →
        (∀ b' ∈ post, b'.known = true → b'.tid ≠ b.tid) → ∃ t ∈ mon.allTests, Reports b t) := by
  obtain ⟨mon, h1, h2⟩ := decMonitor_spec m rest
  have hk : (Dict.keys mon.tests).Nodup := adds_keys h2 (by decide +kernel)
  obtain ⟨mon', h1', h3⟩ := C35_by_tid fl m rest
  have hm : mon' = mon := by
    have e : Decoder.run fl .monitor (m :: rest) = decMonitor (m :: rest) := rfl
    rw [e, h1] at h1'
    injection h1' with e; injection e with e; exact e.symm
  subst hm
  have hrep : ∀ k t, (k, t) ∈ mon'.tests → t.isNull = false → ∃ pre b post, blocks (m.data.drop 1) = pre ++ b :: post ∧ b.known = true ∧
        b.tid.toNat = k ∧ (∀ b' ∈ post, b'.known = true → b'.tid ≠ b.tid) ∧ Reports b t := by
    intro k t hmem hnull
    have hg : mon'.getTid k = t := by unfold MonitorObj.getTid; rw [get_of_mem hk hmem]; rfl
    rcases last_or_none k (blocks (m.data.drop 1)) with h | ⟨pre, b, post, e, k1, k2, k3⟩
    · have := (h3 k).2 h
      rw [hg] at this
      subst this
      exact absurd hnull (by decide)
    · have := (h3 k).1 pre b post e k1 k2 k3
      rw [hg] at this
      exact ⟨pre, b, post, e, k1, k2, fun b' hb' hk' he => k3 b' hb' hk' (by rw [he, k2]), this⟩
  refine ⟨mon', h1', ?_, ?_, ?_⟩
  · have hp : mon'.allTests.map (fun t => t.tid) = ((mon'.tests.filter (fun p => !p.2.isNull)).map Prod.fst).map some := by
      unfold MonitorObj.allTests
      rw [List.filter_map, List.map_map, List.map_map]
      refine List.map_congr_left fun p hp => ?_
      obtain ⟨hp1, hp2⟩ := List.mem_filter.1 hp
      obtain ⟨_, b, _, _, _, e, _, hr⟩ := hrep p.1 p.2 hp1 (by simpa using hp2)
      simp only [Function.comp]
      rw [hr.1, e]
    rw [hp]
    refine List.Nodup.map (fun _ _ h => Option.some.inj h) ?_
    exact List.Nodup.sublist (List.Sublist.map _ List.filter_sublist) hk
  · intro t ht
    unfold MonitorObj.allTests at ht
    obtain ⟨ht1, ht2⟩ := List.mem_filter.1 ht
    obtain ⟨p, hp, rfl⟩ := List.mem_map.1 ht1
    obtain ⟨pre, b, post, e, k1, _, k3, k4⟩ := hrep p.1 p.2 hp (by simpa using ht2)
    exact ⟨pre, b, post, e, k1, k3, k4⟩
  · intro pre b post e k1 k3
    have hr := (h3 b.tid.toNat).1 pre b post e k1 rfl (fun b' h hk' he => k3 b' h hk' (UInt8.toNat_inj.1 he))
    refine ⟨mon'.getTid b.tid.toNat, ?_, hr⟩
    obtain ⟨r1, r2, r3, _, v, lo, hi, _, _, _, _, r4, r5, r6⟩ := hr
    have hn : (mon'.getTid b.tid.toNat).isNull = false := by simp [MonitorTest.isNull, r1, r4, r5, r6]
    unfold MonitorObj.allTests
    refine List.mem_filter.2 ⟨?_, by rw [hn]; rfl⟩
    unfold MonitorObj.getTid at r1 ⊢
    cases hg : mon'.tests.get? b.tid.toNat with
    | none => rw [hg] at r1; cases r1
    | some t => exact List.mem_map.2 ⟨_, mem_of_get? hg, rfl⟩

theorem printed_test (sh : UasValue → Str) (b : Block) (t : MonitorTest) (h : Reports b t) (hv : b.value.length = 2)
    (hl : b.min.length = 2) (hu : b.max.length = 2) :
    ∃ v, t.value = some v ∧ t.toStr sh = b.line (sh v) := by
  have hp := verdict_block b t h hv hl hu
  obtain ⟨_, _, h3, _, v, _, _, _, _, _, _, h4, _, _⟩ := h
  refine ⟨v, h4, ?_⟩
  unfold MonitorTest.toStr Block.line
  rw [h3, h4]
  by_cases hw : b.within
  · rw [if_pos hw, hp.2 hw]; simp
  · rw [if_neg hw, if_neg (by rw [hp]; exact hw)]; simp

/-- C87: the text of a monitor decoded from any mode 06 reply (`sh` prints a value, on one line).  If no block
with known scaling was sent, it says so.  Otherwise it has one line for each test ID sent with known
scaling: description, value and PASSED or FAILED, of the last such block; the verdict is right. -/
theorem C87_report (fl : Str → Option PyFloat) (sh : UasValue → Str) (hsh : ∀ v, '\n' ∉ sh v) (m : Message) (rest : List Message) :
    ∃ mon, Decoder.run fl .monitor (m :: rest) = .ok (.monitor mon) ∧
      ((∀ b ∈ blocks (m.data.drop 1), b.known = false) → mon.toStr sh = "No tests to report".toList) ∧
      ((∃ b ∈ blocks (m.data.drop 1), b.known = true) →
        (textLines (mon.toStr sh)).length = (((blocks (m.data.drop 1)).filter Block.known).map Block.tid).dedup.length ∧
        (∀ pre b post, blocks (m.data.drop 1) = pre ++ b :: post → b.known = true →
          (∀ b' ∈ post, b'.known = true → b'.tid ≠ b.tid) →
          ∃ e v, Dict.get? uasTable b.uas.toNat = some e ∧ e.call b.value = .ok v ∧ b.line (sh v) ∈ textLines (mon.toStr sh)) ∧
        (∀ l ∈ textLines (mon.toStr sh), ∃ b ∈ blocks (m.data.drop 1), b.known = true ∧ ∃ v, l = b.line (sh v))) := by
  obtain ⟨mon, h1, hnd, hsound, hcomp⟩ := monitor_tests fl m rest
  refine ⟨mon, h1, fun hnone => ?_, fun ⟨b0, hb0, hk0⟩ => ?_⟩
  · have : mon.allTests = [] := by
      refine List.eq_nil_iff_forall_not_mem.2 fun t ht => ?_
      obtain ⟨pre, b, post, e, hk, _⟩ := hsound t ht
      rw [hnone b (by rw [e]; simp)] at hk
      cases hk
    unfold MonitorObj.toStr MonitorObj.len
    rw [this]; rfl
  · have hlast : ∀ b ∈ blocks (m.data.drop 1), b.known = true → ∃ pre b' post, blocks (m.data.drop 1) = pre ++ b' :: post ∧ b'.known = true ∧ b'.tid = b.tid ∧
        ∀ b'' ∈ post, b''.known = true → b''.tid ≠ b'.tid := by
      intro b hb hk
      rcases last_or_none b.tid.toNat (blocks (m.data.drop 1)) with h | ⟨pre, b', post, e, k1, k2, k3⟩
      · exact absurd rfl (h b hb hk)
      · exact ⟨pre, b', post, e, k1, UInt8.toNat_inj.1 k2, fun x hx hk he => k3 x hx hk (by rw [he, k2])⟩
    have hne : mon.allTests ≠ [] := by
      obtain ⟨pre, b', post, e, k1, _, k3⟩ := hlast b0 hb0 hk0
      obtain ⟨t, ht, _⟩ := hcomp pre b' post e k1 k3
      exact List.ne_nil_of_mem ht
    have htext : ∀ t ∈ mon.allTests, ∀ b, b ∈ blocks (m.data.drop 1) → Reports b t → ∃ v, t.value = some v ∧ t.toStr sh = b.line (sh v) := by
      intro t _ b hb hr
      obtain ⟨l1, l2, l3⟩ := blocks_two (m.data.drop 1) b hb
      exact printed_test sh b t hr l1 l2 l3
    have hlines : textLines (mon.toStr sh) = mon.allTests.map (MonitorTest.toStr sh) := by
      unfold MonitorObj.toStr MonitorObj.len
      rw [if_pos (List.length_pos_iff.2 hne)]
      refine lines_join _ (by simpa using hne) fun l hl => ?_
      obtain ⟨t, ht, rfl⟩ := List.mem_map.1 hl
      obtain ⟨pre, b, post, e, _, _, hr⟩ := hsound t ht
      obtain ⟨v, _, hv⟩ := htext t ht b (by rw [e]; simp) hr
      rw [hv]
      unfold Block.line
      have := testName_plain b.tid
      have := hsh v
      simp only [List.mem_append, not_or]
      refine ⟨⟨⟨‹_›, by decide⟩, ‹_›⟩, ?_⟩
      split <;> decide
    rw [hlines]
    refine ⟨?_, ?_, ?_⟩
    · rw [List.length_map]
      have hperm : (mon.allTests.map (fun t => t.tid)).Perm ((((blocks (m.data.drop 1)).filter Block.known).map Block.tid).dedup.map (fun t => some t.toNat)) := by
        refine (List.perm_ext_iff_of_nodup hnd ?_).2 fun x => ?_
        · exact List.Nodup.map (fun _ _ h => UInt8.toNat_inj.1 (Option.some.inj h)) (List.nodup_dedup _)
        · simp only [List.mem_map, List.mem_dedup, List.mem_filter]
          constructor
          · rintro ⟨t, ht, rfl⟩
            obtain ⟨pre, b, post, e, hk, _, hr⟩ := hsound t ht
            exact ⟨b.tid, ⟨b, ⟨by rw [e]; simp, hk⟩, rfl⟩, hr.1.symm⟩
          · rintro ⟨_, ⟨b, ⟨hb, hk⟩, rfl⟩, rfl⟩
            obtain ⟨pre, b', post, e, k1, k2, k3⟩ := hlast b hb hk
            obtain ⟨t, ht, hr⟩ := hcomp pre b' post e k1 k3
            exact ⟨t, ht, by rw [hr.1, k2]⟩
      have := hperm.length_eq
      simpa using this
    · intro pre b post e hk hpost
      obtain ⟨t, ht, hr⟩ := hcomp pre b post e hk hpost
      obtain ⟨v, hv, htx⟩ := htext t ht b (by rw [e]; simp) hr
      obtain ⟨_, _, _, en, v', _, _, r1, r2, _, _, r3, _, _⟩ := hr
      rw [hv] at r3
      injection r3 with r3
      subst r3
      exact ⟨en, v, r1, r2, by rw [← htx]; exact List.mem_map.2 ⟨t, ht, rfl⟩⟩
    · intro l hl
      obtain ⟨t, ht, rfl⟩ := List.mem_map.1 hl
      obtain ⟨pre, b, post, e, hk, _, hr⟩ := hsound t ht
      obtain ⟨v, _, hv⟩ := htext t ht b (by rw [e]; simp) hr
      exact ⟨b, by rw [e]; simp, hk, v, hv⟩

/-- C87: a test looked up by an ID that was not sent with known scaling is printed without description and value, and as failed. -/
theorem C87_missing (fl : Str → Option PyFloat) (sh : UasValue → Str) (m : Message) (rest : List Message) :
    ∃ mon, Decoder.run fl .monitor (m :: rest) = .ok (.monitor mon) ∧
      ∀ tid, (∀ b ∈ blocks (m.data.drop 1), b.known = true → b.tid.toNat ≠ tid) →
        (mon.getTid tid).toStr sh = "None : None [FAILED]".toList := by
  obtain ⟨mon, h1, h2⟩ := C35_by_tid fl m rest
  refine ⟨mon, h1, fun tid h => ?_⟩
  rw [(h2 tid).2 h]
  show ("None".toList ++ " : ".toList ++ "None".toList ++ " [".toList ++ "FAILED".toList ++ "]".toList) = _
  decide

/-- Test 2 is not in this reply, test 1 is. -/
example : (Decoder.run (fun _ => none) .monitor [{ frames := [], data := [0x46, 0x01, 0x01, 0x0A, 0x0B, 0xB0, 0x0B, 0xB0, 0x0B, 0xB0] }]).map
    (fun v => match v with
      | .monitor mon => [(mon.getTid 2).toStr (fun _ => ['v']), (mon.getTid 1).toStr (fun _ => ['v'])]
      | _ => []) =
    .ok ["None : None [FAILED]".toList, "Rich to lean sensor threshold voltage : v [PASSED]".toList] := by decide +kernel

/-- A reply with a repeated test, an unknown scaling and both verdicts. -/
example : (Decoder.run (fun _ => none) .monitor [{ frames := [], data := [0x46, 0x01, 0x85, 0x24, 0x00, 0x96, 0x00, 0x4B, 0xFF, 0xFF,
      0x01, 0x01, 0x0A, 0x0B, 0xB0, 0x0B, 0xB1, 0x0B, 0xB2, 0x01, 0x05, 0x00, 0, 0, 0, 0, 0, 0,
      0x01, 0x85, 0x24, 0x00, 0x00, 0x00, 0x4B, 0xFF, 0xFF, 0x01, 0x86, 0x24, 0x00, 0x96, 0x00, 0x4B, 0xFF, 0xFF] }]).map (fun v => match v with
      | .monitor mon => textLines (mon.toStr (fun _ => ['v']))
      | _ => []) =
    .ok ["Rich to lean sensor threshold voltage : v [FAILED]".toList, "Unknown : v [FAILED]".toList, "Unknown : v [PASSED]".toList] := by decide +kernel

/-! ## C04: the printed form of a bit array -/

/-- C04: the text of a bit array has eight characters for each byte; character `k` is the digit of bit `7 - k % 8` of byte `k / 8`. -/
theorem C04_text (bs : Bytes) : (BitArray.ofBytes bs).toStr.length = 8 * bs.length ∧
    ∀ k (h : k < 8 * bs.length), (BitArray.ofBytes bs).toStr[k]? = some (if bitOf (bs[k / 8]'(by omega)) (7 - k % 8) then '1' else '0') := by
  have hl := C04_length bs
  unfold BitArray.len at hl
  refine ⟨by rw [BitArray.toStr, List.length_map, hl], fun k h => ?_⟩
  have hg := C04_get bs k h
  unfold BitArray.getItem at hg
  rw [if_pos ⟨by omega, by rw [hl]; omega⟩] at hg
  rw [← hg, BitArray.toStr, List.getElem?_map, Int.toNat_natCast, List.getElem?_eq_getElem (by omega)]
  rfl

example : (BitArray.ofBytes [0xA5, 0x01]).toStr = "1010010100000001".toList := by decide +kernel

end Props
