import Verif.Props.Monitor
import Verif.Spec.Verdict
/-!
# C82: a monitor test passes exactly if the raw value lies between the raw limits
-/
namespace Props
open Py Model Spec

theorem uas_sides : uasTable.all (fun e => match e.2 with
    | .anyBit => decide (e.1 = 0x2E)
    | .lin signed s _ o => (signed == decide (0x80 ≤ e.1)) && decide (e.1 ≠ 0x2E) &&
        decide (4 * (65536 * s.toRat + |o|) < s.toRat * 2 ^ 50)) = true := by decide +kernel

theorem reading_two (signed : Bool) (bs : Bytes) (h : bs.length = 2) : |reading signed bs| ≤ 65536 := by
  have hlt := beValue_lt bs
  rw [h] at hlt
  have hlt' : (beValue bs : ℤ) < 65536 := by exact_mod_cast hlt
  have h0 : (0 : ℤ) ≤ beValue bs := by positivity
  rw [abs_le]
  unfold reading beSigned
  rw [h]
  split
  · split <;> (norm_num; omega)
  · omega

theorem uasMag_le_iff (scale : UasScale) (offset : ℚ) (hs : 0 < scale.toRat)
    (hb : 4 * (65536 * scale.toRat + |offset|) < scale.toRat * 2 ^ 50) {v w : ℤ} (hv : |v| ≤ 65536) (hw : |w| ≤ 65536) :
    uasMag scale offset v ≤ uasMag scale offset w ↔ v ≤ w := by
  refine ⟨fun h => ?_, fun h => uasMag_mono scale offset hs.le h⟩
  by_contra hn
  push Not at hn
  have e1 := uasMag_acc scale offset v
  have e2 := uasMag_acc scale offset w
  have hb1 : ∀ z : ℤ, |z| ≤ 65536 → |scale.toRat * z| ≤ 65536 * scale.toRat := by
    intro z hz
    rw [abs_mul, abs_of_pos hs, mul_comm]
    have : |(z : ℚ)| ≤ 65536 := by exact_mod_cast hz
    exact mul_le_mul_of_nonneg_right this hs.le
  have b1 := hb1 v hv
  have b2 := hb1 w hw
  have hstep : scale.toRat * (w : ℚ) + scale.toRat ≤ scale.toRat * v := by
    have : (w : ℚ) + 1 ≤ v := by exact_mod_cast hn
    nlinarith
  rw [abs_le] at e1 e2
  have d1 : (|scale.toRat * (v : ℚ)| + |offset|) / 2 ^ 50 < scale.toRat / 2 := by
    rw [div_lt_iff₀ (by norm_num)]; have := abs_nonneg offset; nlinarith
  have d2 : (|scale.toRat * (w : ℚ)| + |offset|) / 2 ^ 50 < scale.toRat / 2 := by
    rw [div_lt_iff₀ (by norm_num)]; have := abs_nonneg offset; nlinarith
  linarith [e1.1, e2.2]

theorem verdict_block (b : Block) (t : MonitorTest) (h : Reports b t) (hv : b.value.length = 2) (hl : b.min.length = 2)
    (hu : b.max.length = 2) : t.passed = true ↔ b.within := by
  obtain ⟨h1, h2, h3, e, v, lo, hi, he, ev, el, eh, tv, tl, th⟩ := h
  have hp : t.passed = (lo.le v && v.le hi) := by simp [MonitorTest.passed, MonitorTest.isNull, h1, tv, tl, th]
  have hside := List.all_eq_true.1 uas_sides _ (mem_of_get? he)
  unfold Block.within
  cases e with
  | anyBit =>
    simp only [decide_eq_true_eq] at hside
    have h2e : b.uas = 0x2E := UInt8.toNat_inj.1 hside
    rw [if_pos h2e, hp]
    simp only [UasEntry.call, Except.ok.injEq] at ev el eh
    subst ev el eh
    simp only [UasValue.le, Bool.and_eq_true, Bool.or_eq_true, Bool.not_eq_true']
    have key : ∀ bs : Bytes, (bs.any (fun b => b != 0) = true ↔ ∃ x ∈ bs, x ≠ 0) := by intro bs; simp
    rw [← key, ← key, ← key]
    cases b.min.any (fun b => b != 0) <;> cases b.value.any (fun b => b != 0) <;> cases b.max.any (fun b => b != 0) <;> simp
  | lin signed scale unit offset =>
    simp only [Bool.and_eq_true, decide_eq_true_eq, beq_iff_eq] at hside
    obtain ⟨⟨s1, s2⟩, s3⟩ := hside
    have h2e : b.uas ≠ 0x2E := fun h => s2 (by rw [h]; rfl)
    have hpos := uas_scale_pos _ signed scale unit offset he
    have hne : ∀ bs : Bytes, bs.length = 2 → bs ≠ [] := by rintro _ h rfl; cases h
    rw [uas_call _ signed scale unit offset he _ (fun _ => hne _ hv) (by omega)] at ev
    rw [uas_call _ signed scale unit offset he _ (fun _ => hne _ hl) (by omega)] at el
    rw [uas_call _ signed scale unit offset he _ (fun _ => hne _ hu) (by omega)] at eh
    injection ev with ev; injection el with el; injection eh with eh
    subst ev el eh
    rw [if_neg h2e, hp]
    simp only [UasValue.le, beq_self_eq_true, Bool.true_and, Bool.and_eq_true, decide_eq_true_eq]
    unfold rawNumber
    rw [← s1, uasMag_le_iff scale offset hpos s3 (reading_two _ _ hl) (reading_two _ _ hv),
      uasMag_le_iff scale offset hpos s3 (reading_two _ _ hv) (reading_two _ _ hu)]

theorem blocks_two : ∀ (d : Bytes), ∀ b ∈ blocks d, b.value.length = 2 ∧ b.min.length = 2 ∧ b.max.length = 2
  | m :: t :: u :: v1 :: v2 :: l1 :: l2 :: h1 :: h2 :: rest, b, hb => by
    rcases List.mem_cons.1 hb with rfl | hb
    · exact ⟨rfl, rfl, rfl⟩
    · exact blocks_two rest b hb
  | [], _, hb => by cases hb
  | [_], _, hb => by cases hb
  | [_, _], _, hb => by cases hb
  | [_, _, _], _, hb => by cases hb
  | [_, _, _, _], _, hb => by cases hb
  | [_, _, _, _, _], _, hb => by cases hb
  | [_, _, _, _, _, _], _, hb => by cases hb
  | [_, _, _, _, _, _, _], _, hb => by cases hb
  | [_, _, _, _, _, _, _, _], _, hb => by cases hb

/-- C82: in the monitor decoded from any mode 06 reply, the test of a result with known scaling (the last one sent
for its test ID) has passed exactly if the number sent as value lies between the numbers sent as limits; a test
that was not sent has not passed. -/
theorem C82_verdict (fl : Str → Option PyFloat) (m : Message) (rest : List Message) :
    ∃ mon, Decoder.run fl .monitor (m :: rest) = .ok (.monitor mon) ∧
      (∀ pre b post, blocks (m.data.drop 1) = pre ++ b :: post → b.known = true →
        (∀ b' ∈ post, b'.known = true → b'.tid ≠ b.tid) → ((mon.getTid b.tid.toNat).passed = true ↔ b.within)) ∧
      (∀ tid : Nat, (∀ b ∈ blocks (m.data.drop 1), b.known = true → b.tid.toNat ≠ tid) → (mon.getTid tid).passed = false) := by
  obtain ⟨mon, h1, h2⟩ := C35_by_tid fl m rest
  refine ⟨mon, h1, ?_, ?_⟩
  · intro pre b post hb hk hpost
    have hr := (h2 b.tid.toNat).1 pre b post hb hk rfl (fun b' h hk' he => hpost b' h hk' (UInt8.toNat_inj.1 he))
    obtain ⟨l1, l2, l3⟩ := blocks_two (m.data.drop 1) b (by rw [hb]; simp)
    exact verdict_block b _ hr l1 l2 l3
  · intro tid hn
    rw [(h2 tid).2 hn]
    rfl

/-- The hypotheses are met, with both outcomes: a signed scaling where the unsigned comparison would be wrong. -/
example : blocks [0x01, 0x85, 0x96, 0xFF, 0xFE, 0xFF, 0x00, 0x00, 0x01, 0x01, 0x86, 0x16, 0x00, 0x03, 0x00, 0x04, 0x00, 0x09] =
      [⟨0x85, 0x96, [0xFF, 0xFE], [0xFF, 0x00], [0x00, 0x01]⟩, ⟨0x86, 0x16, [0, 3], [0, 4], [0, 9]⟩] ∧
    Block.known ⟨0x85, 0x96, [0xFF, 0xFE], [0xFF, 0x00], [0x00, 0x01]⟩ = true ∧
    Block.within ⟨0x85, 0x96, [0xFF, 0xFE], [0xFF, 0x00], [0x00, 0x01]⟩ ∧
    Block.known ⟨0x86, 0x16, [0, 3], [0, 4], [0, 9]⟩ = true ∧ ¬ Block.within ⟨0x86, 0x16, [0, 3], [0, 4], [0, 9]⟩ := by
  refine ⟨rfl, by decide +kernel, ?_, by decide +kernel, ?_⟩ <;> unfold Block.within rawNumber reading beSigned <;> decide +kernel

end Props
