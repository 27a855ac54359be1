import Verif.Spec.Monitor
import Verif.Lemmas.Basic
import Verif.Props.Sensors
/-!
# C35: monitor replies
-/
namespace Props
open Py Model Spec

theorem uas_two (id : Nat) (e : UasEntry) (h : uasLookup id = some e) (x y : UInt8) : ∃ v, e.call [x, y] = .ok v := by
  cases e with
  | anyBit => exact ⟨_, rfl⟩
  | lin signed scale unit offset => exact ⟨_, uas_call id signed scale unit offset h [x, y] (by simp) (by simp)⟩

theorem parseMonitorTest_spec (m t u v1 v2 l1 l2 h1 h2 : UInt8) :
    ∃ o, parseMonitorTest [m, t, u, v1, v2, l1, l2, h1, h2] = .ok o ∧
      (∀ tst, o = some tst → Reports ⟨t, u, [v1, v2], [l1, l2], [h1, h2]⟩ tst) ∧
      (o = none ↔ uasLookup u.toNat = none) := by
  have i1 : idx [m, t, u, v1, v2, l1, l2, h1, h2] 1 = .ok t := rfl
  have i2 : idx [m, t, u, v1, v2, l1, l2, h1, h2] 2 = .ok u := rfl
  have s1 : slice [m, t, u, v1, v2, l1, l2, h1, h2] 3 5 = [v1, v2] := rfl
  have s2 : slice [m, t, u, v1, v2, l1, l2, h1, h2] 5 7 = [l1, l2] := rfl
  have s3 : [m, t, u, v1, v2, l1, l2, h1, h2].drop 7 = [h1, h2] := rfl
  simp only [parseMonitorTest, bind, Except.bind, i1, i2, s1, s2, s3]
  cases hu : uasLookup u.toNat with
  | none => exact ⟨none, rfl, by simp, by simp⟩
  | some e =>
    obtain ⟨a, ha⟩ := uas_two _ e hu v1 v2
    obtain ⟨b, hb⟩ := uas_two _ e hu l1 l2
    obtain ⟨c, hc⟩ := uas_two _ e hu h1 h2
    simp only [ha, hb, hc]
    refine ⟨_, rfl, ?_, by simp⟩
    rintro tst hE
    injection hE with hE
    subst hE
    refine ⟨rfl, ?_, ?_, e, a, b, c, hu, ha, hb, hc, rfl, rfl, rfl⟩
    · simp only [testName]; cases Dict.get? testIds t.toNat <;> rfl
    · simp only [testName]; cases Dict.get? testIds t.toNat <;> rfl

/-- What adding the results of some blocks does to a monitor. -/
inductive Adds : MonitorObj → List Block → MonitorObj → Prop where
  | nil (mon) : Adds mon [] mon
  | skip {mon b bs mon'} : b.known = false → Adds mon bs mon' → Adds mon (b :: bs) mon'
  | add {mon b bs t mon'} : b.known = true → Reports b t → Adds (mon.addTest t) bs mon' → Adds mon (b :: bs) mon'

theorem monitorBlocks_spec : ∀ (fuel : Nat) (d : Bytes) (mon : MonitorObj), d.length % 9 = 0 → d.length ≤ 9 * fuel →
    ∃ mon', monitorBlocks fuel d mon = .ok mon' ∧ Adds mon (blocks d) mon'
  | 0, d, mon, _, hl => by
    have : d = [] := List.length_eq_zero_iff.1 (by omega)
    subst this; exact ⟨mon, rfl, .nil mon⟩
  | fuel + 1, [], mon, _, _ => ⟨mon, rfl, .nil mon⟩
  | fuel + 1, m :: t :: u :: v1 :: v2 :: l1 :: l2 :: h1 :: h2 :: rest, mon, h9, hl => by
    obtain ⟨o, h, hs, hn⟩ := parseMonitorTest_spec m t u v1 v2 l1 l2 h1 h2
    have hr9 : rest.length % 9 = 0 := by simp at h9; omega
    have hrl : rest.length ≤ 9 * fuel := by simp at hl; omega
    have ht : (m :: t :: u :: v1 :: v2 :: l1 :: l2 :: h1 :: h2 :: rest).take 9 = [m, t, u, v1, v2, l1, l2, h1, h2] := rfl
    have hd : (m :: t :: u :: v1 :: v2 :: l1 :: l2 :: h1 :: h2 :: rest).drop 9 = rest := rfl
    cases o with
    | none =>
      obtain ⟨mon', e1, e2⟩ := monitorBlocks_spec fuel rest mon hr9 hrl
      refine ⟨mon', ?_, ?_⟩
      · simp only [monitorBlocks, List.isEmpty_cons, Bool.false_eq_true, if_false, ht, hd, h, bind, Except.bind, e1]
      · refine .skip ?_ e2
        have := hn.1 rfl
        unfold uasLookup at this
        simp [Block.known, this]
    | some tst =>
      obtain ⟨mon', e1, e2⟩ := monitorBlocks_spec fuel rest (mon.addTest tst) hr9 hrl
      refine ⟨mon', ?_, ?_⟩
      · simp only [monitorBlocks, List.isEmpty_cons, Bool.false_eq_true, if_false, ht, hd, h, bind, Except.bind, e1]
      · refine .add ?_ (hs tst rfl) e2
        have hne : uasLookup u.toNat ≠ none := fun h => by simpa using hn.2 h
        unfold uasLookup at hne
        simpa [Block.known, Option.isSome_iff_ne_none] using hne
  | fuel + 1, [_], _, h, _ => by simp at h
  | fuel + 1, [_, _], _, h, _ => by simp at h
  | fuel + 1, [_, _, _], _, h, _ => by simp at h
  | fuel + 1, [_, _, _, _], _, h, _ => by simp at h
  | fuel + 1, [_, _, _, _, _], _, h, _ => by simp at h
  | fuel + 1, [_, _, _, _, _, _], _, h, _ => by simp at h
  | fuel + 1, [_, _, _, _, _, _, _], _, h, _ => by simp at h
  | fuel + 1, [_, _, _, _, _, _, _, _], _, h, _ => by simp at h

theorem blocks_take : ∀ (d : Bytes), blocks (d.take (d.length - d.length % 9)) = blocks d
  | m :: t :: u :: v1 :: v2 :: l1 :: l2 :: h1 :: h2 :: rest => by
    have ih := blocks_take rest
    have e : (m :: t :: u :: v1 :: v2 :: l1 :: l2 :: h1 :: h2 :: rest).length -
        (m :: t :: u :: v1 :: v2 :: l1 :: l2 :: h1 :: h2 :: rest).length % 9 =
        (rest.length - rest.length % 9) + 9 := by simp; omega
    rw [e]
    simp only [List.take_succ_cons, blocks, ih]
  | [] => rfl
  | [_] => rfl
  | [_, _] => rfl
  | [_, _, _] => rfl
  | [_, _, _, _] => rfl
  | [_, _, _, _, _] => rfl
  | [_, _, _, _, _, _] => rfl
  | [_, _, _, _, _, _, _] => rfl
  | [_, _, _, _, _, _, _, _] => rfl

theorem decMonitor_spec (m : Message) (rest : List Message) :
    ∃ mon, decMonitor (m :: rest) = .ok (.monitor mon) ∧ Adds MonitorObj.init (blocks (m.data.drop 1)) mon := by
  have hi : idx (m :: rest) 0 = .ok m := rfl
  obtain ⟨mon, h1, h2⟩ := monitorBlocks_spec ((m.data.drop 1).take ((m.data.drop 1).length - (m.data.drop 1).length % 9)).length
    ((m.data.drop 1).take ((m.data.drop 1).length - (m.data.drop 1).length % 9)) MonitorObj.init
    (by rw [List.length_take]; omega) (by omega)
  rw [blocks_take] at h2
  refine ⟨mon, ?_, h2⟩
  simp only [decMonitor, hi, bind, Except.bind, h1]
  rfl

/-- The last block for a test ID that could be decoded. -/
def lastFor (tid : Nat) (bs : List Block) : Option Block :=
  bs.reverse.find? (fun b => b.known && b.tid.toNat == tid)

theorem lastFor_cons (tid : Nat) (b : Block) (bs : List Block) :
    lastFor tid (b :: bs) = (lastFor tid bs).or (if b.known && b.tid.toNat == tid then some b else none) := by
  simp [lastFor, List.find?_append]

theorem adds_tid {mon mon' : MonitorObj} {bs : List Block} (h : Adds mon bs mon') (tid : Nat) :
    (lastFor tid bs = none → mon'.tests.get? tid = mon.tests.get? tid) ∧
    (∀ b, lastFor tid bs = some b → ∃ t, mon'.tests.get? tid = some t ∧ Reports b t) := by
  induction h with
  | nil mon => simp [lastFor]
  | skip hk _ ih =>
    rw [lastFor_cons, hk]
    simpa using ih
  | @add mon b bs t mon' hk hr _ ih =>
    rw [lastFor_cons, hk]
    cases hl : lastFor tid bs with
    | some b' =>
      rw [hl] at ih
      simpa using ih
    | none =>
      have i1 := ih.1 hl
      have hg : (mon.addTest t).tests.get? tid = if b.tid.toNat = tid then some t else mon.tests.get? tid := by
        simp only [MonitorObj.addTest, hr.1, Option.getD_some, Dict.get?_set]
      rw [hg] at i1
      by_cases e : b.tid.toNat = tid
      · simp only [e, beq_self_eq_true, Bool.and_self, if_true, Option.none_or] at i1 ⊢
        simp only [reduceCtorEq, false_imp_iff, Option.some.injEq, forall_eq', true_and]
        exact ⟨t, i1, hr⟩
      · simp only [e, if_false] at i1
        simp [e, i1]

theorem init_null (tid : Nat) : (MonitorObj.init.tests.get? tid).getD {} = {} := by
  have key : MonitorObj.init.tests.all (fun e => decide (e.2 = {})) = true := by decide +kernel
  cases h : MonitorObj.init.tests.get? tid with
  | none => rfl
  | some t =>
    have := List.all_eq_true.1 key _ (mem_of_get? h)
    simpa using this

/-- C35: the results by test ID.  A TID for which a block with known units was sent gives the
result of the last such block; any other TID gives a null test. -/
theorem C35_by_tid (fl : Str → Option PyFloat) (m : Message) (rest : List Message) :
    ∃ mon, Decoder.run fl .monitor (m :: rest) = .ok (.monitor mon) ∧
      ∀ tid : Nat,
        (∀ pre b post, blocks (m.data.drop 1) = pre ++ b :: post → b.known = true → b.tid.toNat = tid →
          (∀ b' ∈ post, b'.known = true → b'.tid.toNat ≠ tid) → Reports b (mon.getTid tid)) ∧
        ((∀ b ∈ blocks (m.data.drop 1), b.known = true → b.tid.toNat ≠ tid) → mon.getTid tid = {}) := by
  obtain ⟨mon, h1, h2⟩ := decMonitor_spec m rest
  refine ⟨mon, h1, fun tid => ⟨?_, ?_⟩⟩
  · intro pre b post hb hk ht hpost
    have hl : lastFor tid (blocks (m.data.drop 1)) = some b := by
      rw [hb]
      unfold lastFor
      rw [List.reverse_append, List.reverse_cons, List.append_assoc, List.find?_append]
      rw [List.find?_eq_none.2]
      · simp [hk, ht]
      · intro b' hb'
        have := hpost b' (List.mem_reverse.1 hb')
        simpa using this
    obtain ⟨t, e1, e2⟩ := (adds_tid h2 tid).2 b hl
    simpa [MonitorObj.getTid, e1] using e2
  · intro hn
    have hl : lastFor tid (blocks (m.data.drop 1)) = none := by
      unfold lastFor
      rw [List.find?_eq_none]
      intro b hb
      have := hn b (List.mem_reverse.1 hb)
      simpa using this
    unfold MonitorObj.getTid
    rw [(adds_tid h2 tid).1 hl]
    exact init_null tid

theorem names_ok : testIds.all (fun e => testIds.all (fun e' => decide (e.2.1 = e'.2.1 → e.1 = e'.1)) &&
    decide (e.2.1 ≠ "Unknown") && decide (MonitorObj.init.attrs.get? e.2.1 = some {}) &&
    decide (Dict.get? testIds e.1 = some e.2) && decide (MonitorObj.init.tests.get? e.1 = some {})) = true := by decide +kernel

/-- C35: a standard test is found under its name just as under its TID. -/
theorem C35_by_name (fl : Str → Option PyFloat) (m : Message) (rest : List Message) (tid : Nat) (name desc : String)
    (h : (tid, name, desc) ∈ testIds) :
    ∃ mon, Decoder.run fl .monitor (m :: rest) = .ok (.monitor mon) ∧ mon.getName name = mon.getTid tid := by
  obtain ⟨mon, h1, h2⟩ := decMonitor_spec m rest
  refine ⟨mon, h1, ?_⟩
  have hk := List.all_eq_true.1 names_ok _ h
  simp only [Bool.and_eq_true, decide_eq_true_eq, List.all_eq_true] at hk
  obtain ⟨⟨⟨⟨k1, k2⟩, k3⟩, k4⟩, k5⟩ := hk
  have inv : ∀ {a b : MonitorObj} {bs : List Block}, Adds a bs b → a.attrs.get? name = a.tests.get? tid →
      b.attrs.get? name = b.tests.get? tid := by
    intro a b bs hA
    induction hA with
    | nil => exact id
    | skip _ _ ih => exact ih
    | @add mon b bs t mon' _ hr _ ih =>
      intro h0
      apply ih
      simp only [MonitorObj.addTest, hr.1, hr.2.1, Option.getD_some, Dict.get?_set, h0]
      by_cases e : b.tid.toNat = tid
      · have : (testName b.tid).1 = name := by unfold testName; rw [e, k4]; rfl
        simp [e, this]
      · have : (testName b.tid).1 ≠ name := by
          unfold testName
          cases hg : Dict.get? testIds b.tid.toNat with
          | none => simpa using Ne.symm k2
          | some p =>
            intro hp
            have := k1 _ (mem_of_get? hg) (by simpa using hp.symm)
            exact e this.symm
        simp [e, this]
  have := inv h2 (by rw [k3, k5])
  simp only [MonitorObj.getName, MonitorObj.getTid, this]

/-- C35: a reported test is not null, and has passed exactly if the value lies between
minimum and maximum. -/
theorem C35_passed (b : Block) (t : MonitorTest) (h : Reports b t) :
    t.isNull = false ∧ ∃ v lo hi, t.value = some v ∧ t.min = some lo ∧ t.max = some hi ∧
      ((∃ x l u unit, v = .qty x unit ∧ lo = .qty l unit ∧ hi = .qty u unit ∧
          (t.passed = true ↔ l ≤ x ∧ x ≤ u)) ∨
       (∃ x l u, v = .bool x ∧ lo = .bool l ∧ hi = .bool u ∧ (t.passed = true ↔ (l = true → x = true) ∧ (x = true → u = true)))) := by
  obtain ⟨h1, h2, h3, e, v, lo, hi, hu, a, b', c, hv, hl, hh⟩ := h
  have hnull : t.isNull = false := by simp [MonitorTest.isNull, h1, hv, hl, hh]
  refine ⟨hnull, v, lo, hi, hv, hl, hh, ?_⟩
  have hp : t.passed = (lo.le v && v.le hi) := by simp [MonitorTest.passed, hnull, hv, hl, hh]
  have shape : ∀ bs r, e.call bs = .ok r → (match e with
      | .anyBit => ∃ x, r = .bool x
      | .lin _ _ unit _ => ∃ x, r = .qty x unit) := by
    intro bs r hr
    cases e with
    | anyBit => simp only [UasEntry.call, Except.ok.injEq] at hr; exact ⟨_, hr.symm⟩
    | lin signed scale unit offset =>
      cases signed <;> cases scale <;>
        simp only [UasEntry.call, bind, Except.bind, Bool.false_eq_true, if_false, if_true] at hr <;>
        (repeat' split at hr) <;>
        first
          | (cases hr; done)
          | (simp only [pure, Except.pure, Except.ok.injEq] at hr; exact ⟨_, hr.symm⟩)
  have sv := shape _ _ a
  have sl := shape _ _ b'
  have sh := shape _ _ c
  cases e with
  | anyBit =>
    obtain ⟨x, rfl⟩ := sv
    obtain ⟨l, rfl⟩ := sl
    obtain ⟨u, rfl⟩ := sh
    refine .inr ⟨x, l, u, rfl, rfl, rfl, ?_⟩
    rw [hp]; cases x <;> cases l <;> cases u <;> simp [UasValue.le]
  | lin _ _ unit _ =>
    obtain ⟨x, rfl⟩ := sv
    obtain ⟨l, rfl⟩ := sl
    obtain ⟨u, rfl⟩ := sh
    refine .inl ⟨x, l, u, unit, rfl, rfl, rfl, ?_⟩
    rw [hp]; simp [UasValue.le]

/-- C35: a null test has not passed. -/
theorem C35_null (t : MonitorTest) (h : t.tid = none ∨ t.value = none ∨ t.min = none ∨ t.max = none) :
    t.isNull = true ∧ t.passed = false := by
  have : t.isNull = true := by
    rcases h with h | h | h | h <;> simp [MonitorTest.isNull, h]
  exact ⟨this, by simp [MonitorTest.passed, this]⟩

/-- C35: the list of results holds exactly the tests that can be found by TID and are not null. -/
theorem C35_list (fl : Str → Option PyFloat) (m : Message) (rest : List Message) :
    ∃ mon, Decoder.run fl .monitor (m :: rest) = .ok (.monitor mon) ∧
      ∀ t, t ∈ mon.allTests ↔ t.isNull = false ∧ ∃ tid, mon.getTid tid = t := by
  obtain ⟨mon, h1, h2⟩ := decMonitor_spec m rest
  refine ⟨mon, h1, fun t => ?_⟩
  have hnd : (Dict.keys mon.tests).Nodup := by
    have inv : ∀ {a b : MonitorObj} {bs : List Block}, Adds a bs b → (Dict.keys a.tests).Nodup → (Dict.keys b.tests).Nodup := by
      intro a b bs hA
      induction hA with
      | nil => exact id
      | skip _ _ ih => exact ih
      | add _ _ _ ih =>
        intro h0
        exact ih (Dict.keys_set_nodup _ _ _ h0)
    exact inv h2 (by decide +kernel)
  have hget : ∀ (d : Dict Nat MonitorTest), (Dict.keys d).Nodup → ∀ k v, (k, v) ∈ d → d.get? k = some v := by
    intro d
    induction d with
    | nil => intro _ k v h; cases h
    | cons p d ih =>
      obtain ⟨k', v'⟩ := p
      intro hn k v h
      simp only [Dict.keys, List.map_cons, List.nodup_cons] at hn
      rw [Dict.get?_cons]
      rcases List.mem_cons.1 h with h | h
      · injection h with e1 e2; subst e1; subst e2; simp
      · by_cases e : k' = k
        · subst e
          exact absurd (List.mem_map.2 ⟨_, h, rfl⟩) hn.1
        · rw [if_neg e]; exact ih hn.2 k v h
  unfold MonitorObj.allTests MonitorObj.getTid
  simp only [List.mem_filter, List.mem_map, Bool.not_eq_true', Prod.exists, exists_eq_right]
  constructor
  · rintro ⟨⟨k, hk⟩, hn⟩
    exact ⟨hn, k, by rw [hget _ hnd k t hk]; rfl⟩
  · rintro ⟨hn, k, hk⟩
    refine ⟨?_, hn⟩
    cases hg : mon.tests.get? k with
    | none => rw [hg] at hk; subst hk; exact absurd hn (by decide)
    | some v => rw [hg] at hk; simp only [Option.getD_some] at hk; subst hk; exact ⟨k, mem_of_get? hg⟩

example : (Decoder.run (fun _ => none) .monitor [{ frames := [], data := [0x46, 0x01, 0x01, 0x0A, 0x0B, 0xB0, 0x0B, 0xB0, 0x0B, 0xB0,
      0x01, 0x85, 0x24, 0x00, 0x96, 0x00, 0x4B, 0xFF, 0xFF, 0x01, 0x05, 0x00, 0, 0, 0, 0, 0, 0, 0x01] }]).map (fun v => match v with
      | .monitor mon => (mon.len, (mon.getTid 0x01).passed, (mon.getName "RTL_THRESHOLD_VOLTAGE").passed,
          (mon.getTid 0x85).value, (mon.getTid 5).isNull)
      | _ => (0, false, false, none, false)) =
    .ok (2, true, true, some (.qty 150 "count"), true) := by decide +kernel

end Props
