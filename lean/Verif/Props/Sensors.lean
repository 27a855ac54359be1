import Verif.Lemmas.Sensors
import Verif.Props.Commands
/-!
# C28-C30: scalar sensors, units and scaling
-/
namespace Props
open Py Model Spec

/-! ## C28, C29 -/

def sizesOk (c : OBDCommand) : Bool :=
  match sensor? c.decode with
  | some s => decide (2 + s.first + s.width ≤ c.bytes) && (prefixOnly c.decode || decide (c.bytes = 2 + s.width))
  | none => true

theorem sizes_table : allCommands.all sizesOk = true := by decide +kernel

/-- What a successful call tells about the messages given to the decoder. -/
theorem call_head (fl : Str → Option PyFloat) (c : OBDCommand) (ms : List Message) (r : Response) (m : Message)
    (rest : List Message) (hr : c.call fl ms = .ok r) (hm : r.messages = m :: rest) :
    c.decode.run fl (m :: rest) = .ok r.value ∧ (c.bytes ≠ 0 → m.data.length = c.bytes) := by
  rw [call_eq] at hr
  simp only at hr
  split at hr
  · injection hr with hr; subst hr; simp at hm
  · split at hr
    · next v hv =>
      injection hr with hr
      subst hr
      simp only at hm ⊢
      rw [hm] at hv
      refine ⟨hv, fun hb => ?_⟩
      have : m ∈ (ms.filter (fun m => decide (Overlap c.ecu m.ecu))).map (fun m => { m with data := fit c.bytes m.data }) := by
        rw [hm]; exact List.mem_cons_self ..
      obtain ⟨m', -, rfl⟩ := List.mem_map.1 this
      simp only [fit, if_neg hb]
      rw [List.length_take, List.length_append, List.length_replicate]
      omega
    · cases hr

theorem sensor_value (fl : Str → Option PyFloat) (c : OBDCommand) (hc : c ∈ allCommands) (s : Sensor)
    (hs : sensor? c.decode = some s) (hev : s.signed = false)
    (ms : List Message) (r : Response) (m : Message) (rest : List Message) (hr : c.call fl ms = .ok r)
    (hm : r.messages = m :: rest) :
    r.value = .qty (mag c.decode (s.raw m.data)) s.unit ∧ 0 ≤ s.raw m.data ∧ s.raw m.data < 256 ^ s.width := by
  obtain ⟨h1, h2⟩ := call_head fl c ms r m rest hr hm
  have hok := List.all_eq_true.1 sizes_table c hc
  unfold sizesOk at hok
  rw [hs] at hok
  simp only [Bool.and_eq_true, Bool.or_eq_true, decide_eq_true_eq] at hok
  have hlen := h2 (by omega)
  have h3 := run_mag fl c.decode s hs hev m rest (by omega) (by
    intro hp; rcases hok.2 with h | h
    · rw [hp] at h; cases h
    · omega)
  rw [h1] at h3
  injection h3 with h3
  refine ⟨h3, ?_⟩
  unfold Sensor.raw
  rw [hev]
  exact reading_range _ _ (by rw [List.length_take]; omega)

/-- C28: every scalar sensor command answers with a quantity in its documented unit and
range (the end of the range rounded to a float). -/
def C28_full : Prop :=
  ∀ (fl : Str → Option PyFloat) (c : OBDCommand) (_ : c ∈ allCommands) (s : Sensor) (_ : sensor? c.decode = some s)
    (ms : List Message) (r : Response), c.call fl ms = .ok r → r.messages ≠ [] →
    ∃ v, r.value = .qty v s.unit ∧ s.lo ≤ v ∧ v ≤ rnd s.hi

/-- C28 holds of all of them except `evap_pressure`, `inject_timing` and `fuel_rate`. -/
theorem C28_range_partial (fl : Str → Option PyFloat) (c : OBDCommand) (hc : c ∈ allCommands) (s : Sensor)
    (hs : sensor? c.decode = some s) (h1 : c.decode ≠ .evapPressure) (h2 : c.decode ≠ .injectTiming)
    (h3 : c.decode ≠ .fuelRate) (ms : List Message) (r : Response) (hr : c.call fl ms = .ok r) (hm : r.messages ≠ []) :
    ∃ v, r.value = .qty v s.unit ∧ s.lo ≤ v ∧ v ≤ rnd s.hi := by
  have hrange : rangeOk s = true := by
    generalize c.decode = d at hs h1 h2 h3
    unfold sensor? at hs
    split at hs <;> first
      | (cases hs; done)
      | (exact absurd rfl ‹_›)
      | (injection hs with hs; subst hs; decide +kernel)
  have hev : s.signed = false := by unfold rangeOk at hrange; revert hrange; cases s.signed <;> simp
  obtain ⟨m, rest, hmr⟩ := List.exists_cons_of_ne_nil hm
  obtain ⟨hv, l, u⟩ := sensor_value fl c hc s hs hev ms r m rest hr hmr
  exact ⟨_, hv, mag_range c.decode s hs hrange _ l u⟩

/-- The value is the physical value of the raw reading in the (size-adjusted) data of the
first answer, up to rounding errors. -/
theorem C28_accuracy (fl : Str → Option PyFloat) (c : OBDCommand) (hc : c ∈ allCommands) (s : Sensor)
    (hs : sensor? c.decode = some s) (h1 : c.decode ≠ .evapPressure)
    (ms : List Message) (r : Response) (m : Message) (rest : List Message) (hr : c.call fl ms = .ok r)
    (hm : r.messages = m :: rest) :
    ∃ v, r.value = .qty v s.unit ∧
      |v - s.physical (s.raw m.data)| ≤ (|s.scale * s.raw m.data| + |s.offset|) / 2 ^ 50 := by
  have hev : s.signed = false := by
    generalize c.decode = d at hs h1
    unfold sensor? at hs
    split at hs <;> first
      | (cases hs; done)
      | (exact absurd rfl ‹_›)
      | (injection hs with hs; subst hs; rfl)
  obtain ⟨hv, l, u⟩ := sensor_value fl c hc s hs hev ms r m rest hr hm
  obtain ⟨-, -, -, w2⟩ := sensor_consts _ s hs
  refine ⟨_, hv, mag_acc _ s hs hev _ l (lt_of_lt_of_le u ?_)⟩
  calc (256 : ℤ) ^ s.width ≤ 256 ^ 2 := pow_le_pow_right₀ (by norm_num) w2
    _ = 65536 := by norm_num

theorem rnd_quarter (n : ℤ) (h : |n| ≤ 2 ^ 53) : fdiv n 4 = (n : ℚ) / 4 := by
  unfold fdiv
  have := rnd_dyadic n 2 h
  norm_num at this
  exact this

theorem twosComp8 (x : UInt8) : twosComp x.toNat 8 = .ok (beSigned [x]) ∧ -128 ≤ beSigned [x] ∧ beSigned [x] ≤ 127 := by
  have h := twosComp_beSigned [x] (by simp)
  have hb : bytesToInt [x] = x.toNat := by rw [beValue_eq]; simp [beValue]
  rw [hb] at h
  refine ⟨h, ?_⟩
  unfold beSigned
  have := x.toNat_lt
  simp only [beValue, List.length_cons, List.length_nil, Nat.zero_add, pow_one, pow_zero, Nat.mul_one, Nat.add_zero]
  split <;> constructor <;> omega

/-- What `evap_pressure` really computes: both bytes are taken as signed. -/
theorem evap_value (m : Message) (rest : List Message) (a b : UInt8) (t : Bytes) (hd : m.data.drop 2 = a :: b :: t) :
    decEvapPressure (m :: rest) = .ok (.qty ((beSigned [a] * 256 + beSigned [b] : ℤ) / 4) "pascal") := by
  obtain ⟨ha, ha1, ha2⟩ := twosComp8 a
  obtain ⟨hb, hb1, hb2⟩ := twosComp8 b
  have hp : payload (m :: rest) = .ok (a :: b :: t) := by rw [← hd]; rfl
  have i0 : idx (a :: b :: t) 0 = .ok a := rfl
  have i1 : idx (a :: b :: t) 1 = .ok b := rfl
  have e1 : fmul (beSigned [a]) 256 = ((beSigned [a] * 256 : ℤ) : ℚ) := by
    unfold fmul
    have := rnd_int (beSigned [a] * 256) (by rw [abs_le]; constructor <;> norm_num <;> omega)
    rw [← this]; push_cast; rfl
  have e2 : fadd ((beSigned [a] * 256 : ℤ) : ℚ) (beSigned [b]) = ((beSigned [a] * 256 + beSigned [b] : ℤ) : ℚ) := by
    unfold fadd
    have := rnd_int (beSigned [a] * 256 + beSigned [b]) (by rw [abs_le]; constructor <;> norm_num <;> omega)
    rw [← this]; push_cast; rfl
  have e3 := rnd_quarter (beSigned [a] * 256 + beSigned [b]) (by rw [abs_le]; constructor <;> norm_num <;> omega)
  simp only [decEvapPressure, hp, bind, Except.bind, i0, i1, ha, hb, pure, Except.pure, e1, e2, e3]

/-- The values of `evap_pressure` go beyond the documented lower bound -8192. -/
theorem C28_evap_partial (fl : Str → Option PyFloat) (c : OBDCommand) (hc : c ∈ allCommands)
    (hd : c.decode = .evapPressure) (ms : List Message) (r : Response) (m : Message) (rest : List Message)
    (hr : c.call fl ms = .ok r) (hm : r.messages = m :: rest) :
    ∃ v, r.value = .qty v "pascal" ∧ -8224 ≤ v ∧ v ≤ 8159 + 3 / 4 := by
  obtain ⟨h1, h2⟩ := call_head fl c ms r m rest hr hm
  have hok := List.all_eq_true.1 sizes_table c hc
  unfold sizesOk at hok
  rw [hd] at hok h1
  simp only [sensor?, prefixOnly, Bool.and_eq_true, decide_eq_true_eq, Bool.false_or] at hok
  have hlen := h2 (by omega)
  match hmd : m.data, hlen with
  | x :: y :: a :: b :: t, _ =>
    have := evap_value m rest a b t (by rw [hmd]; rfl)
    simp only [Decoder.run] at h1
    rw [this] at h1
    injection h1 with h1
    obtain ⟨-, ha1, ha2⟩ := twosComp8 a
    obtain ⟨-, hb1, hb2⟩ := twosComp8 b
    refine ⟨_, h1.symm, ?_, ?_⟩
    · rw [le_div_iff₀ (by norm_num)]
      have : (-32896 : ℤ) ≤ beSigned [a] * 256 + beSigned [b] := by omega
      calc (-8224 : ℚ) * 4 = ((-32896 : ℤ) : ℚ) := by norm_num
        _ ≤ _ := by exact_mod_cast this
    · rw [div_le_iff₀ (by norm_num)]
      have : beSigned [a] * 256 + beSigned [b] ≤ (32639 : ℤ) := by omega
      calc _ ≤ ((32639 : ℤ) : ℚ) := by exact_mod_cast this
        _ = _ := by norm_num
  | [], h => simp at h; omega
  | [_], h => simp at h; omega
  | [_, _], h => simp at h; omega
  | [_, _, _], h => simp at h; omega

/-- The true upper bounds of injection timing and fuel rate. -/
theorem C28_inject_fuel_partial (fl : Str → Option PyFloat) (c : OBDCommand) (hc : c ∈ allCommands)
    (ms : List Message) (r : Response) (hr : c.call fl ms = .ok r) (hm : r.messages ≠ []) :
    (c.decode = .injectTiming → ∃ v, r.value = .qty v "degree" ∧ -210 ≤ v ∧ v ≤ 302) ∧
    (c.decode = .fuelRate → ∃ v, r.value = .qty v "liters_per_hour" ∧ 0 ≤ v ∧ v ≤ rnd (327675 / 100)) := by
  obtain ⟨m, rest, hmr⟩ := List.exists_cons_of_ne_nil hm
  have key : ∀ s, sensor? c.decode = some s → s.signed = false → s.width = 2 →
      ∃ n : ℤ, 0 ≤ n ∧ n < 65536 ∧ r.value = .qty (mag c.decode n) s.unit := by
    intro s hs hev hw
    obtain ⟨hv, l, u⟩ := sensor_value fl c hc s hs hev ms r m rest hr hmr
    rw [hw] at u
    exact ⟨_, l, by norm_num at u; omega, hv⟩
  have mono : ∀ s, sensor? c.decode = some s → s.signed = false → ∀ n : ℤ, 0 ≤ n → n < 65536 →
      mag c.decode 0 ≤ mag c.decode n ∧ mag c.decode n ≤ mag c.decode 65535 := by
    intro s hs hev n h0 h1
    constructor
    · rcases lt_or_eq_of_le h0 with h | h
      · exact le_of_lt (mag_strict _ s hs hev 0 n (le_refl 0) h h1)
      · rw [← h]
    · rcases lt_or_eq_of_le (Int.le_sub_one_of_lt h1) with h | h
      · exact le_of_lt (mag_strict _ s hs hev n 65535 h0 h (by norm_num))
      · rw [h]; norm_num
  constructor
  · intro hd
    rw [hd] at key mono
    obtain ⟨n, h0, h1, hv⟩ := key _ rfl rfl rfl
    obtain ⟨l, u⟩ := mono _ rfl rfl n h0 h1
    exact ⟨_, hv, le_trans (by decide +kernel) l, le_trans u (by decide +kernel)⟩
  · intro hd
    rw [hd] at key mono
    obtain ⟨n, h0, h1, hv⟩ := key _ rfl rfl rfl
    obtain ⟨l, u⟩ := mono _ rfl rfl n h0 h1
    exact ⟨_, hv, le_trans (by decide +kernel) l, le_trans u (by decide +kernel)⟩

/-- The command for each scalar PID, in mode 01 and in mode 02, decodes with the sensor of
the specification. -/
theorem C28_pid (p : Nat) (s : Sensor) (h : pidSensor p = some s) :
    (∃ c, mode1[p]? = some (some c) ∧ sensor? c.decode = some s ∧ c.ecu = ECU.engine) ∧
    (∃ c, mode2[p]? = some (some c) ∧ sensor? c.decode = some s ∧ c.ecu = ECU.engine) := by
  have key : (List.range 0x60).all (fun p => match pidSensor p with
      | none => true
      | some s => (match mode1[p]? with
          | some (some c) => decide (sensor? c.decode = some s ∧ c.ecu = ECU.engine)
          | _ => false) && (match mode2[p]? with
          | some (some c) => decide (sensor? c.decode = some s ∧ c.ecu = ECU.engine)
          | _ => false)) = true := by decide +kernel
  have hp : p < 0x60 := by
    by_contra hp
    unfold pidSensor at h
    simp only [List.mem_cons, List.not_mem_nil, or_false] at h
    repeat rw [if_neg (by omega)] at h
    cases h
  have := List.all_eq_true.1 key p (List.mem_range.2 hp)
  simp only [h, Bool.and_eq_true] at this
  obtain ⟨h1, h2⟩ := this
  constructor
  · split at h1
    · next c hc => exact ⟨c, hc, of_decide_eq_true h1⟩
    · cases h1
  · split at h2
    · next c hc => exact ⟨c, hc, of_decide_eq_true h2⟩
    · cases h2

/-- The engine speed has no entry of its own there; the coolant temperature, PID 05, does. -/
example : ∃ s, pidSensor 5 = some s ∧ s.unit = "celsius" ∧ s.lo = -40 ∧ s.hi = 215 := ⟨_, rfl, by decide +kernel, by decide +kernel, by decide +kernel⟩

/-- The value of a command for a single answer with these data bytes. -/
def answer (name : String) (data : Bytes) : Option (Except Exc Value) :=
  (byName name).map (fun c => (c.call (fun _ => none) [{ frames := [], ecu := ECU.engine, data := data }]).map
    Response.value)

theorem byName_mem {name : String} {c : OBDCommand} (h : byName name = some c) : c ∈ allCommands := by
  have := List.mem_of_find?_eq_some h
  simpa using this

theorem answer_spec {name : String} {data : Bytes} {v : Value} (h : answer name data = some (.ok v)) :
    ∃ c r, byName name = some c ∧ c ∈ allCommands ∧ r.value = v ∧
      c.call (fun _ => none) [{ frames := [], ecu := ECU.engine, data := data }] = .ok r := by
  unfold answer at h
  cases hc : byName name with
  | none => rw [hc] at h; cases h
  | some c =>
    rw [hc] at h
    simp only [Option.map_some, Option.some.injEq] at h
    cases hr : c.call (fun _ => none) [{ frames := [], ecu := ECU.engine, data := data }] with
    | error e => rw [hr] at h; cases h
    | ok r =>
      rw [hr] at h
      injection h with h
      exact ⟨c, r, rfl, byName_mem hc, h, hr⟩

theorem answer_engine (c : OBDCommand) (fl : Str → Option PyFloat) (data : Bytes) (r : Response)
    (he : Overlap c.ecu ECU.engine) (hr : c.call fl [{ frames := [], ecu := ECU.engine, data := data }] = .ok r) :
    r.messages = [{ frames := [], ecu := ECU.engine, data := fit c.bytes data }] := by
  rw [call_eq] at hr
  simp only [List.filter_cons, he, decide_true, if_true, List.filter_nil, List.map_cons, List.map_nil] at hr
  split at hr
  · next h => cases h
  · split at hr
    · injection hr with hr; rw [← hr]
    · cases hr

theorem evap_witness : answer "EVAP_VAPOR_PRESSURE" [0x41, 0x32, 0x80, 0x80] = some (.ok (.qty (-8224) "pascal")) := by
  decide +kernel

theorem C28_refuted : ¬ C28_full := by
  intro h
  obtain ⟨c, r, hc, hmem, hv, hr⟩ := answer_spec evap_witness
  have hdec : (byName "EVAP_VAPOR_PRESSURE").map (fun c => (sensor? c.decode).map (fun s => (s.unit, s.lo))) =
      some (some ("pascal", -8192)) := by decide +kernel
  have heng : (byName "EVAP_VAPOR_PRESSURE").map (fun c => decide (Overlap c.ecu ECU.engine)) = some true := by
    decide +kernel
  rw [hc] at hdec heng
  simp only [Option.map_some, Option.some.injEq, Option.map_eq_some_iff, decide_eq_true_eq] at hdec heng
  obtain ⟨s, hs, hsu⟩ := hdec
  have hm := answer_engine c _ _ r heng hr
  obtain ⟨v, hv', h1, h2⟩ := h _ c hmem s hs _ r hr (by rw [hm]; simp)
  rw [hv] at hv'
  injection hv' with e1 e2
  injection hsu with e3 e4
  rw [e4, ← e1] at h1
  norm_num at h1

/-- C29: a larger raw reading decodes to a larger value. -/
def C29_full : Prop :=
  ∀ (fl : Str → Option PyFloat) (c : OBDCommand) (_ : c ∈ allCommands) (s : Sensor) (_ : sensor? c.decode = some s)
    (ms ms' : List Message) (r r' : Response) (m m' : Message) (rest rest' : List Message),
    c.call fl ms = .ok r → r.messages = m :: rest → c.call fl ms' = .ok r' → r'.messages = m' :: rest' →
    s.raw m.data < s.raw m'.data →
    ∃ v v', r.value = .qty v s.unit ∧ r'.value = .qty v' s.unit ∧ v < v'

/-- C29 holds of all scalar sensors except `evap_pressure`. -/
theorem C29_strict_partial (fl : Str → Option PyFloat) (c : OBDCommand) (hc : c ∈ allCommands) (s : Sensor)
    (hs : sensor? c.decode = some s) (hd : c.decode ≠ .evapPressure)
    (ms ms' : List Message) (r r' : Response) (m m' : Message) (rest rest' : List Message)
    (hr : c.call fl ms = .ok r) (hm : r.messages = m :: rest) (hr' : c.call fl ms' = .ok r')
    (hm' : r'.messages = m' :: rest') (hlt : s.raw m.data < s.raw m'.data) :
    ∃ v v', r.value = .qty v s.unit ∧ r'.value = .qty v' s.unit ∧ v < v' := by
  have hev : s.signed = false := by
    generalize c.decode = d at hs hd
    unfold sensor? at hs
    split at hs <;> first
      | (cases hs; done)
      | (exact absurd rfl ‹_›)
      | (injection hs with hs; subst hs; rfl)
  obtain ⟨hv, l, u⟩ := sensor_value fl c hc s hs hev ms r m rest hr hm
  obtain ⟨hv', l', u'⟩ := sensor_value fl c hc s hs hev ms' r' m' rest' hr' hm'
  obtain ⟨-, -, -, w2⟩ := sensor_consts _ s hs
  refine ⟨_, _, hv, hv', mag_strict _ s hs hev _ _ l hlt (lt_of_lt_of_le u' ?_)⟩
  calc (256 : ℤ) ^ s.width ≤ 256 ^ 2 := pow_le_pow_right₀ (by norm_num) w2
    _ = 65536 := by norm_num

/-- Equal raw readings decode to equal values, whatever else the replies contain. -/
theorem C29_function (fl fl' : Str → Option PyFloat) (c : OBDCommand) (hc : c ∈ allCommands) (s : Sensor)
    (hs : sensor? c.decode = some s) (hd : c.decode ≠ .evapPressure)
    (ms ms' : List Message) (r r' : Response) (m m' : Message) (rest rest' : List Message)
    (hr : c.call fl ms = .ok r) (hm : r.messages = m :: rest) (hr' : c.call fl' ms' = .ok r')
    (hm' : r'.messages = m' :: rest') (heq : s.raw m.data = s.raw m'.data) : r.value = r'.value := by
  have hev : s.signed = false := by
    generalize c.decode = d at hs hd
    unfold sensor? at hs
    split at hs <;> first
      | (cases hs; done)
      | (exact absurd rfl ‹_›)
      | (injection hs with hs; subst hs; rfl)
  rw [(sensor_value fl c hc s hs hev ms r m rest hr hm).1, (sensor_value fl' c hc s hs hev ms' r' m' rest' hr' hm').1, heq]

theorem C29_refuted : ¬ C29_full := by
  intro h
  have w1 : answer "EVAP_VAPOR_PRESSURE" [0x41, 0x32, 0x00, 0x7F] = some (.ok (.qty (127 / 4) "pascal")) := by
    decide +kernel
  have w2 : answer "EVAP_VAPOR_PRESSURE" [0x41, 0x32, 0x00, 0x80] = some (.ok (.qty (-32) "pascal")) := by
    decide +kernel
  obtain ⟨c, r, hc, hmem, hv, hr⟩ := answer_spec w1
  obtain ⟨c', r', hc', hmem', hv', hr'⟩ := answer_spec w2
  rw [hc] at hc'
  injection hc' with hc'
  subst hc'
  have hdec : (byName "EVAP_VAPOR_PRESSURE").map (fun c => (sensor? c.decode).map (fun s =>
      decide (s.raw (fit c.bytes [0x41, 0x32, 0x00, 0x7F]) < s.raw (fit c.bytes [0x41, 0x32, 0x00, 0x80])))) =
      some (some true) := by decide +kernel
  have heng : (byName "EVAP_VAPOR_PRESSURE").map (fun c => decide (Overlap c.ecu ECU.engine)) = some true := by
    decide +kernel
  rw [hc] at hdec heng
  simp only [Option.map_some, Option.some.injEq, Option.map_eq_some_iff, decide_eq_true_eq] at hdec heng
  obtain ⟨s, hs, hlt⟩ := hdec
  have hm := answer_engine c _ _ r heng hr
  have hm' := answer_engine c _ _ r' heng hr'
  obtain ⟨v, v', e, e', hvv⟩ := h _ c hmem s hs _ _ r r' _ _ _ _ hr hm hr' hm' hlt
  rw [hv] at e
  rw [hv'] at e'
  injection e with e _
  injection e' with e' _
  rw [← e, ← e'] at hvv
  norm_num at hvv

example : answer "RPM" [0x41, 0x0C, 0x1A, 0xF8] = some (.ok (.qty 1726 "rpm")) ∧
    answer "COOLANT_TEMP" [0x41, 0x05, 0x7B] = some (.ok (.qty 83 "celsius")) ∧
    answer "COOLANT_TEMP" [0x41, 0x05] = some (.ok (.qty (-40) "celsius")) ∧
    answer "TIMING_ADVANCE" [0x41, 0x0E, 0xFF, 0x00] = some (.ok (.qty (127 / 2) "degree")) ∧
    answer "THROTTLE_POS" [0x41, 0x11, 0xFF] = some (.ok (.qty 100 "percent")) := by decide +kernel

example : (allCommands.filter (fun c => (sensor? c.decode).isSome)).length = 165 := by decide +kernel

/-! ## C30 -/

/-- The conversion is linear in the reading, up to rounding, in the unit of the table. -/
theorem C30_linear (id : Nat) (signed : Bool) (scale : UasScale) (unit : String) (offset : ℚ)
    (h : uasLookup id = some (.lin signed scale unit offset)) (bs : Bytes) (hs : signed = true → bs ≠ [])
    (hl : bs.length ≤ 127) :
    ∃ v, UasEntry.call (.lin signed scale unit offset) bs = .ok (.qty v unit) ∧
      |v - (scale.toRat * reading signed bs + offset)| ≤ (|scale.toRat * reading signed bs| + |offset|) / 2 ^ 50 :=
  ⟨_, uas_call id signed scale unit offset h bs hs hl, uasMag_acc scale offset _⟩

example : ∃ v, UasEntry.call (.lin false (.dec (25 / 100)) "rpm" 0) [0x1A, 0xF8] = .ok (.qty v "rpm") ∧
    |v - ((25 / 100 : ℚ) * 6904 + 0)| ≤ (|(25 / 100 : ℚ) * 6904| + |(0 : ℚ)|) / 2 ^ 50 :=
  C30_linear 7 false (.dec (25 / 100)) "rpm" 0 (by decide +kernel) [0x1A, 0xF8] (by simp) (by decide)

/-- Without offset, an integer scale is exact as long as the product fits a float's mantissa. -/
theorem C30_exact (id : Nat) (signed : Bool) (n : Nat) (unit : String)
    (h : uasLookup id = some (.lin signed (.int n) unit 0)) (bs : Bytes) (hs : signed = true → bs ≠ [])
    (hl : bs.length ≤ 127) (hb : |reading signed bs * n| ≤ 2 ^ 53) :
    UasEntry.call (.lin signed (.int n) unit 0) bs = .ok (.qty (n * reading signed bs) unit) := by
  rw [uas_call id signed (.int n) unit 0 h bs hs hl]
  simp only [uasMag, fadd, rnd_zero, add_zero]
  rw [rnd_int _ hb, rnd_int _ hb]
  push_cast
  rw [mul_comm]

example : reading true [0xFF, 0xFE] = -2 ∧ UasEntry.call (.lin true (.int 1) "count" 0) [0xFF, 0xFE] = .ok (.qty ((1 : ℕ) * (reading true [0xFF, 0xFE] : ℤ)) "count") :=
  ⟨by decide +kernel, C30_exact 0x81 true 1 "count" (by decide +kernel) [0xFF, 0xFE] (by simp) (by decide) (by decide +kernel)⟩

theorem uas_scale_pos (id : Nat) (signed : Bool) (scale : UasScale) (unit : String) (offset : ℚ)
    (h : uasLookup id = some (.lin signed scale unit offset)) : 0 < scale.toRat := by
  have hb := uasTable_bounds
  rw [List.all_eq_true] at hb
  have := hb _ (mem_of_get? h)
  simp only [decide_eq_true_eq] at this
  exact this.1

/-- A larger reading never decodes to a smaller value. -/
theorem C30_monotone (id : Nat) (signed : Bool) (scale : UasScale) (unit : String) (offset : ℚ)
    (h : uasLookup id = some (.lin signed scale unit offset)) (bs bs' : Bytes) (hs : signed = true → bs ≠ [])
    (hs' : signed = true → bs' ≠ []) (hl : bs.length ≤ 127) (hl' : bs'.length ≤ 127)
    (hle : reading signed bs ≤ reading signed bs') :
    ∃ v v', UasEntry.call (.lin signed scale unit offset) bs = .ok (.qty v unit) ∧
      UasEntry.call (.lin signed scale unit offset) bs' = .ok (.qty v' unit) ∧ v ≤ v' :=
  ⟨_, _, uas_call id signed scale unit offset h bs hs hl, uas_call id signed scale unit offset h bs' hs' hl',
    uasMag_mono scale offset (le_of_lt (uas_scale_pos id signed scale unit offset h)) hle⟩

example : ∃ v v', UasEntry.call (.lin true (.int 1) "count" 0) [0xFF, 0xFE] = .ok (.qty v "count") ∧
    UasEntry.call (.lin true (.int 1) "count" 0) [0x00, 0x03] = .ok (.qty v' "count") ∧ v ≤ v' :=
  C30_monotone 0x81 true (.int 1) "count" 0 (by decide +kernel) [0xFF, 0xFE] [0x00, 0x03] (by simp) (by simp) (by decide) (by decide) (by decide +kernel)

/-- Unsigned conversions without negative offset never give a negative value. -/
theorem C30_nonneg (id : Nat) (scale : UasScale) (unit : String) (offset : ℚ)
    (h : uasLookup id = some (.lin false scale unit offset)) (ho : 0 ≤ offset) (bs : Bytes) (hl : bs.length ≤ 127) :
    ∃ v, UasEntry.call (.lin false scale unit offset) bs = .ok (.qty v unit) ∧ 0 ≤ v := by
  refine ⟨_, uas_call id false scale unit offset h bs (by intro h; cases h) hl, ?_⟩
  have h0 : 0 ≤ reading false bs := (reading_range bs _ (le_refl _)).1
  have hm := uasMag_mono scale offset (le_of_lt (uas_scale_pos id _ scale unit offset h)) h0
  refine le_trans ?_ hm
  have hr : 0 ≤ rnd (rnd offset) := by
    have := rnd_mono (rnd_mono ho); rwa [rnd_zero, rnd_zero] at this
  cases scale <;> simp [uasMag, fadd, fmul, hr]

example : ∃ v, UasEntry.call (.lin false (.dec (25 / 100)) "rpm" 0) [0xFF, 0xF8] = .ok (.qty v "rpm") ∧ 0 ≤ v :=
  C30_nonneg 7 (.dec (25 / 100)) "rpm" 0 (by decide +kernel) le_rfl [0xFF, 0xF8] (by decide)

/-- For signed conversions the reading 80 00 .. 00 is the most negative one, and gives the
smallest value. -/
theorem C30_minimum (id : Nat) (scale : UasScale) (unit : String) (offset : ℚ)
    (h : uasLookup id = some (.lin true scale unit offset)) (n : Nat) (hn : n + 1 ≤ 127) (bs : Bytes)
    (hb : bs.length = n + 1) :
    reading true (0x80 :: List.replicate n 0) = -(128 * 256 ^ n) ∧
    ∃ v v', UasEntry.call (.lin true scale unit offset) (0x80 :: List.replicate n 0) = .ok (.qty v unit) ∧
      UasEntry.call (.lin true scale unit offset) bs = .ok (.qty v' unit) ∧ v ≤ v' := by
  have hz : ∀ k, beValue (List.replicate k 0) = 0 := by
    intro k; induction k with
    | zero => rfl
    | succ k ih => simp [List.replicate_succ, beValue, ih]
  have e : reading true (0x80 :: List.replicate n 0) = -(128 * 256 ^ n) := by
    simp only [reading, if_true, beSigned, beValue, hz, List.length_cons, List.length_replicate]
    have : (0x80 : UInt8).toNat = 128 := rfl
    rw [this, if_pos (by rw [Nat.pow_succ]; omega)]
    push_cast; ring
  refine ⟨e, ?_⟩
  apply C30_monotone id true scale unit offset h _ _ (by simp) (by rintro - rfl; simp at hb) (by simp; omega) (by omega)
  rw [e]
  simp only [reading, if_true, beSigned, hb]
  have hp : (256 : ℤ) ^ (n + 1) = 256 * 256 ^ n := by ring
  have h0 : (0 : ℤ) < 256 ^ n := by positivity
  split
  · next h1 =>
    have h1' : (256 : ℤ) ^ (n + 1) ≤ 2 * beValue bs := by exact_mod_cast h1
    rw [hp] at h1' ⊢
    generalize (256 : ℤ) ^ n = P at *
    linarith
  · have : (0 : ℤ) ≤ beValue bs := Int.natCast_nonneg _
    linarith

/-- The conversion of ID 0x2E tells whether any bit is set. -/
theorem C30_any_bit (bs : Bytes) :
    uasLookup 0x2E = some .anyBit ∧ ∃ b, UasEntry.call .anyBit bs = .ok (.bool b) ∧ (b = true ↔ ∃ x ∈ bs, x ≠ 0) := by
  refine ⟨by decide +kernel, _, rfl, ?_⟩
  simp [List.any_eq_true]

/-- The decoder `uas(id)` converts the bytes after mode and PID with the entry of the table;
an unknown ID raises KeyError; a signed conversion of no bytes at all raises ValueError. -/
theorem C30_decoder (fl : Str → Option PyFloat) (id : Nat) (m : Message) (rest : List Message) :
    (∀ e v, uasLookup id = some e → e.call (m.data.drop 2) = .ok v →
      Decoder.run fl (.uas id) (m :: rest) = .ok v.toValue) ∧
    (uasLookup id = none → Decoder.run fl (.uas id) (m :: rest) = .error .keyError) ∧
    (∀ scale unit offset, uasLookup id = some (.lin true scale unit offset) → m.data.length ≤ 2 →
      Decoder.run fl (.uas id) (m :: rest) = .error .valueError) := by
  have hp : payload (m :: rest) = .ok (m.data.drop 2) := rfl
  refine ⟨?_, ?_, ?_⟩
  · intro e v h1 h2
    simp only [Decoder.run, decodeUas, hp, bind, Except.bind, h1, h2]; rfl
  · intro h1
    simp only [Decoder.run, decodeUas, hp, bind, Except.bind, h1]
  · intro scale unit offset h1 h2
    have : m.data.drop 2 = [] := List.drop_eq_nil_of_le h2
    simp only [Decoder.run, decodeUas, hp, bind, Except.bind, h1, this]
    rfl

example : uasLookup 0x96 = some (.lin true (.dec (1 / 10)) "celsius" (-400 / 10)) ∨
    uasLookup 0x81 = some (.lin true (.int 1) "count" 0) := by decide +kernel
example : UasEntry.call (.lin true (.int 1) "count" 0) [0x80, 0x00] = .ok (.qty (-32768) "count") ∧
    UasEntry.call (.lin true (.int 1) "count" 0) [0xFF, 0xFF] = .ok (.qty (-1) "count") ∧
    uasLookup 0x16 = some (.lin false (.dec (1 / 10)) "celsius" (-400 / 10)) ∧
    UasEntry.call (.lin false (.dec (1 / 10)) "celsius" (-400 / 10)) [0x01, 0x90] = .ok (.qty 0 "celsius") ∧
    uasLookup 0 = none := by decide +kernel
/-- Beyond 127 bytes the conversion to a float can overflow. -/
example : UasEntry.call (.lin false (.int 1) "count" 0) (List.replicate 128 0xFF) = .error .overflowError := by
  decide +kernel

end Props
