import Verif.Lemmas.Float
import Verif.Lemmas.Utils
import Verif.Spec.Sensors
import Verif.Model.Commands
/-! Helper lemmas about the scalar decoders and units-and-scaling conversions. -/
namespace Model
open Py Spec

theorem beValue_eq (bs : Bytes) : bytesToInt bs = beValue bs := by
  induction bs with
  | nil => rfl
  | cons b bs ih => rw [bytesToInt_cons, beValue, ih]

theorem beValue_lt (bs : Bytes) : beValue bs < 256 ^ bs.length := by
  rw [← beValue_eq]; exact bytesToInt_lt bs

theorem twosComp_beSigned (bs : Bytes) (h : bs ≠ []) :
    twosComp (bytesToInt bs) (bs.length * 8) = .ok (beSigned bs) := by
  have hlen : 0 < bs.length := List.length_pos_iff.2 h
  rw [beValue_eq]
  unfold twosComp beSigned
  rw [if_neg (by omega)]
  have hv := beValue_lt bs
  have h256 : (256 : Nat) ^ bs.length = 2 * 2 ^ (bs.length * 8 - 1) := by
    rw [show (256 : Nat) = 2 ^ 8 by rfl, ← Nat.pow_mul, ← Nat.pow_succ', show (bs.length * 8 - 1).succ = 8 * bs.length by omega]
  have h256' : (256 : Nat) ^ bs.length = 2 ^ (bs.length * 8) := by
    rw [show (256 : Nat) = 2 ^ 8 by rfl, ← Nat.pow_mul, Nat.mul_comm]
  have hbit : (beValue bs).testBit (bs.length * 8 - 1) = decide (2 ^ (bs.length * 8 - 1) ≤ beValue bs) := by
    rw [Nat.testBit_eq_decide_div_mod_eq]
    by_cases h : 2 ^ (bs.length * 8 - 1) ≤ beValue bs
    · have : beValue bs / 2 ^ (bs.length * 8 - 1) = 1 := by
        apply Nat.div_eq_of_lt_le <;> omega
      simp [this, h]
    · simp [Nat.div_eq_of_lt (Nat.lt_of_not_le h), h]
  rw [Nat.one_shiftLeft, and_two_pow_eq, hbit]
  have hp : 0 < (2:Nat) ^ (bs.length * 8 - 1) := Nat.pow_pos (by omega)
  by_cases hc : 2 ^ (bs.length * 8 - 1) ≤ beValue bs
  · rw [if_pos (by simp [hc]), if_pos (by omega), Nat.one_shiftLeft, ← h256']
    push_cast; rfl
  · rw [if_neg (by simp [hc]), if_neg (by omega)]

/-! ### relative errors -/

/-- The unit round-off. -/
def u : ℚ := 1 / 2 ^ 53

theorem u_pos : 0 < u := by unfold u; norm_num

theorem rnd_near (x : ℚ) : |rnd x - x| ≤ u * |x| := by
  have := rnd_err x
  unfold u
  calc _ ≤ |x| / 2 ^ 53 := this
    _ = _ := by ring

/-- `x` is within relative error `e` of `y`. -/
def Rel (e x y : ℚ) : Prop := |x - y| ≤ e * |y|

theorem Rel.refl (x : ℚ) : Rel 0 x x := by simp [Rel]

theorem Rel.abs {e x y : ℚ} (h : Rel e x y) : |x| ≤ (1 + e) * |y| := by
  unfold Rel at h
  calc |x| = |(x - y) + y| := by ring_nf
    _ ≤ |x - y| + |y| := abs_add_le _ _
    _ ≤ e * |y| + |y| := by linarith
    _ = _ := by ring

theorem Rel.mono {e f x y : ℚ} (h : Rel e x y) (hf : e ≤ f) : Rel f x y := by
  unfold Rel at *
  have := abs_nonneg y
  nlinarith

theorem Rel.rnd {e x y : ℚ} (h : Rel e x y) : Rel (e + u * (1 + e)) (rnd x) y := by
  have h1 := rnd_near x
  have h2 := h.abs
  unfold Rel at *
  have hu := u_pos
  calc |Py.rnd x - y| = |(Py.rnd x - x) + (x - y)| := by ring_nf
    _ ≤ |Py.rnd x - x| + |x - y| := abs_add_le _ _
    _ ≤ u * |x| + e * |y| := by linarith
    _ ≤ u * ((1 + e) * |y|) + e * |y| := by
      have := mul_le_mul_of_nonneg_left h2 (le_of_lt hu); linarith
    _ = _ := by ring

theorem Rel.mul {e f x y z w : ℚ} (hx : Rel e x y) (hz : Rel f z w) (he : 0 ≤ e) (hf : 0 ≤ f) :
    Rel (e + f + e * f) (x * z) (y * w) := by
  have h1 := hz.abs
  unfold Rel at *
  have hy := abs_nonneg y
  have hw := abs_nonneg w
  have a : |x * z - y * w| ≤ |x - y| * |z| + |y| * |z - w| := by
    calc |x * z - y * w| = |(x - y) * z + y * (z - w)| := by ring_nf
      _ ≤ |(x - y) * z| + |y * (z - w)| := abs_add_le _ _
      _ = _ := by rw [abs_mul, abs_mul]
  have b : |x - y| * |z| ≤ (e * |y|) * ((1 + f) * |w|) := by
    apply mul_le_mul hx h1 (abs_nonneg _) (by positivity)
  have c : |y| * |z - w| ≤ |y| * (f * |w|) := mul_le_mul_of_nonneg_left hz hy
  rw [abs_mul]
  calc _ ≤ (e * |y|) * ((1 + f) * |w|) + |y| * (f * |w|) := by linarith
    _ = _ := by ring

theorem Rel.rnd1 (x : ℚ) : Rel u (Py.rnd x) x := by
  have := (Rel.refl x).rnd
  simpa using this

/-- `rnd (p + rnd off)` where `p` is near `y`. -/
theorem sum_near {e p y off : ℚ} (hp : Rel e p y) (he : u ≤ e) :
    |rnd (p + rnd off) - (y + off)| ≤ (e + u * (1 + e)) * (|y| + |off|) := by
  have hu := u_pos
  have ho := Rel.rnd1 off
  have h1 := rnd_near (p + rnd off)
  have hpa := hp.abs
  have hoa := ho.abs
  unfold Rel at hp ho
  have hy := abs_nonneg y
  have hf := abs_nonneg off
  have s1 : |p + rnd off - (y + off)| ≤ e * |y| + u * |off| := by
    calc |p + rnd off - (y + off)| = |(p - y) + (rnd off - off)| := by ring_nf
      _ ≤ |p - y| + |rnd off - off| := abs_add_le _ _
      _ ≤ _ := by linarith
  have s2 : |p + rnd off| ≤ (1 + e) * |y| + (1 + u) * |off| := by
    calc |p + rnd off| ≤ |p| + |rnd off| := abs_add_le _ _
      _ ≤ _ := by linarith
  calc |rnd (p + rnd off) - (y + off)| = |(rnd (p + rnd off) - (p + rnd off)) + (p + rnd off - (y + off))| := by ring_nf
    _ ≤ |rnd (p + rnd off) - (p + rnd off)| + |p + rnd off - (y + off)| := abs_add_le _ _
    _ ≤ u * |p + rnd off| + (e * |y| + u * |off|) := by linarith
    _ ≤ u * ((1 + e) * |y| + (1 + u) * |off|) + (e * |y| + u * |off|) := by
      have := mul_le_mul_of_nonneg_left s2 (le_of_lt hu); linarith
    _ ≤ (e + u * (1 + e)) * (|y| + |off|) := by
      have a : u * (1 + u) ≤ u * (1 + e) := mul_le_mul_of_nonneg_left (by linarith) (le_of_lt hu)
      have b : (u * (1 + u) + u) * |off| ≤ (u * (1 + e) + e) * |off| :=
        mul_le_mul_of_nonneg_right (by linarith) hf
      linarith [mul_add (e + u * (1 + e)) |y| |off|]

/-! ### toFloat -/

theorem toFloat_ok (n : ℤ) (h : |n| ≤ 2 ^ 1023) : toFloat n = .ok (rnd n) := by
  unfold toFloat
  rw [if_neg]
  rw [pow2_eq]
  push Not
  have h1 : ((n.natAbs : ℕ) : ℚ) ≤ ((1 : ℤ) : ℚ) * 2 ^ (1023 : ℤ) := by
    have : ((n.natAbs : ℕ) : ℤ) ≤ 2 ^ 1023 := by rw [Int.natCast_natAbs]; exact h
    have h2 : (((n.natAbs : ℕ) : ℤ) : ℚ) ≤ ((2 ^ 1023 : ℤ) : ℚ) := by exact_mod_cast this
    rw [Int.cast_natCast] at h2
    refine le_trans h2 (le_of_eq ?_)
    push_cast
    rw [one_mul]; exact (zpow_natCast 2 1023).symm
  have h2 := rnd_mono h1
  rw [rnd_exact 1 1023 (by norm_num)] at h2
  refine lt_of_le_of_lt h2 ?_
  simp only [Int.cast_one, one_mul]
  exact zpow_lt_zpow_right₀ (by norm_num) (by norm_num)

theorem toFloat_small (n : ℤ) (h : |n| ≤ 2 ^ 53) : toFloat n = .ok (n : ℚ) := by
  rw [toFloat_ok n (le_trans h (pow_le_pow_right₀ (by norm_num) (by norm_num))), rnd_int n h]

/-! ### units and scaling -/

def UasScale.toRat : UasScale → ℚ
  | .int n => n
  | .dec q => q

/-- The table constants are moderate. -/
theorem uasTable_bounds : uasTable.all (fun e => match e.2 with
    | .anyBit => true
    | .lin _ s _ o => decide (0 < s.toRat ∧ s.toRat ≤ 100 ∧ |o| ≤ 65536 * s.toRat ∧
        (match s with | .int n => decide (n ≤ 100) | .dec _ => true) = true)) = true := by decide +kernel

/-- The float computed for a reading. -/
def uasMag (scale : UasScale) (offset : ℚ) (v : ℤ) : ℚ :=
  fadd (match scale with
    | .int n => rnd ((v * n : ℤ) : ℚ)
    | .dec q => fmul (rnd v) (rnd q)) (rnd offset)

theorem uasMag_mono (scale : UasScale) (offset : ℚ) (hs : 0 ≤ scale.toRat) {v w : ℤ} (h : v ≤ w) :
    uasMag scale offset v ≤ uasMag scale offset w := by
  unfold uasMag fadd
  apply rnd_mono
  have : (v : ℚ) ≤ (w : ℚ) := by exact_mod_cast h
  cases scale with
  | int n =>
    simp only
    have : rnd ((v * n : ℤ) : ℚ) ≤ rnd ((w * n : ℤ) : ℚ) := by
      apply rnd_mono
      push_cast
      have hn : (0 : ℚ) ≤ (n : ℚ) := by positivity
      exact mul_le_mul_of_nonneg_right this hn
    linarith
  | dec q =>
    simp only [fmul]
    have hq : 0 ≤ rnd q := by have := rnd_mono hs; simpa [UasScale.toRat] using this
    have : rnd (rnd v * rnd q) ≤ rnd (rnd w * rnd q) := by
      apply rnd_mono
      exact mul_le_mul_of_nonneg_right (rnd_mono this) hq
    linarith

theorem uasMag_acc (scale : UasScale) (offset : ℚ) (v : ℤ) :
    |uasMag scale offset v - (scale.toRat * v + offset)| ≤ (|scale.toRat * v| + |offset|) / 2 ^ 50 := by
  have hp : Rel (3 * u + 3 * u ^ 2 + u ^ 3) (match scale with
    | .int n => rnd ((v * n : ℤ) : ℚ)
    | .dec q => fmul (rnd v) (rnd q)) (scale.toRat * v) := by
    cases scale with
    | int n =>
      have h1 := Rel.rnd1 ((v * n : ℤ) : ℚ)
      have e : ((v * n : ℤ) : ℚ) = (UasScale.int n).toRat * v := by push_cast [UasScale.toRat]; ring
      simp only
      rw [e] at h1 ⊢
      apply h1.mono
      have := u_pos
      nlinarith [sq_nonneg u, mul_pos this (mul_pos this this)]
    | dec q =>
      have h1 := ((Rel.rnd1 (v : ℚ)).mul (Rel.rnd1 q) (le_of_lt u_pos) (le_of_lt u_pos)).rnd
      simp only [fmul]
      have e : (UasScale.dec q).toRat * v = v * q := by simp [UasScale.toRat]; ring
      rw [e]
      apply h1.mono
      apply le_of_eq; ring
  have := sum_near (off := offset) hp (by have := u_pos; nlinarith [sq_nonneg u, mul_pos this (mul_pos this this)])
  unfold uasMag fadd
  refine le_trans this ?_
  rw [div_eq_mul_one_div, mul_comm]
  apply mul_le_mul_of_nonneg_left
  · unfold u; norm_num
  · positivity

theorem rat_le_100 {s : UasScale} (h : (match s with | .int n => decide (n ≤ 100) | .dec _ => true) = true) :
    ∀ n, s = .int n → n ≤ 100 := by
  rintro n rfl
  simpa using h

theorem mem_of_get? {α β} [DecidableEq α] {t : Dict α β} {k : α} {v : β} (h : t.get? k = some v) : (k, v) ∈ t := by
  induction t with
  | nil => simp [Dict.get?] at h
  | cons e t ih =>
    obtain ⟨k', v'⟩ := e
    simp only [Dict.get?] at h
    split at h
    · next hk => injection h with h; subst hk; subst h; exact List.mem_cons_self ..
    · exact List.mem_cons_of_mem _ (ih h)

/-- Units-and-scaling conversions of the table. -/
theorem uas_call (id : Nat) (signed : Bool) (scale : UasScale) (unit : String) (offset : ℚ)
    (hmem : uasLookup id = some (.lin signed scale unit offset)) (bs : Bytes) (hs : signed = true → bs ≠ [])
    (hl : bs.length ≤ 127) :
    UasEntry.call (.lin signed scale unit offset) bs = .ok (.qty (uasMag scale offset (reading signed bs)) unit) := by
  have hb : 0 < scale.toRat ∧ ∀ n, scale = .int n → n ≤ 100 := by
    have h := uasTable_bounds
    rw [List.all_eq_true] at h
    have hm : (id, UasEntry.lin signed scale unit offset) ∈ uasTable := by
      exact mem_of_get? hmem
    have := h _ hm
    simp only [decide_eq_true_eq] at this
    exact ⟨this.1, rat_le_100 this.2.2.2⟩
  have hv : |reading signed bs| ≤ 2 ^ 1016 := by
    have hlt := beValue_lt bs
    have h3 : ((256 : ℤ)) ^ bs.length ≤ 2 ^ 1016 := by
      rw [show (256 : ℤ) = 2 ^ 8 by norm_num, ← pow_mul]
      have h8 : 8 * bs.length ≤ 1016 := by clear hlt; omega
      exact pow_le_pow_right₀ (a := (2 : ℤ)) (by norm_num) h8
    have h4 : (beValue bs : ℤ) < 256 ^ bs.length := by exact_mod_cast hlt
    unfold reading
    rw [abs_le]
    have h5 : (0 : ℤ) ≤ beValue bs := Int.natCast_nonneg _
    generalize (2 : ℤ) ^ 1016 = P at h3 ⊢
    split
    · unfold beSigned
      generalize (256 : ℤ) ^ bs.length = Q at *
      split <;> constructor <;> linarith
    · constructor <;> linarith
  have hread : (if signed then twosComp (bytesToInt bs) (bs.length * 8) else pure (bytesToInt bs : ℤ)) =
      (Except.ok (reading signed bs) : Except Exc ℤ) := by
    unfold reading
    cases signed with
    | true => simp only [if_true]; exact twosComp_beSigned bs (hs rfl)
    | false => simp only [Bool.false_eq_true, if_false, beValue_eq]; rfl
  simp only [UasEntry.call]
  have fin : ∀ v : ℤ, |v| ≤ 2 ^ 1016 →
      UasEntry.call (.lin signed scale unit offset) bs = .ok (.qty (uasMag scale offset v) unit) ∨
      (if signed then twosComp (bytesToInt bs) (bs.length * 8) else pure (bytesToInt bs : ℤ)) ≠
        (Except.ok v : Except Exc ℤ) := by
    intro v hv
    by_cases hr : (if signed then twosComp (bytesToInt bs) (bs.length * 8) else pure (bytesToInt bs : ℤ)) =
        (Except.ok v : Except Exc ℤ)
    · left
      unfold uasMag
      cases scale with
      | int n =>
        have hn := hb.2 n rfl
        have ht : toFloat (v * n) = .ok (rnd ((v * n : ℤ) : ℚ)) := by
          apply toFloat_ok
          rw [abs_mul]
          have : |(n : ℤ)| ≤ 2 ^ 7 := by rw [abs_of_nonneg (Int.natCast_nonneg _)]; clear hv; omega
          calc |v| * |(n : ℤ)| ≤ 2 ^ 1016 * 2 ^ 7 := by
                apply mul_le_mul hv this (abs_nonneg _) (pow_nonneg (by norm_num) _)
            _ = 2 ^ 1023 := (pow_add 2 1016 7).symm
        cases signed with
        | true =>
          simp only [if_true] at hr
          simp only [UasEntry.call, if_true, hr, bind, Except.bind, ht]; rfl
        | false =>
          simp only [Bool.false_eq_true, if_false, pure, Except.pure, Except.ok.injEq] at hr
          simp only [UasEntry.call, Bool.false_eq_true, if_false, hr, pure, Except.pure, bind, Except.bind, ht]
      | dec q =>
        have ht := toFloat_ok v (le_trans hv (pow_le_pow_right₀ (by norm_num) (by norm_num)))
        cases signed with
        | true =>
          simp only [if_true] at hr
          simp only [UasEntry.call, if_true, hr, bind, Except.bind, ht]; rfl
        | false =>
          simp only [Bool.false_eq_true, if_false, pure, Except.pure, Except.ok.injEq] at hr
          simp only [UasEntry.call, Bool.false_eq_true, if_false, hr, pure, Except.pure, bind, Except.bind, ht,
            Except.map]
    · exact .inr hr
  rcases fin _ hv with h | h
  · exact h
  · exact absurd hread h

/-! ### the scalar decoders -/

/-- The magnitude computed from the raw reading (all scalar decoders but `evap_pressure`). -/
def mag : Decoder → ℤ → ℚ
  | .percent, n => fdiv (fmul n 100) 255
  | .percentCentered, n => fdiv (fmul (n - 128 : ℤ) 100) 128
  | .temp, n => (n - 40 : ℤ)
  | .currentCentered, n => fsub (fdiv n 256) 128
  | .sensorVoltage, n => fdiv n 200
  | .sensorVoltageBig, n => fdiv (fmul n 8) 65535
  | .fuelPressure, n => (n * 3 : ℤ)
  | .pressure, n => n
  | .absEvapPressure, n => fdiv n 200
  | .evapPressureAlt, n => (n - 32767 : ℤ)
  | .timingAdvance, n => fdiv (n - 128 : ℤ) 2
  | .injectTiming, n => fdiv (n - 26880 : ℤ) 128
  | .maxMaf, n => (n * 10 : ℤ)
  | .fuelRate, n => fmul n (rnd (5 / 100))
  | .absoluteLoad, n => fmul n (fdiv 100 255)
  | .count, n => n
  | .uas id, n => match uasLookup id with
    | some (.lin _ scale _ offset) => uasMag scale offset n
    | _ => 0
  | _, _ => 0

/-- Decoders that read only the first bytes after mode and PID. -/
def prefixOnly : Decoder → Bool
  | .percent | .percentCentered | .currentCentered | .sensorVoltage | .sensorVoltageBig | .fuelPressure | .pressure
  | .timingAdvance | .maxMaf => true
  | _ => false

theorem rnd_dyadic (n : ℤ) (k : ℕ) (h : |n| ≤ 2 ^ 53) : rnd ((n : ℚ) / 2 ^ k) = (n : ℚ) / 2 ^ k := by
  have := rnd_exact n (-(k : ℤ)) h
  rw [zpow_neg, zpow_natCast] at this
  rw [div_eq_mul_inv]; exact this

theorem acc_of_eq {v y o : ℚ} (h : v = y + o) : |v - (y + o)| ≤ (|y| + |o|) / 2 ^ 50 := by
  rw [h]; simp only [sub_self, abs_zero]; positivity

theorem acc_of_rel {v y e : ℚ} (h : Rel e v y) (he : e ≤ 1 / 2 ^ 50) : |v - (y + 0)| ≤ (|y| + |(0 : ℚ)|) / 2 ^ 50 := by
  have := h.mono he
  unfold Rel at this
  rw [add_zero, abs_zero, add_zero, div_eq_mul_one_div, mul_comm]; exact this

def uasOk (id : ℕ) (s : Sensor) : Bool :=
  match uasLookup id with
  | some (.lin signed scale unit offset) =>
    decide (signed = s.signed ∧ scale.toRat = s.scale ∧ unit = s.unit ∧ offset = s.offset)
  | _ => false

/-- The units-and-scaling sensors of the specification are those of the table. -/
theorem uas_sensor (id : ℕ) (s : Sensor) (h : sensor? (.uas id) = some s) :
    ∃ scale, uasLookup id = some (.lin s.signed scale s.unit s.offset) ∧ scale.toRat = s.scale := by
  have key : uasOk id s = true := by
    unfold sensor? at h
    split at h <;> simp_all only [reduceCtorEq, Decoder.uas.injEq, Option.some.injEq] <;> subst h <;> decide +kernel
  unfold uasOk at key
  split at key
  · next hl =>
    obtain ⟨rfl, h2, rfl, rfl⟩ := of_decide_eq_true key
    exact ⟨_, hl, h2⟩
  · simp at key

theorem mag_uas_acc {id : ℕ} {s : Sensor} (h : sensor? (.uas id) = some s) (n : ℤ) :
    |mag (.uas id) n - (s.scale * n + s.offset)| ≤ (|s.scale * n| + |s.offset|) / 2 ^ 50 := by
  obtain ⟨scale, hl, hs⟩ := uas_sensor id s h
  simp only [mag, hl]
  rw [← hs]
  exact uasMag_acc scale s.offset n

/-- Accuracy of every scalar decoder. -/
theorem mag_acc (d : Decoder) (s : Sensor) (h : sensor? d = some s) (hev : s.signed = false) (n : ℤ)
    (h0 : 0 ≤ n) (h1 : n < 65536) :
    |mag d n - s.physical n| ≤ (|s.scale * n| + |s.offset|) / 2 ^ 50 := by
  have hab : ∀ c : ℤ, |c| ≤ 1000000 → |n + c| ≤ 2 ^ 53 := by
    intro c hc; rw [abs_le] at *; constructor <;> norm_num <;> omega
  have hn : |n| ≤ 2 ^ 53 := by rw [abs_le]; constructor <;> norm_num <;> omega
  have hmul : ∀ c : ℤ, |c| ≤ 1000 → rnd ((n : ℚ) * (c : ℚ)) = (n : ℚ) * c := by
    intro c hc
    have := rnd_int (n * c) (by rw [abs_mul, abs_of_nonneg h0]; rw [abs_le] at hc; 
                                calc n * |c| ≤ 65536 * 1000 := by
                                      apply mul_le_mul (le_of_lt h1) (abs_le.2 hc) (abs_nonneg _) (by norm_num)
                                  _ ≤ _ := by norm_num)
    push_cast at this; exact this
  unfold Sensor.physical
  unfold sensor? at h
  split at h <;> (first | (injection h with h; subst h) | (exact absurd h (by simp)))
  -- percent
  · have e := hmul 100 (by norm_num)
    push_cast at e
    simp only [mag, fmul, fdiv, e]
    apply acc_of_rel (e := u)
    · have := Rel.rnd1 ((n : ℚ) * 100 / 255)
      rw [show (100 / 255 : ℚ) * n = (n : ℚ) * 100 / 255 by ring]; exact this
    · unfold u; norm_num
  -- percent_centered
  · apply acc_of_eq
    simp only [mag, fmul, fdiv]
    have e1 : rnd (((n - 128 : ℤ) : ℚ) * 100) = (((n - 128) * 100 : ℤ) : ℚ) := by
      have := rnd_int ((n - 128) * 100) (by rw [abs_le]; constructor <;> norm_num <;> omega)
      rw [← this]; push_cast; rfl
    rw [e1, show (128 : ℚ) = 2 ^ 7 by norm_num, rnd_dyadic _ 7 (by rw [abs_le]; constructor <;> norm_num <;> omega)]
    push_cast; ring
  -- temp
  · apply acc_of_eq
    simp only [mag]; push_cast; ring
  -- current_centered
  · apply acc_of_eq
    simp only [mag, fsub, fdiv]
    rw [show (256 : ℚ) = 2 ^ 8 by norm_num, rnd_dyadic n 8 hn]
    have : (n : ℚ) / 2 ^ 8 - 128 = ((n - 32768 : ℤ) : ℚ) / 2 ^ 8 := by push_cast; ring
    rw [this, rnd_dyadic _ 8 (by rw [abs_le]; constructor <;> norm_num <;> omega)]
    push_cast; ring
  -- sensor_voltage
  · simp only [mag, fdiv]
    apply acc_of_rel (e := u)
    · have := Rel.rnd1 ((n : ℚ) / 200)
      rw [show (1 / 200 : ℚ) * n = (n : ℚ) / 200 by ring]; exact this
    · unfold u; norm_num
  -- sensor_voltage_big
  · have e := hmul 8 (by norm_num)
    push_cast at e
    simp only [mag, fmul, fdiv, e]
    apply acc_of_rel (e := u)
    · have := Rel.rnd1 ((n : ℚ) * 8 / 65535)
      rw [show (8 / 65535 : ℚ) * n = (n : ℚ) * 8 / 65535 by ring]; exact this
    · unfold u; norm_num
  · apply acc_of_eq; simp only [mag]; push_cast; ring
  · apply acc_of_eq; simp only [mag]; ring
  · exact absurd hev (by simp)
  -- abs_evap_pressure
  · simp only [mag, fdiv]
    apply acc_of_rel (e := u)
    · have := Rel.rnd1 ((n : ℚ) / 200)
      rw [show (1 / 200 : ℚ) * n = (n : ℚ) / 200 by ring]; exact this
    · unfold u; norm_num
  · apply acc_of_eq; simp only [mag]; push_cast; ring
  -- timing_advance
  · apply acc_of_eq
    simp only [mag, fdiv]
    have := rnd_dyadic (n - 128) 1 (by rw [abs_le]; constructor <;> norm_num <;> omega)
    rw [pow_one] at this
    rw [this]; push_cast; ring
  -- inject_timing
  · apply acc_of_eq
    simp only [mag, fdiv]
    rw [show (128 : ℚ) = 2 ^ 7 by norm_num, rnd_dyadic (n - 26880) 7 (by rw [abs_le]; constructor <;> norm_num <;> omega)]
    push_cast; ring
  · apply acc_of_eq; simp only [mag]; push_cast; ring
  -- fuel_rate
  · simp only [mag, fmul]
    have h1 := ((Rel.refl (n : ℚ)).mul (Rel.rnd1 (5 / 100)) (le_refl 0) (le_of_lt u_pos)).rnd
    rw [show (1 / 20 : ℚ) * n = (n : ℚ) * (5 / 100) by ring]
    apply acc_of_rel h1
    unfold u; norm_num
  -- absolute_load
  · simp only [mag, fmul, fdiv]
    have h1 := ((Rel.refl (n : ℚ)).mul (Rel.rnd1 (100 / 255)) (le_refl 0) (le_of_lt u_pos)).rnd
    rw [show (100 / 255 : ℚ) * n = (n : ℚ) * (100 / 255) by ring]
    apply acc_of_rel h1
    unfold u; norm_num
  · apply acc_of_eq; simp only [mag]; ring
  all_goals exact mag_uas_acc (s := _) rfl n

theorem sensor_consts (d : Decoder) (s : Sensor) (h : sensor? d = some s) :
    0 < s.scale ∧ |s.offset| ≤ 65536 * s.scale ∧ 1 ≤ s.width ∧ s.width ≤ 2 := by
  unfold sensor? at h
  split at h <;> first
    | (injection h with h; subst h; refine ⟨by norm_num, ?_, by norm_num, by norm_num⟩; rw [abs_le]; constructor <;> norm_num)
    | (exact absurd h (by simp))

theorem mag_strict (d : Decoder) (s : Sensor) (h : sensor? d = some s) (hev : s.signed = false) (m n : ℤ)
    (h0 : 0 ≤ m) (hmn : m < n) (h1 : n < 65536) : mag d m < mag d n := by
  obtain ⟨hs, ho, -, -⟩ := sensor_consts d s h
  have am := mag_acc d s h hev m h0 (by omega)
  have an := mag_acc d s h hev n (by omega) h1
  unfold Sensor.physical at am an
  have hm0 : (0 : ℚ) ≤ m := by exact_mod_cast h0
  have hn1 : (n : ℚ) ≤ 65535 := by exact_mod_cast (by omega : n ≤ 65535)
  have hmn1 : (m : ℚ) + 1 ≤ n := by exact_mod_cast hmn
  rw [abs_of_nonneg (mul_nonneg (le_of_lt hs) hm0)] at am
  rw [abs_of_nonneg (mul_nonneg (le_of_lt hs) (by linarith))] at an
  have bm : s.scale * m ≤ s.scale * 65536 := mul_le_mul_of_nonneg_left (by linarith) (le_of_lt hs)
  have bn : s.scale * n ≤ s.scale * 65536 := mul_le_mul_of_nonneg_left (by linarith) (le_of_lt hs)
  have bd : s.scale * (m + 1) ≤ s.scale * n := mul_le_mul_of_nonneg_left hmn1 (le_of_lt hs)
  rw [abs_le] at am an
  have cm : (s.scale * m + |s.offset|) / 2 ^ 50 ≤ s.scale / 4 := by
    rw [div_le_div_iff₀ (by norm_num) (by norm_num)]
    norm_num; linarith
  have cn : (s.scale * n + |s.offset|) / 2 ^ 50 ≤ s.scale / 4 := by
    rw [div_le_div_iff₀ (by norm_num) (by norm_num)]
    norm_num; linarith
  linarith [am.1, am.2, an.1, an.2]

/-- Sensors whose documented range is the range of the computed values. -/
def rangeOk (s : Sensor) : Bool := !s.signed && !(s.offset == -210) && !(s.unit == "liters_per_hour")

theorem mag_ends (d : Decoder) (s : Sensor) (h : sensor? d = some s) (hr : rangeOk s = true) :
    s.lo ≤ mag d 0 ∧ mag d (256 ^ s.width - 1) ≤ rnd s.hi := by
  unfold sensor? at h
  split at h <;> first
    | (cases h; done)
    | (injection h with h; subst h; exfalso; revert hr; decide +kernel)
    | (injection h with h; subst h; decide +kernel)

theorem mag_range (d : Decoder) (s : Sensor) (h : sensor? d = some s) (hr : rangeOk s = true) (n : ℤ)
    (h0 : 0 ≤ n) (h1 : n < 256 ^ s.width) : s.lo ≤ mag d n ∧ mag d n ≤ rnd s.hi := by
  obtain ⟨-, -, w1, w2⟩ := sensor_consts d s h
  have hev : s.signed = false := by unfold rangeOk at hr; revert hr; cases s.signed <;> simp
  obtain ⟨e1, e2⟩ := mag_ends d s h hr
  have hp : (256 : ℤ) ^ s.width ≤ 65536 := by
    calc (256 : ℤ) ^ s.width ≤ 256 ^ 2 := pow_le_pow_right₀ (by norm_num) w2
      _ = 65536 := by norm_num
  constructor
  · rcases lt_or_eq_of_le h0 with h | h
    · exact le_trans e1 (le_of_lt (mag_strict d s ‹_› hev 0 n (le_refl 0) h (by omega)))
    · rw [← h]; exact e1
  · rcases lt_or_eq_of_le (Int.le_sub_one_of_lt h1) with h' | h'
    · exact le_trans (le_of_lt (mag_strict d s h hev n _ h0 h' (by omega))) e2
    · rw [h']; exact e2

theorem drop2_one (d : Bytes) (h : 3 ≤ d.length) : ∃ x, idx (d.drop 2) 0 = .ok x ∧ reading false ((d.drop 2).take 1) = x.toNat := by
  match d, h with
  | a :: b :: x :: t, _ => exact ⟨x, rfl, by simp [reading, beValue]⟩

theorem toFloat_bytes (n : ℤ) (k : ℤ) (h0 : 0 ≤ n) (h1 : n < 65536) (hk : |k| ≤ 65536) : toFloat (n - k) = .ok ((n - k : ℤ) : ℚ) := by
  apply toFloat_small
  rw [abs_le] at *
  constructor <;> norm_num <;> omega

theorem reading_range (bs : Bytes) (w : Nat) (h : bs.length ≤ w) : 0 ≤ reading false bs ∧ reading false bs < 256 ^ w := by
  have hlt := beValue_lt bs
  have hle : 256 ^ bs.length ≤ 256 ^ w := Nat.pow_le_pow_right (by norm_num) h
  have : beValue bs < 256 ^ w := lt_of_lt_of_le hlt hle
  unfold reading
  simp only [Bool.false_eq_true, if_false]
  exact ⟨Int.natCast_nonneg _, by exact_mod_cast this⟩

/-- What a scalar decoder computes. -/
theorem run_mag (fl : Str → Option PyFloat) (d : Decoder) (s : Sensor) (h : sensor? d = some s) (hev : s.signed = false)
    (m : Message) (rest : List Message) (hlen : 2 + s.first + s.width ≤ m.data.length)
    (hex : prefixOnly d = false → m.data.length = 2 + s.width) :
    d.run fl (m :: rest) = .ok (.qty (mag d (s.raw m.data)) s.unit) := by
  have hp : payload (m :: rest) = .ok (m.data.drop 2) := rfl
  have hone : 3 ≤ m.data.length → ∃ x, idx (m.data.drop 2) 0 = .ok x ∧ reading false ((m.data.drop 2).take 1) = x.toNat :=
    drop2_one m.data
  have htwo : m.data.length = 4 → reading false ((m.data.drop 2).take 2) = bytesToInt (m.data.drop 2) := by
    intro h; rw [List.take_of_length_le (by simp; omega)]; simp [reading, beValue_eq]
  have hall1 : m.data.length = 3 → reading false ((m.data.drop 2).take 1) = bytesToInt (m.data.drop 2) := by
    intro h; rw [List.take_of_length_le (by simp; omega)]; simp [reading, beValue_eq]
  have hbi : m.data.length ≤ 4 → (0 : ℤ) ≤ bytesToInt (m.data.drop 2) ∧ (bytesToInt (m.data.drop 2) : ℤ) < 65536 := by
    intro h
    have := reading_range (m.data.drop 2) 2 (by simp; omega)
    simpa [reading, beValue_eq] using this
  have hmid : reading false ((m.data.drop 4).take 2) = bytesToInt (slice (m.data.drop 2) 2 4) := by
    simp only [reading, Bool.false_eq_true, if_false, slice, ← beValue_eq]
    rw [List.drop_take, List.drop_drop]
  have huas : ∀ id, d = .uas id → d.run fl (m :: rest) = .ok (.qty (mag d (s.raw m.data)) s.unit) := by
    rintro id rfl
    obtain ⟨scale, hl, hs⟩ := uas_sensor id s h
    have hf : s.first = 0 := by
      unfold sensor? at h
      split at h <;> first
        | (simp_all only [reduceCtorEq]; done)
        | (injection h with h; subst h; rfl)
    have hlen2 : m.data.length = 2 + s.width := hex rfl
    obtain ⟨-, -, -, w2⟩ := sensor_consts _ s h
    have hdr : (m.data.drop (2 + s.first)).take s.width = m.data.drop 2 := by
      rw [hf, Nat.add_zero, List.take_of_length_le (by simp; omega)]
    have hc := uas_call id s.signed scale s.unit s.offset hl (m.data.drop 2) (by rw [hev]; intro h; cases h)
      (by simp; omega)
    simp only [Decoder.run, decodeUas, hp, bind, Except.bind, hl, hc, mag, Sensor.raw, hdr, pure, Except.pure,
      UasValue.toValue]
  cases d <;> first
    | (exact huas _ rfl)
    | (cases h; done)
    | skip
  all_goals
    have h' := h
    simp only [sensor?, Option.some.injEq] at h'
    subst h'
    simp only [Nat.add_zero, prefixOnly, Bool.true_eq_false, false_imp_iff, forall_const] at hlen hex
    simp only [Decoder.run, Sensor.raw, mag, Nat.add_zero]
  · rw [hall1 hex]; rfl
  · obtain ⟨x, hx, hr⟩ := hone hlen
    simp only [decPercent, hp, bind, Except.bind, hx, hr, pure, Except.pure, Int.cast_natCast]
  · obtain ⟨x, hx, hr⟩ := hone hlen
    simp only [decPercentCentered, hp, bind, Except.bind, hx, hr, pure, Except.pure]
  · rw [hall1 hex]; rfl
  · simp only [decCurrentCentered, hp, bind, Except.bind, pure, Except.pure, hmid, Nat.reduceAdd, Int.cast_natCast]
  · obtain ⟨x, hx, hr⟩ := hone hlen
    simp only [decSensorVoltage, hp, bind, Except.bind, hx, hr, pure, Except.pure, Int.cast_natCast]
  · simp only [decSensorVoltageBig, hp, bind, Except.bind, pure, Except.pure, hmid, Nat.reduceAdd, Int.cast_natCast]
  · obtain ⟨x, hx, hr⟩ := hone hlen
    simp only [decFuelPressure, hp, bind, Except.bind, hx, hr, pure, Except.pure, Int.cast_natCast]
    push_cast; rfl
  · obtain ⟨x, hx, hr⟩ := hone hlen
    simp only [decPressure, hp, bind, Except.bind, hx, hr, pure, Except.pure, Int.cast_natCast]
  · exact absurd hev (by simp)
  · rw [htwo hex]
    obtain ⟨b0, b1⟩ := hbi (by omega)
    have := toFloat_bytes _ 0 b0 b1 (by norm_num)
    rw [sub_zero] at this
    simp only [decAbsEvapPressure, hp, bind, Except.bind, this, pure, Except.pure]
  · rw [htwo hex]; rfl
  · obtain ⟨x, hx, hr⟩ := hone hlen
    simp only [decTimingAdvance, hp, bind, Except.bind, hx, hr, pure, Except.pure]
  · rw [htwo hex]
    obtain ⟨b0, b1⟩ := hbi (by omega)
    have := toFloat_bytes _ 26880 b0 b1 (by norm_num)
    simp only [decInjectTiming, hp, bind, Except.bind, this, pure, Except.pure]
  · obtain ⟨x, hx, hr⟩ := hone hlen
    simp only [decMaxMaf, hp, bind, Except.bind, hx, hr, pure, Except.pure]
    push_cast; rfl
  · rw [htwo hex]
    obtain ⟨b0, b1⟩ := hbi (by omega)
    have := toFloat_bytes _ 0 b0 b1 (by norm_num)
    rw [sub_zero] at this
    simp only [decFuelRate, hp, bind, Except.bind, this, pure, Except.pure]
  · rw [htwo hex]
    obtain ⟨b0, b1⟩ := hbi (by omega)
    have := toFloat_bytes _ 0 b0 b1 (by norm_num)
    rw [sub_zero] at this
    simp only [decAbsoluteLoad, hp, bind, Except.bind, this, pure, Except.pure]

end Model
