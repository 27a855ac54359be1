import Verif.Lemmas.Utils
import Verif.Model.Protocol
/-!
# C01-C05: `obd/utils.py`
-/
namespace Props
open Py Model Spec

/-! ## C01: big-endian integers decode exactly -/

/-- C01: every `n < 256^k` is recovered from its `k`-byte big-endian encoding. -/
theorem C01_decode_encode (k n : Nat) (h : n < 256 ^ k) : bytesToInt (beEncode k n) = n :=
  bytesToInt_beEncode k n h

/-- C01: `bytes_to_int bs` is the unique `n < 256^(len bs)` whose encoding is `bs`. -/
theorem C01_unique (bs : Bytes) (n : Nat) :
    (n < 256 ^ bs.length ∧ beEncode bs.length n = bs) ↔ bytesToInt bs = n := by
  constructor
  · rintro ⟨h, he⟩
    rw [← he]; simpa using bytesToInt_beEncode _ n h
  · rintro rfl
    exact ⟨bytesToInt_lt bs, beEncode_bytesToInt bs⟩

/-- C01: two different byte strings of the same length never give the same integer. -/
theorem C01_injective (as bs : Bytes) (hl : as.length = bs.length)
    (h : bytesToInt as = bytesToInt bs) : as = bs := by
  rw [← beEncode_bytesToInt as, ← beEncode_bytesToInt bs, hl, h]

example : bytesToInt [0x12, 0x34, 0xFF] = 0x1234FF := by decide
example : (0x1234FF : Nat) < 256 ^ 3 ∧ beEncode 3 0x1234FF = [0x12, 0x34, 0xFF] := by decide

/-! ## C02: hex rendering is lossless -/

/-- C02: two lowercase hex digits per byte. -/
theorem C02_digits (bs : Bytes) :
    (bytesToHex bs).length = 2 * bs.length ∧ ∀ c ∈ bytesToHex bs, c ∈ lowerHex := by
  induction bs with
  | nil => simp [bytesToHex]
  | cons b bs ih =>
    rw [bytesToHex_cons]
    refine ⟨by simp [ih.1, hex2]; omega, ?_⟩
    intro c hc
    rcases List.mem_append.1 hc with h | h
    · exact hex2_mem b c h
    · exact ih.2 c h

/-- C02: parsing the digits back returns the bytes. -/
theorem C02_roundtrip (bs : Bytes) : unhexlify (bytesToHex bs) = .ok bs :=
  unhexlify_bytesToHex bs

/-- C02: `Message.hex()` identifies the message data. -/
theorem C02_message_hex (m n : Message) (h : m.hex = n.hex) : m.data = n.data := by
  have h1 := C02_roundtrip m.data
  have h2 := C02_roundtrip n.data
  unfold Message.hex at h
  rw [h, h2] at h1
  injection h1 with h1
  exact h1.symm

example : bytesToHex [0x04, 0xAB] = "04ab".toList := by decide

/-! ## C03: two's complement is exact -/

/-- C03: for every width `n ≥ 1` and `v < 2^n` the result exists, lies in
`[-2^(n-1), 2^(n-1))` and is congruent to `v` modulo `2^n`. -/
theorem C03_twos_comp (n v : Nat) (hn : 1 ≤ n) (hv : v < 2 ^ n) :
    ∃ r : Int, twosComp v n = .ok r ∧ -(2 ^ (n - 1) : Int) ≤ r ∧ r < 2 ^ (n - 1) ∧
      (2 ^ n : Int) ∣ (v - r) := by
  obtain ⟨k, rfl⟩ : ∃ k, n = k + 1 := ⟨n - 1, by omega⟩
  have hpow : (2:Nat) ^ (k + 1) = 2 * 2 ^ k := by rw [Nat.pow_succ]; omega
  have hpowI : (2:Int) ^ (k + 1) = 2 * 2 ^ k := by rw [Int.pow_succ]; omega
  have hcast : ((2 ^ k : Nat) : Int) = (2:Int) ^ k := by simp
  have hand : v &&& 1 <<< k = (v.testBit k).toNat * 2 ^ k := by
    rw [Nat.one_shiftLeft, and_two_pow_eq]
  have hp : 0 < (2:Nat) ^ k := Nat.pow_pos (by omega)
  have hbit : v.testBit k = decide (2 ^ k ≤ v) := by
    rw [Nat.testBit_eq_decide_div_mod_eq]
    by_cases h : 2 ^ k ≤ v
    · have : v / 2 ^ k = 1 := by
        apply Nat.div_eq_of_lt_le <;> omega
      simp [this, h]
    · simp [Nat.div_eq_of_lt (Nat.lt_of_not_le h), h]
  unfold twosComp
  simp only [Nat.add_one_ne_zero, if_false, Nat.add_sub_cancel]
  rw [hand, hbit]
  by_cases h : 2 ^ k ≤ v
  · have hne : (decide (2 ^ k ≤ v)).toNat * 2 ^ k ≠ 0 := by simp [h]
    rw [if_pos hne]
    refine ⟨_, rfl, ?_, ?_, ?_⟩
    · rw [Nat.one_shiftLeft, hpow, ← hcast]; push_cast; omega
    · rw [Nat.one_shiftLeft, ← hcast]; omega
    · rw [Nat.one_shiftLeft]
      exact ⟨1, by push_cast; omega⟩
  · have hne : ¬ (decide (2 ^ k ≤ v)).toNat * 2 ^ k ≠ 0 := by simp [h]
    rw [if_neg hne]
    refine ⟨_, rfl, ?_, ?_, ?_⟩
    · rw [← hcast]; omega
    · rw [← hcast]; omega
    · exact ⟨0, by omega⟩

/-- C03, the excluded width: Python raises ValueError (negative shift count). -/
theorem C03_width_zero (v : Nat) : twosComp v 0 = .error .valueError := rfl

example : (0xFFFE : Nat) < 2 ^ 16 ∧ twosComp 0xFFFE 16 = .ok (-2) := by decide
example : twosComp 0x80 8 = .ok (-128) ∧ twosComp 0x7F 8 = .ok 127 := by decide

/-! ## C04: BitArray is a faithful view of the bytes -/

/-- C04: eight bits per byte. -/
theorem C04_length (bs : Bytes) : (BitArray.ofBytes bs).len = 8 * bs.length := by
  simp only [BitArray.len, ofBytes_bits, flatMap_bits_length]

/-- C04: bit `k` is bit `7 - k % 8` of byte `k / 8`. -/
theorem C04_get (bs : Bytes) (k : Nat) (h : k < 8 * bs.length) :
    (BitArray.ofBytes bs).getItem k = bitOf (bs[k / 8]'(by omega)) (7 - k % 8) := by
  unfold BitArray.getItem
  rw [ofBytes_bits]
  have hl := flatMap_bits_length bs
  rw [if_pos ⟨by omega, by rw [hl]; omega⟩]
  simp [flatMap_bits_get bs k h]

/-- C04: any index outside the array, negative ones included, reads False. -/
theorem C04_outside (bs : Bytes) (k : Int) (h : k < 0 ∨ 8 * (bs.length : Int) ≤ k) :
    (BitArray.ofBytes bs).getItem k = false := by
  unfold BitArray.getItem
  rw [ofBytes_bits, if_neg]
  rw [flatMap_bits_length]
  omega

/-- C04: set and cleared bits add up to the length. -/
theorem C04_counts (bs : Bytes) :
    (BitArray.ofBytes bs).numSet + (BitArray.ofBytes bs).numCleared = 8 * bs.length ∧
    (BitArray.ofBytes bs).numSet =
      ((List.range (8 * bs.length)).filter (fun (k : Nat) => (BitArray.ofBytes bs).getItem k)).length := by
  have hl := flatMap_bits_length bs
  unfold BitArray.numSet BitArray.numCleared
  rw [ofBytes_bits]
  constructor
  · rw [← hl]
    generalize bs.flatMap byteBits = l
    induction l with
    | nil => rfl
    | cons b l ih => cases b <;> simp at ih ⊢ <;> omega
  · unfold BitArray.getItem
    rw [ofBytes_bits, ← hl]
    generalize bs.flatMap byteBits = l
    have : ∀ k ∈ List.range l.length, decide
        ((if ((k : Nat) : Int) ≥ 0 ∧ ((k : Nat) : Int) < l.length then (l[(k : Int).toNat]?).getD false else false) = true)
        = (l[k]?).getD false := by
      intro k hk
      have hk := List.mem_range.1 hk
      rw [if_pos ⟨by omega, by omega⟩]
      simp
    rw [List.filter_congr (q := fun k => (l[k]?).getD false) (by intro k hk; simpa using this k hk)]
    induction l with
    | nil => rfl
    | cons b l ih =>
      rw [List.length_cons, List.range_succ_eq_map, List.filter_cons, List.filter_map,
        List.count_cons, ih (by
          intro k hk
          have hk := List.mem_range.1 hk
          rw [if_pos ⟨by omega, by omega⟩]
          simp)]
      cases b <;> simp [Function.comp_def]

/-- The bits of a byte string in order, most significant bit of the first byte first. -/
def allBits (bs : Bytes) : List Bool := bs.flatMap (fun b => (List.range 8).map (fun i => bitOf b (7 - i)))

theorem ofBytes_allBits (bs : Bytes) : (BitArray.ofBytes bs).bits = allBits bs := by
  have : (fun b => (List.range 8).map (fun i => bitOf b (7 - i))) = byteBits := by
    funext b; exact (byteBits_eq b).symm
  rw [ofBytes_bits, allBits, this]

/-- C04: `value(start, stop)` is the big-endian value of the selected bits, whatever the two bounds
are: missing, negative (counted from the end) or past the end. -/
theorem C04_value (bs : Bytes) (start stop : Option Int) :
    (BitArray.ofBytes bs).value start stop = bitsValue (sliced (allBits bs) start stop) := by
  rw [BitArray.value, pySlice_eq, ofBytes_allBits, foldl_bits]; simp

/-- C04: the slice `[start:stop]` holds exactly the selected bits, in order. -/
theorem C04_slice (bs : Bytes) (start stop : Option Int) :
    (BitArray.ofBytes bs).getSlice start stop = sliced (allBits bs) start stop := by
  rw [BitArray.getSlice, pySlice_eq, ofBytes_allBits]

/-- C04: slices with a step: every `k`-th bit forwards or backwards; a missing step is 1, and step 0
raises ValueError. -/
theorem C04_step (bs : Bytes) (start stop : Option Int) :
    (∀ k : Nat, 0 < k → (BitArray.ofBytes bs).getStep start stop (some k) = .ok (slicedUp (allBits bs) start stop k)) ∧
    (∀ k : Nat, 0 < k → (BitArray.ofBytes bs).getStep start stop (some (-k)) = .ok (slicedDown (allBits bs) start stop k)) ∧
    (BitArray.ofBytes bs).getStep start stop none = .ok (slicedUp (allBits bs) start stop 1) ∧
    (BitArray.ofBytes bs).getStep start stop (some 0) = .error .valueError := by
  unfold BitArray.getStep
  rw [ofBytes_allBits]
  refine ⟨fun k hk => pySliceStep_up _ _ _ k hk, fun k hk => pySliceStep_down _ _ _ k hk, ?_, by simp [pySliceStep]⟩
  exact pySliceStep_up _ _ _ 1 (by omega)

/-- C04: iterating over the array gives all its bits in order. -/
theorem C04_iter (bs : Bytes) : (BitArray.ofBytes bs).iter = allBits bs := ofBytes_allBits bs

example : (BitArray.ofBytes [0xA1, 0x07]).getItem 0 = true ∧ (BitArray.ofBytes [0xA1, 0x07]).getItem 7 = true
    ∧ (BitArray.ofBytes [0xA1, 0x07]).getItem 8 = false ∧ (BitArray.ofBytes [0x83]).value (some 1) (some 8) = 3
    ∧ (BitArray.ofBytes [0xA1, 0x07]).value (some (-4)) none = 7 ∧ (BitArray.ofBytes [0xA1, 0x07]).value (some (-100)) (some 3) = 5
    ∧ (BitArray.ofBytes [0xA1]).getSlice none (some (-5)) = [true, false, true]
    ∧ (BitArray.ofBytes [0xA1]).getStep none none (some (-3)) = .ok [true, false, false]
    ∧ (BitArray.ofBytes [0xA1]).getStep (some 2) (some 100) (some 2) = .ok [true, false, false]
    ∧ (BitArray.ofBytes [0xA1]).getSlice (some 5) (some 2) = [] := by decide

/-! ## C05: the contiguity check accepts exactly the complete runs -/

/-- C05: True exactly for the non-empty list `s, s+1, ..., e`. -/
theorem C05_contiguous (l : List Int) (s e : Int) :
    contiguous l s e = true ↔ ∃ n : Nat, l = (List.range (n + 1)).map (fun (i : Nat) => s + (i : Int)) ∧ e = s + n :=
  contiguous_int l s e

/-- C05: the same for the natural numbers, on which the parsers call it. -/
theorem C05_counted (l : List Nat) (s e : Nat) :
    contiguous l s e = true ↔ ∃ n, l = (List.range (n + 1)).map (s + ·) ∧ e = s + n :=
  contiguous_iff l s e

example : contiguous [1, 2, 3] 1 3 = true ∧ contiguous [1, 3, 3] 1 3 = false ∧
    contiguous ([] : List Nat) 1 0 = false ∧ contiguous [2, 3] 1 3 = false ∧ contiguous [-1, 0, 1] (-1 : Int) 1 = true := by decide

end Props
