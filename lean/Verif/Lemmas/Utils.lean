import Verif.Model.Utils
import Verif.Spec.Bytes
import Verif.Lemmas.Slice
/-! Helper lemmas about `Model/Utils.lean`. -/
namespace Model
open Py Spec

theorem foldl_append_eq {α β} (f : α → List β) (l : List α) (acc : List β) :
    l.foldl (fun acc a => acc ++ f a) acc = acc ++ l.flatMap f := by
  induction l generalizing acc with
  | nil => simp
  | cons a l ih => simp [ih, List.append_assoc]

/-! ### bytesToInt -/

theorem bytesToInt_fold (bs : Bytes) (v p : Nat) :
    bs.foldl (fun (vp : Nat × Nat) b => (vp.1 + b.toNat * 2 ^ vp.2, vp.2 + 8)) (v, p)
      = (v + 2 ^ p * (bs.foldl (fun (vp : Nat × Nat) b => (vp.1 + b.toNat * 2 ^ vp.2, vp.2 + 8)) (0, 0)).1,
         p + 8 * bs.length) := by
  induction bs generalizing v p with
  | nil => simp
  | cons b bs ih =>
    simp only [List.foldl_cons, List.length_cons]
    rw [ih, ih (0 + b.toNat * 2 ^ 0) (0 + 8)]
    ext
    · simp only [Nat.zero_add, Nat.pow_zero, Nat.mul_one, Nat.pow_add, Nat.mul_add]
      rw [Nat.mul_comm b.toNat, Nat.mul_assoc, Nat.add_assoc]
    · simp; omega

@[simp] theorem bytesToInt_nil : bytesToInt [] = 0 := rfl

theorem bytesToInt_cons (b : UInt8) (bs : Bytes) :
    bytesToInt (b :: bs) = b.toNat * 256 ^ bs.length + bytesToInt bs := by
  unfold bytesToInt
  rw [List.reverse_cons, List.foldl_append, List.foldl_cons, List.foldl_nil, bytesToInt_fold]
  have : (2:Nat) ^ (8 * bs.length) = 256 ^ bs.length := by rw [Nat.pow_mul]
  simp only [Nat.zero_add, List.length_reverse, this, Nat.pow_zero, Nat.one_mul]
  omega

theorem bytesToInt_lt (bs : Bytes) : bytesToInt bs < 256 ^ bs.length := by
  induction bs with
  | nil => simp
  | cons b bs ih =>
    rw [bytesToInt_cons, List.length_cons, Nat.pow_succ]
    have := b.toNat_lt
    have h : (b.toNat + 1) * 256 ^ bs.length ≤ 256 * 256 ^ bs.length :=
      Nat.mul_le_mul_right _ (by omega)
    rw [Nat.add_mul] at h
    omega

@[simp] theorem beEncode_length (k n : Nat) : (beEncode k n).length = k := by
  induction k generalizing n with
  | zero => rfl
  | succ k ih => simp [beEncode, ih]

theorem bytesToInt_beEncode (k n : Nat) (h : n < 256 ^ k) : bytesToInt (beEncode k n) = n := by
  induction k generalizing n with
  | zero => simp at h; simp [beEncode, h]
  | succ k ih =>
    have hp : 0 < 256 ^ k := Nat.pow_pos (by omega)
    rw [beEncode, bytesToInt_cons, beEncode_length, ih _ (Nat.mod_lt _ hp)]
    have : n / 256 ^ k < 256 := by
      rw [Nat.div_lt_iff_lt_mul hp]; rw [Nat.pow_succ] at h; omega
    rw [UInt8.toNat_ofNat_of_lt' (by simpa using this)]
    rw [Nat.mul_comm]; exact Nat.div_add_mod _ _

theorem beEncode_bytesToInt (bs : Bytes) : beEncode bs.length (bytesToInt bs) = bs := by
  induction bs with
  | nil => rfl
  | cons b bs ih =>
    have hp : 0 < 256 ^ bs.length := Nat.pow_pos (by omega)
    have hlt := bytesToInt_lt bs
    rw [List.length_cons, beEncode, bytesToInt_cons]
    have h1 : (b.toNat * 256 ^ bs.length + bytesToInt bs) / 256 ^ bs.length = b.toNat := by
      rw [Nat.mul_comm, Nat.mul_add_div hp, Nat.div_eq_of_lt hlt]; rfl
    have h2 : (b.toNat * 256 ^ bs.length + bytesToInt bs) % 256 ^ bs.length = bytesToInt bs := by
      rw [Nat.mul_comm, Nat.mul_add_mod, Nat.mod_eq_of_lt hlt]
    rw [h1, h2, ih]; simp

/-! ### bits -/

theorem and_two_pow_eq (n i : Nat) : n &&& 2 ^ i = (n.testBit i).toNat * 2 ^ i := by
  apply Nat.eq_of_testBit_eq
  intro j
  rw [Nat.testBit_and, Nat.testBit_two_pow]
  by_cases h : i = j
  · subst h
    cases hb : n.testBit i <;> simp
  · cases hb : n.testBit i <;> simp [h]


theorem byteBits_spec : ∀ n : Fin 256, byteBits (UInt8.ofNat n) =
    (List.range 8).map (fun i => n.val.testBit (7 - i)) := by decide +kernel

theorem byteBits_eq (b : UInt8) :
    byteBits b = (List.range 8).map (fun i => bitOf b (7 - i)) := by
  have := byteBits_spec ⟨b.toNat, b.toNat_lt⟩
  simpa [bitOf] using this

@[simp] theorem byteBits_length (b : UInt8) : (byteBits b).length = 8 := by simp [byteBits_eq]

theorem ofBytes_bits (bs : Bytes) : (BitArray.ofBytes bs).bits = bs.flatMap byteBits := by
  simp only [BitArray.ofBytes, foldl_append_eq, List.nil_append]

theorem flatMap_bits_length (bs : Bytes) : (bs.flatMap byteBits).length = 8 * bs.length := by
  induction bs with
  | nil => rfl
  | cons b bs ih => simp [ih]; omega

theorem flatMap_bits_get (bs : Bytes) (k : Nat) (h : k < 8 * bs.length) :
    (bs.flatMap byteBits)[k]? = some (bitOf (bs[k / 8]'(by omega)) (7 - k % 8)) := by
  induction bs generalizing k with
  | nil => simp at h
  | cons b bs ih =>
    rw [List.flatMap_cons]
    by_cases hk : k < 8
    · rw [List.getElem?_append_left (by simpa using hk)]
      have h0 : k / 8 = 0 := by omega
      have h1 : k % 8 = k := by omega
      simp [h0, h1, byteBits_eq, hk]
    · rw [List.getElem?_append_right (by simp; omega)]
      simp only [byteBits_length]
      rw [ih (k - 8) (by simp at h; omega)]
      have h0 : k / 8 = (k - 8) / 8 + 1 := by omega
      have h1 : k % 8 = (k - 8) % 8 := by omega
      simp [h0, h1]

theorem foldl_bits (l : List Bool) (acc : Nat) :
    l.foldl (fun acc b => 2 * acc + b.toNat) acc = acc * 2 ^ l.length + bitsValue l := by
  induction l generalizing acc with
  | nil => simp [bitsValue]
  | cons b l ih =>
    rw [List.foldl_cons, ih, bitsValue, List.length_cons, Nat.pow_succ, Nat.add_mul]
    rw [Nat.mul_comm 2 acc, Nat.mul_assoc, Nat.mul_comm 2, Nat.add_assoc]

/-! ### hex -/

theorem hexPair_spec : ∀ n : Fin 256,
    let bh := hexNoPrefix (UInt8.ofNat n)
    let p := List.replicate (2 - bh.length) '0' ++ bh
    p = [lowerHex[n.val / 16]!, lowerHex[n.val % 16]!] ∧
    hexVal lowerHex[n.val / 16]! = some (n.val / 16) ∧
    hexVal lowerHex[n.val % 16]! = some (n.val % 16) ∧
    (∀ c ∈ p, c ∈ lowerHex) := by decide +kernel

/-- The two digits of a byte. -/
def hex2 (b : UInt8) : Str := [lowerHex[b.toNat / 16]!, lowerHex[b.toNat % 16]!]

theorem bytesToHex_eq (bs : Bytes) : bytesToHex bs = bs.flatMap hex2 := by
  unfold bytesToHex
  simp only [foldl_append_eq, List.nil_append]
  congr 1
  funext b
  have := (hexPair_spec ⟨b.toNat, b.toNat_lt⟩).1
  simpa [hex2] using this

theorem hex2_vals (b : UInt8) : hexVal lowerHex[b.toNat / 16]! = some (b.toNat / 16) ∧
    hexVal lowerHex[b.toNat % 16]! = some (b.toNat % 16) := by
  have := hexPair_spec ⟨b.toNat, b.toNat_lt⟩
  exact ⟨this.2.1, this.2.2.1⟩

theorem hex2_mem (b : UInt8) : ∀ c ∈ hex2 b, c ∈ lowerHex := by
  have h := hexPair_spec ⟨b.toNat, b.toNat_lt⟩
  have h1 := h.1
  have h2 := h.2.2.2
  simp only at h1 h2
  rw [h1] at h2
  exact h2

theorem bytesToHex_cons (b : UInt8) (bs : Bytes) : bytesToHex (b :: bs) = hex2 b ++ bytesToHex bs := by
  simp [bytesToHex_eq]

theorem unhexlify_bytesToHex (bs : Bytes) : unhexlify (bytesToHex bs) = .ok bs := by
  induction bs with
  | nil => rfl
  | cons b bs ih =>
    rw [bytesToHex_cons]
    simp only [hex2, List.cons_append, List.nil_append, unhexlify, hex2_vals, ih]
    congr 2
    have : 16 * (b.toNat / 16) + b.toNat % 16 = b.toNat := Nat.div_add_mod _ _
    rw [this]; simp

theorem contiguous_iff (l : List Nat) (s e : Nat) :
    contiguous l s e = true ↔ ∃ n, l = (List.range (n + 1)).map (s + ·) ∧ e = s + n := by
  cases l with
  | nil => simp [contiguous]
  | cons a rest =>
    unfold contiguous
    simp only
    have key : ∀ (rest : List Nat) (a : Nat),
        ((a :: rest).zip rest).all (fun p => p.1 + 1 == p.2) = true ↔
          a :: rest = (List.range (rest.length + 1)).map (a + ·) := by
      intro rest
      induction rest with
      | nil => intro a; simp
      | cons b rest ih =>
        intro a
        have hz : ((a :: b :: rest).zip (b :: rest)) = (a, b) :: ((b :: rest).zip rest) := rfl
        rw [hz, List.all_cons, Bool.and_eq_true, ih b]
        rw [show (b :: rest).length + 1 = (rest.length + 1) + 1 from rfl,
          List.range_succ_eq_map (n := rest.length + 1)]
        simp only [List.map_cons, List.map_map, List.cons.injEq, Nat.add_zero, true_and, beq_iff_eq]
        constructor
        · rintro ⟨h1, h2⟩
          rw [h2]; apply List.map_congr_left; intro x _; simp; omega
        · intro h2
          have hb : b = a + 1 := by
            have := congrArg List.head? h2
            simp [List.head?_map, List.head?_range] at this
            omega
          refine ⟨hb.symm, ?_⟩
          rw [h2]; apply List.map_congr_left; intro x _; simp; omega
    by_cases h1 : a = s
    · subst h1
      simp only [ne_eq, not_true_eq_false, ↓reduceIte]
      by_cases h2 : (a :: rest).getLast? = some e
      · rw [if_neg (by simpa using h2), key]
        constructor
        · intro h
          refine ⟨rest.length, h, ?_⟩
          rw [h] at h2
          simp [List.getLast?_map, List.getLast?_range] at h2
          omega
        · rintro ⟨n, hn, he⟩
          have hl := congrArg List.length hn
          simp at hl
          rw [hl]; exact hn
      · rw [if_pos (by simpa using h2)]
        simp only [Bool.false_eq_true, false_iff, not_exists, not_and]
        intro n hn he
        apply h2
        rw [hn]; simp [List.getLast?_map, List.getLast?_range, he]
    · simp only [ne_eq, h1, not_false_eq_true, ↓reduceIte, Bool.false_eq_true, false_iff, not_exists, not_and]
      intro n hn _
      have := congrArg List.head? hn
      simp [List.head?_map, List.head?_range] at this
      exact h1 this

theorem contiguous_int (l : List Int) (s e : Int) :
    contiguous l s e = true ↔ ∃ n : Nat, l = (List.range (n + 1)).map (fun (i : Nat) => s + (i : Int)) ∧ e = s + n := by
  cases l with
  | nil => simp [contiguous]
  | cons a rest =>
    unfold contiguous
    simp only
    have key : ∀ (rest : List Int) (a : Int),
        ((a :: rest).zip rest).all (fun p => p.1 + 1 == p.2) = true ↔
          a :: rest = (List.range (rest.length + 1)).map (fun (i : Nat) => a + (i : Int)) := by
      intro rest
      induction rest with
      | nil => intro a; simp
      | cons b rest ih =>
        intro a
        have hz : ((a :: b :: rest).zip (b :: rest)) = (a, b) :: ((b :: rest).zip rest) := rfl
        rw [hz, List.all_cons, Bool.and_eq_true, ih b]
        rw [show (b :: rest).length + 1 = (rest.length + 1) + 1 from rfl,
          List.range_succ_eq_map (n := rest.length + 1)]
        simp only [List.map_cons, List.map_map, List.cons.injEq, Int.natCast_zero, Int.add_zero, true_and, beq_iff_eq]
        constructor
        · rintro ⟨h1, h2⟩
          rw [h2]; apply List.map_congr_left; intro x _; simp; omega
        · intro h2
          have hb : b = a + 1 := by
            have := congrArg List.head? h2
            simp [List.head?_map, List.head?_range] at this
            omega
          refine ⟨hb.symm, ?_⟩
          rw [h2]; apply List.map_congr_left; intro x _; simp; omega
    by_cases h1 : a = s
    · subst h1
      simp only [ne_eq, not_true_eq_false, ↓reduceIte]
      by_cases h2 : (a :: rest).getLast? = some e
      · rw [if_neg (by simpa using h2), key]
        constructor
        · intro h
          refine ⟨rest.length, h, ?_⟩
          rw [h] at h2
          simp [List.getLast?_map, List.getLast?_range] at h2
          omega
        · rintro ⟨n, hn, he⟩
          have hl := congrArg List.length hn
          simp at hl
          rw [hl]; exact hn
      · rw [if_pos (by simpa using h2)]
        simp only [Bool.false_eq_true, false_iff, not_exists, not_and]
        intro n hn he
        apply h2
        rw [hn]; simp [List.getLast?_map, List.getLast?_range, he]
    · simp only [ne_eq, h1, not_false_eq_true, ↓reduceIte, Bool.false_eq_true, false_iff, not_exists, not_and]
      intro n hn _
      have := congrArg List.head? hn
      simp [List.head?_map, List.head?_range] at this
      exact h1 this


theorem getSlice_nat (a : BitArray) (i j : Nat) : a.getSlice (some i) (some j) = slice a.bits i j := by
  unfold BitArray.getSlice pySlice slice
  simp only [Option.map_some, Option.getD_some, sliceBound]
  rw [if_neg (by omega), if_neg (by omega), Int.toNat_natCast, Int.toNat_natCast,
    show a.bits.take (min j a.bits.length) = a.bits.take j from List.take_eq_take_min.symm]
  by_cases h : i ≤ a.bits.length
  · rw [Nat.min_eq_left h]
  · rw [List.drop_eq_nil_of_le (by simp; omega), List.drop_eq_nil_of_le (by simp; omega)]

end Model
