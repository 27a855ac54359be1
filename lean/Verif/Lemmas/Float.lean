import Verif.Py.Float
import Mathlib.Algebra.Order.Field.Rat
import Mathlib.Algebra.Order.Field.Power
import Mathlib.Tactic.Linarith
import Mathlib.Tactic.NormNum
import Mathlib.Tactic.Ring
import Mathlib.Tactic.FieldSimp
import Mathlib.Tactic.Positivity
import Mathlib.Tactic.GCongr
/-! Rounding to binary64: monotone, exact on 53-bit numbers, relative error at most 2^-53. -/
namespace Py

theorem pow2_eq (k : Int) : pow2 k = (2 : ℚ) ^ k := by
  unfold pow2
  split
  · next h =>
    obtain ⟨n, rfl⟩ := Int.eq_ofNat_of_zero_le h
    simp
  · next h =>
    obtain ⟨n, hn⟩ := Int.eq_ofNat_of_zero_le (show 0 ≤ -k by omega)
    have : k = -(n : Int) := by omega
    subst this
    simp

theorem ilog2_spec (x : ℚ) (hx : 0 < x) : (2 : ℚ) ^ ilog2 x ≤ x ∧ x < (2 : ℚ) ^ (ilog2 x + 1) := by
  unfold ilog2
  have hn : 0 < x.num := Rat.num_pos.2 hx
  have hd : 0 < x.den := x.den_pos
  have hx' : x = (x.num.natAbs : ℚ) / (x.den : ℚ) := by
    have h1 : ((x.num.natAbs : ℕ) : ℚ) = ((x.num : ℤ) : ℚ) := by
      have : ((x.num.natAbs : ℕ) : ℤ) = x.num := by omega
      rw [← Int.cast_natCast, this]
    rw [h1]
    exact (Rat.num_div_den x).symm
  set n := x.num.natAbs with hnn
  set d := x.den with hdd
  have hn0 : n ≠ 0 := by omega
  have hd0 : d ≠ 0 := by omega
  have n1 : (2 : ℚ) ^ (Nat.log2 n : ℤ) ≤ n := by
    have := Nat.log2_self_le hn0
    rw [zpow_natCast]
    exact_mod_cast this
  have n2 : (n : ℚ) < 2 ^ ((Nat.log2 n : ℤ) + 1) := by
    have := Nat.lt_log2_self (n := n)
    have h : ((Nat.log2 n : ℤ) + 1) = ((Nat.log2 n + 1 : ℕ) : ℤ) := by push_cast; rfl
    rw [h, zpow_natCast]
    exact_mod_cast this
  have d1 : (2 : ℚ) ^ (Nat.log2 d : ℤ) ≤ d := by
    have := Nat.log2_self_le hd0
    rw [zpow_natCast]
    exact_mod_cast this
  have d2 : (d : ℚ) < 2 ^ ((Nat.log2 d : ℤ) + 1) := by
    have := Nat.lt_log2_self (n := d)
    have h : ((Nat.log2 d : ℤ) + 1) = ((Nat.log2 d + 1 : ℕ) : ℤ) := by push_cast; rfl
    rw [h, zpow_natCast]
    exact_mod_cast this
  have dpos : (0 : ℚ) < d := by exact_mod_cast hd
  have hup : x < (2 : ℚ) ^ ((Nat.log2 n : ℤ) - (Nat.log2 d : ℤ) + 1) := by
    rw [hx', div_lt_iff₀ dpos]
    calc (n : ℚ) < 2 ^ ((Nat.log2 n : ℤ) + 1) := n2
      _ = 2 ^ ((Nat.log2 n : ℤ) - (Nat.log2 d : ℤ) + 1) * 2 ^ (Nat.log2 d : ℤ) := by
        rw [← zpow_add₀ (by norm_num)]; congr 1; ring
      _ ≤ 2 ^ ((Nat.log2 n : ℤ) - (Nat.log2 d : ℤ) + 1) * d := by
        gcongr
  have hlo : (2 : ℚ) ^ ((Nat.log2 n : ℤ) - (Nat.log2 d : ℤ) - 1) ≤ x := by
    rw [hx', le_div_iff₀ dpos]
    calc (2 : ℚ) ^ ((Nat.log2 n : ℤ) - (Nat.log2 d : ℤ) - 1) * d
        ≤ 2 ^ ((Nat.log2 n : ℤ) - (Nat.log2 d : ℤ) - 1) * 2 ^ ((Nat.log2 d : ℤ) + 1) := by gcongr
      _ = 2 ^ (Nat.log2 n : ℤ) := by rw [← zpow_add₀ (by norm_num)]; congr 1; ring
      _ ≤ n := n1
  simp only [pow2_eq]
  split
  · next h => exact ⟨h, hup⟩
  · next h =>
    refine ⟨hlo, ?_⟩
    push Not at h
    have : (Nat.log2 n : ℤ) - (Nat.log2 d : ℤ) - 1 + 1 = (Nat.log2 n : ℤ) - (Nat.log2 d : ℤ) := by ring
    rw [this]; exact h

theorem ilog2_unique (x : ℚ) (hx : 0 < x) (k : ℤ) (h1 : (2 : ℚ) ^ k ≤ x) (h2 : x < (2 : ℚ) ^ (k + 1)) :
    ilog2 x = k := by
  obtain ⟨h3, h4⟩ := ilog2_spec x hx
  have a : ilog2 x < k + 1 := (zpow_lt_zpow_iff_right₀ (by norm_num : (1 : ℚ) < 2)).1 (lt_of_le_of_lt h3 h2)
  have b : k < ilog2 x + 1 := (zpow_lt_zpow_iff_right₀ (by norm_num : (1 : ℚ) < 2)).1 (lt_of_le_of_lt h1 h4)
  omega

theorem ilog2_mono (x y : ℚ) (hx : 0 < x) (h : x ≤ y) : ilog2 x ≤ ilog2 y := by
  obtain ⟨h3, _⟩ := ilog2_spec x hx
  obtain ⟨_, h4⟩ := ilog2_spec y (lt_of_lt_of_le hx h)
  have a : ilog2 x < ilog2 y + 1 :=
    (zpow_lt_zpow_iff_right₀ (by norm_num : (1 : ℚ) < 2)).1 (lt_of_le_of_lt h3 (lt_of_le_of_lt h h4))
  omega

theorem rne_err (y : ℚ) : |(rne y : ℚ) - y| ≤ 1 / 2 := by
  unfold rne
  have h1 := Rat.floor_le y
  have h2 := Rat.lt_floor_add_one y
  push_cast at h2
  rw [abs_le]
  simp only
  split
  · constructor <;> linarith
  · split
    · push_cast; constructor <;> linarith
    · split
      · constructor <;> linarith
      · push_cast; constructor <;> linarith

theorem rne_int (n : ℤ) : rne (n : ℚ) = n := by
  unfold rne
  simp [Rat.floor_intCast]

theorem rne_mono (x y : ℚ) (h : x ≤ y) : rne x ≤ rne y := by
  have hf := Rat.floor_monotone h
  have bound : ∀ z : ℚ, z.floor ≤ rne z ∧ rne z ≤ z.floor + 1 := by
    intro z; unfold rne; simp only
    split
    · omega
    · split
      · omega
      · split <;> omega
  rcases lt_or_eq_of_le hf with hlt | heq
  · have := bound x; have := bound y; omega
  · unfold rne
    simp only
    rw [heq]
    have hx : ((y.floor : ℤ) : ℚ) ≤ x := by rw [← heq]; exact Rat.floor_le x
    split
    · split
      · exact le_refl _
      · split
        · omega
        · split <;> omega
    · split
      · split
        · linarith
        · split
          · exact le_refl _
          · linarith
      · split
        · split
          · linarith
          · split
            · omega
            · exact le_refl _
        · split
          · linarith
          · split
            · exact le_refl _
            · exact le_refl _

theorem rndPos_bounds (x : ℚ) (hx : 0 < x) : (2 : ℚ) ^ ilog2 x ≤ rndPos x ∧ rndPos x ≤ (2 : ℚ) ^ (ilog2 x + 1) := by
  obtain ⟨h1, h2⟩ := ilog2_spec x hx
  unfold rndPos
  simp only [pow2_eq]
  have e1 : (2 : ℚ) ^ ilog2 x = ((2 ^ 52 : ℤ) : ℚ) * 2 ^ (ilog2 x - 52) := by
    rw [show ((2 ^ 52 : ℤ) : ℚ) = (2 : ℚ) ^ (52 : ℤ) by norm_num, ← zpow_add₀ (by norm_num)]; congr 1; ring
  have e2 : (2 : ℚ) ^ (ilog2 x + 1) = ((2 ^ 53 : ℤ) : ℚ) * 2 ^ (ilog2 x - 52) := by
    rw [show ((2 ^ 53 : ℤ) : ℚ) = (2 : ℚ) ^ (53 : ℤ) by norm_num, ← zpow_add₀ (by norm_num)]; congr 1; ring
  have hp : (0 : ℚ) < 2 ^ (ilog2 x - 52) := by positivity
  have hinv : (2 : ℚ) ^ (ilog2 x - 52) * 2 ^ (-(ilog2 x - 52)) = 1 := by
    rw [← zpow_add₀ (by norm_num)]; simp
  have hq : (0 : ℚ) < 2 ^ (-(ilog2 x - 52)) := by positivity
  have a1 : ((2 ^ 52 : ℤ) : ℚ) ≤ x * 2 ^ (-(ilog2 x - 52)) := by
    rw [e1] at h1
    calc ((2 ^ 52 : ℤ) : ℚ) = ((2 ^ 52 : ℤ) : ℚ) * (2 ^ (ilog2 x - 52) * 2 ^ (-(ilog2 x - 52))) := by rw [hinv, mul_one]
      _ = (((2 ^ 52 : ℤ) : ℚ) * 2 ^ (ilog2 x - 52)) * 2 ^ (-(ilog2 x - 52)) := by ring
      _ ≤ x * 2 ^ (-(ilog2 x - 52)) := by gcongr
  have a2 : x * 2 ^ (-(ilog2 x - 52)) ≤ ((2 ^ 53 : ℤ) : ℚ) := by
    rw [e2] at h2
    calc x * 2 ^ (-(ilog2 x - 52)) ≤ (((2 ^ 53 : ℤ) : ℚ) * 2 ^ (ilog2 x - 52)) * 2 ^ (-(ilog2 x - 52)) := by gcongr
      _ = ((2 ^ 53 : ℤ) : ℚ) * (2 ^ (ilog2 x - 52) * 2 ^ (-(ilog2 x - 52))) := by ring
      _ = _ := by rw [hinv, mul_one]
  have b1 := rne_mono _ _ a1
  have b2 := rne_mono _ _ a2
  rw [rne_int] at b1 b2
  have c1 : ((2 ^ 52 : ℤ) : ℚ) ≤ (rne (x * 2 ^ (-(ilog2 x - 52))) : ℚ) := by exact_mod_cast b1
  have c2 : (rne (x * 2 ^ (-(ilog2 x - 52))) : ℚ) ≤ ((2 ^ 53 : ℤ) : ℚ) := by exact_mod_cast b2
  constructor
  · rw [e1]; gcongr
  · rw [e2]; gcongr

theorem rndPos_mono (x y : ℚ) (hx : 0 < x) (h : x ≤ y) : rndPos x ≤ rndPos y := by
  have hy := lt_of_lt_of_le hx h
  rcases lt_or_eq_of_le (ilog2_mono x y hx h) with hlt | heq
  · calc rndPos x ≤ (2 : ℚ) ^ (ilog2 x + 1) := (rndPos_bounds x hx).2
      _ ≤ (2 : ℚ) ^ (ilog2 y) := zpow_le_zpow_right₀ (by norm_num) (by omega)
      _ ≤ rndPos y := (rndPos_bounds y hy).1
  · unfold rndPos
    simp only [pow2_eq]
    rw [heq]
    have hp : (0 : ℚ) < 2 ^ (ilog2 y - 52) := by positivity
    have hq : (0 : ℚ) < 2 ^ (-(ilog2 y - 52)) := by positivity
    have : rne (x * 2 ^ (-(ilog2 y - 52))) ≤ rne (y * 2 ^ (-(ilog2 y - 52))) := by
      apply rne_mono; gcongr
    have : (rne (x * 2 ^ (-(ilog2 y - 52))) : ℚ) ≤ (rne (y * 2 ^ (-(ilog2 y - 52))) : ℚ) := by exact_mod_cast this
    gcongr

theorem rndPos_pos (x : ℚ) (hx : 0 < x) : 0 < rndPos x :=
  lt_of_lt_of_le (by positivity) (rndPos_bounds x hx).1

theorem rndPos_err (x : ℚ) (hx : 0 < x) : |rndPos x - x| ≤ x / 2 ^ 53 := by
  obtain ⟨h1, h2⟩ := ilog2_spec x hx
  unfold rndPos
  simp only [pow2_eq]
  have hp : (0 : ℚ) < 2 ^ (ilog2 x - 52) := by positivity
  have hinv : (2 : ℚ) ^ (-(ilog2 x - 52)) * 2 ^ (ilog2 x - 52) = 1 := by
    rw [← zpow_add₀ (by norm_num)]; simp
  have hx' : x = x * 2 ^ (-(ilog2 x - 52)) * 2 ^ (ilog2 x - 52) := by rw [mul_assoc, hinv, mul_one]
  have herr := rne_err (x * 2 ^ (-(ilog2 x - 52)))
  have : (rne (x * 2 ^ (-(ilog2 x - 52))) : ℚ) * 2 ^ (ilog2 x - 52) - x =
      ((rne (x * 2 ^ (-(ilog2 x - 52))) : ℚ) - x * 2 ^ (-(ilog2 x - 52))) * 2 ^ (ilog2 x - 52) := by
    rw [sub_mul, ← hx']
  rw [this, abs_mul, abs_of_pos hp]
  have e1 : (2 : ℚ) ^ (ilog2 x - 52) = 2 ^ ilog2 x / 2 ^ 52 := by
    rw [zpow_sub₀ (by norm_num)]; norm_num
  calc _ ≤ 1 / 2 * (2 : ℚ) ^ (ilog2 x - 52) := by gcongr
    _ = 2 ^ ilog2 x / 2 ^ 53 := by rw [e1]; ring
    _ ≤ x / 2 ^ 53 := by gcongr

@[simp] theorem rnd_zero : rnd 0 = 0 := by unfold rnd; simp

theorem rnd_neg (x : ℚ) : rnd (-x) = - rnd x := by
  unfold rnd
  rcases lt_trichotomy x 0 with h | h | h
  · rw [if_neg (by linarith), if_neg (by linarith), if_neg (by linarith), if_pos h]; ring
  · subst h; simp
  · rw [if_neg (by linarith), if_pos (by linarith), if_neg (by linarith), if_neg (by linarith)]; simp

theorem rnd_of_pos {x : ℚ} (h : 0 < x) : rnd x = rndPos x := by
  unfold rnd; rw [if_neg (ne_of_gt h), if_neg (by linarith)]

theorem rnd_mono {x y : ℚ} (h : x ≤ y) : rnd x ≤ rnd y := by
  rcases lt_trichotomy x 0 with hx | hx | hx
  · have e : rnd x = - rndPos (-x) := by unfold rnd; rw [if_neg (by linarith), if_pos hx]
    rcases lt_trichotomy y 0 with hy | hy | hy
    · have e' : rnd y = - rndPos (-y) := by unfold rnd; rw [if_neg (by linarith), if_pos hy]
      rw [e, e']
      have := rndPos_mono (-y) (-x) (by linarith) (by linarith)
      linarith
    · subst hy; rw [e, rnd_zero]
      have := rndPos_pos (-x) (by linarith); linarith
    · rw [e, rnd_of_pos hy]
      have := rndPos_pos (-x) (by linarith)
      have := rndPos_pos y hy
      linarith
  · subst hx
    rcases lt_or_eq_of_le h with hy | hy
    · rw [rnd_zero, rnd_of_pos hy]; exact le_of_lt (rndPos_pos y hy)
    · rw [← hy]
  · rw [rnd_of_pos hx, rnd_of_pos (lt_of_lt_of_le hx h)]
    exact rndPos_mono x y hx h

theorem rnd_err (x : ℚ) : |rnd x - x| ≤ |x| / 2 ^ 53 := by
  rcases lt_trichotomy x 0 with h | h | h
  · have e : rnd x = - rndPos (-x) := by unfold rnd; rw [if_neg (by linarith), if_pos h]
    rw [e, abs_of_neg h]
    have := rndPos_err (-x) (by linarith)
    rw [show -rndPos (-x) - x = -(rndPos (-x) - -x) by ring, abs_neg]
    exact this
  · subst h; simp
  · rw [rnd_of_pos h, abs_of_pos h]; exact rndPos_err x h

/-- Numbers of at most 53 bits, with any exponent, are not changed. -/
theorem rnd_exact (n : ℤ) (k : ℤ) (h : |n| ≤ 2 ^ 53) : rnd ((n : ℚ) * 2 ^ k) = (n : ℚ) * 2 ^ k := by
  have pos : ∀ n : ℤ, 0 < n → n ≤ 2 ^ 53 → rnd ((n : ℚ) * 2 ^ k) = (n : ℚ) * 2 ^ k := by
    intro n hn hle
    have hx : (0 : ℚ) < (n : ℚ) * 2 ^ k := by
      have : (0 : ℚ) < n := by exact_mod_cast hn
      positivity
    rw [rnd_of_pos hx]
    obtain ⟨h1, h2⟩ := ilog2_spec _ hx
    rcases eq_or_lt_of_le hle with heq | hlt
    · -- a power of two
      have hx2 : (n : ℚ) * 2 ^ k = 2 ^ (k + 53) := by
        rw [heq]; push_cast
        rw [zpow_add₀ (by norm_num), mul_comm]; norm_num
      have hl : ilog2 ((n : ℚ) * 2 ^ k) = k + 53 := by
        apply ilog2_unique _ hx
        · rw [hx2]
        · rw [hx2]; exact zpow_lt_zpow_right₀ (by norm_num) (by omega)
      unfold rndPos
      simp only [pow2_eq]
      rw [hl, hx2, ← zpow_add₀ (by norm_num)]
      have : k + 53 + -(k + 53 - 52) = 52 := by ring
      rw [this]
      have h52 : (2 : ℚ) ^ (52 : ℤ) = ((2 ^ 52 : ℤ) : ℚ) := by norm_num
      rw [h52, rne_int, ← h52, ← zpow_add₀ (by norm_num)]
      congr 1; ring
    · -- the exponent is at most k
      have hlog : ilog2 ((n : ℚ) * 2 ^ k) - 52 ≤ k := by
        have : (2 : ℚ) ^ ilog2 ((n : ℚ) * 2 ^ k) < 2 ^ (53 + k) := by
          refine lt_of_le_of_lt h1 ?_
          rw [zpow_add₀ (by norm_num)]
          have : (n : ℚ) < 2 ^ (53 : ℤ) := by
            have : (n : ℚ) < ((2 ^ 53 : ℤ) : ℚ) := by exact_mod_cast hlt
            calc (n : ℚ) < ((2 ^ 53 : ℤ) : ℚ) := this
              _ = 2 ^ (53 : ℤ) := by norm_num
          gcongr
        have := (zpow_lt_zpow_iff_right₀ (by norm_num : (1 : ℚ) < 2)).1 this
        omega
      unfold rndPos
      simp only [pow2_eq]
      set e := ilog2 ((n : ℚ) * 2 ^ k) - 52 with he
      have hint : (n : ℚ) * 2 ^ k * 2 ^ (-e) = ((n * 2 ^ (k - e).toNat : ℤ) : ℚ) := by
        push_cast
        rw [mul_assoc, ← zpow_add₀ (by norm_num)]
        congr 1
        rw [← zpow_natCast]
        congr 1
        omega
      rw [hint, rne_int, ← hint, mul_assoc, ← zpow_add₀ (by norm_num)]
      simp
  rcases lt_trichotomy n 0 with hn | hn | hn
  · have := pos (-n) (by omega) (by rw [abs_of_neg hn] at h; exact h)
    have e : (n : ℚ) * 2 ^ k = -(((-n : ℤ) : ℚ) * 2 ^ k) := by push_cast; ring
    rw [e, rnd_neg, this]
  · subst hn; simp
  · exact pos n hn (by rw [abs_of_pos hn] at h; exact h)

theorem rnd_int (n : ℤ) (h : |n| ≤ 2 ^ 53) : rnd (n : ℚ) = n := by
  have := rnd_exact n 0 h
  simpa using this

/-- Well separated numbers stay separated. -/
theorem rnd_strict {x y : ℚ} (h : |x| / 2 ^ 53 + |y| / 2 ^ 53 < y - x) : rnd x < rnd y := by
  have h1 := rnd_err x
  have h2 := rnd_err y
  rw [abs_le] at h1 h2
  linarith [h1.2, h2.1]

end Py
