import Verif.Spec.Binary64
import Verif.Py.FloatText
import Verif.Lemmas.Float
/-!
# Rounding to binary64: `Py.round64` gives the nearest number
-/
namespace Lemmas
open Py Spec

theorem rne_tie (y : ℚ) (h : |(rne y : ℚ) - y| = 1 / 2) : rne y % 2 = 0 := by
  have h1 := Rat.floor_le y
  have h2 := Rat.lt_floor_add_one y
  push_cast at h2
  unfold rne at h ⊢
  simp only at h ⊢
  split at h
  · next hlt =>
    rw [abs_of_nonpos (by linarith)] at h
    linarith
  · next hge =>
    rw [if_neg hge]
    split at h
    · next hgt =>
      push_cast at h
      rw [abs_of_nonneg (by linarith)] at h
      linarith
    · next hle =>
      rw [if_neg hle]
      split
      · assumption
      · omega

/-- What decides the rounding: the step `2 ^ e` around `q`. -/
structure Step (q : ℚ) (e : ℤ) : Prop where
  pos : 0 < q
  lo : -1074 ≤ e
  hi : e ≤ 971
  normal : e = -1074 ∨ 2 ^ 52 * (2 : ℚ) ^ e ≤ q
  lt : q < 2 ^ 53 * (2 : ℚ) ^ e

theorem step_pos (e : ℤ) : (0 : ℚ) < 2 ^ e := by positivity

/-- Binary64 numbers are on the grid around `q` or farther away than a grid point. -/
theorem off_grid {q : ℚ} {e : ℤ} (h : Step q e) {y : ℚ} (hy : IsBinary64 y) :
    (∃ k : ℤ, y = k * (2 : ℚ) ^ e) ∨ ((y < 2 ^ 52 * (2 : ℚ) ^ e) ∧ 2 ^ 52 * (2 : ℚ) ^ e ≤ q) := by
  obtain ⟨m, e', h1, h2, h3, rfl⟩ := hy
  by_cases he : e ≤ e'
  · left
    refine ⟨m * 2 ^ (e' - e).toNat, ?_⟩
    push_cast
    rw [mul_assoc, ← zpow_natCast, ← zpow_add₀ (by norm_num)]
    congr 2
    omega
  · right
    rcases h.normal with h4 | h4
    · omega
    · refine ⟨?_, h4⟩
      have hm : (m : ℚ) < 2 ^ 53 := by exact_mod_cast (abs_lt.1 h1).2
      have hp : (2 : ℚ) ^ e' ≤ 2 ^ (e - 1) := zpow_le_zpow_right₀ (by norm_num) (by omega)
      have e1 : (2 : ℚ) ^ e = 2 * 2 ^ (e - 1) := by
        rw [← zpow_one_add₀ (by norm_num)]; congr 1; omega
      have := step_pos e'
      calc (m : ℚ) * 2 ^ e' < 2 ^ 53 * 2 ^ e' := by apply mul_lt_mul_of_pos_right hm this
        _ ≤ 2 ^ 53 * 2 ^ (e - 1) := by apply mul_le_mul_of_nonneg_left hp; positivity
        _ = _ := by rw [e1]; ring

variable {q : ℚ} {e : ℤ}

theorem grid_dist (q : ℚ) (e k : ℤ) : |q - k * (2 : ℚ) ^ e| = |(k : ℚ) - q * 2 ^ (-e)| * 2 ^ e := by
  have hp := step_pos e
  rw [← abs_of_pos hp, ← abs_mul, abs_of_pos hp, abs_sub_comm]
  congr 1
  rw [sub_mul, mul_assoc, ← zpow_add₀ (by norm_num)]
  simp

theorem int_near (y : ℚ) (k : ℤ) : |(rne y : ℚ) - y| ≤ |(k : ℚ) - y| := by
  by_cases hk : k = rne y
  · rw [hk]
  · have h1 := rne_err y
    have h2 : (1 : ℚ) ≤ |(k : ℚ) - rne y| := by
      have : (1 : ℤ) ≤ |k - rne y| := Int.one_le_abs (sub_ne_zero.2 hk)
      exact_mod_cast this
    have h3 : |(k : ℚ) - rne y| ≤ |(k : ℚ) - y| + |(rne y : ℚ) - y| := by
      rw [abs_sub_comm (rne y : ℚ) y]; exact abs_sub_le _ _ _
    linarith

/-- The rounded number is the nearest. -/
theorem grid_near (h : Step q e) {y : ℚ} (hy : IsBinary64 y) :
    |q - rne (q * 2 ^ (-e)) * (2 : ℚ) ^ e| ≤ |q - y| ∧
    (|q - rne (q * 2 ^ (-e)) * (2 : ℚ) ^ e| = |q - y| → ∃ k : ℤ, y = k * (2 : ℚ) ^ e) := by
  rcases off_grid h hy with ⟨k, rfl⟩ | ⟨h1, h2⟩
  · refine ⟨?_, fun _ => ⟨k, rfl⟩⟩
    rw [grid_dist, grid_dist]
    exact mul_le_mul_of_nonneg_right (int_near _ k) (step_pos e).le
  · have h3 := mul_le_mul_of_nonneg_right (int_near (q * 2 ^ (-e)) (2 ^ 52)) (step_pos e).le
    rw [← grid_dist, ← grid_dist] at h3
    rw [show (((2 ^ 52 : ℤ)) : ℚ) = 2 ^ 52 by norm_cast] at h3
    rw [abs_of_nonneg (by linarith : 0 ≤ q - 2 ^ 52 * (2 : ℚ) ^ e)] at h3
    rw [abs_of_nonneg (by linarith : 0 ≤ q - y)]
    exact ⟨by linarith, fun h => by linarith⟩

theorem scaled_bounds (h : Step q e) : 0 ≤ rne (q * 2 ^ (-e)) ∧ rne (q * 2 ^ (-e)) ≤ 2 ^ 53 ∧ (e = -1074 ∨ 2 ^ 52 ≤ rne (q * 2 ^ (-e))) := by
  have hp := step_pos (-e)
  have hcancel : (2 : ℚ) ^ e * 2 ^ (-e) = 1 := by rw [← zpow_add₀ (by norm_num)]; simp
  refine ⟨?_, ?_, ?_⟩
  · have := rne_mono ((0 : ℤ) : ℚ) (q * 2 ^ (-e)) (by have := h.pos; push_cast; positivity)
    rwa [rne_int] at this
  · have := rne_mono (q * 2 ^ (-e)) ((2 ^ 53 : ℤ) : ℚ) (by
      have := mul_le_mul_of_nonneg_right h.lt.le hp.le
      rw [mul_assoc, hcancel, mul_one] at this
      push_cast; exact this)
    rwa [rne_int] at this
  · rcases h.normal with h1 | h1
    · exact Or.inl h1
    · right
      have := rne_mono ((2 ^ 52 : ℤ) : ℚ) (q * 2 ^ (-e)) (by
        have := mul_le_mul_of_nonneg_right h1 hp.le
        rw [mul_assoc, hcancel, mul_one] at this
        push_cast; exact this)
      rwa [rne_int] at this

theorem rounded_scaled (h : Step q e) (ho : (rne (q * 2 ^ (-e)) : ℚ) * 2 ^ e < 2 ^ (1024 : ℤ)) :
    IsBinary64 ((rne (q * 2 ^ (-e)) : ℚ) * 2 ^ e) ∧ (rne (q * 2 ^ (-e)) % 2 = 0 → EvenSignificand ((rne (q * 2 ^ (-e)) : ℚ) * 2 ^ e)) := by
  obtain ⟨h1, h2, h3⟩ := scaled_bounds h
  generalize rne (q * 2 ^ (-e)) = n at *
  rcases lt_or_eq_of_le h2 with hlt | rfl
  · have hs : Scaled ((n : ℚ) * 2 ^ e) n e := ⟨by rw [abs_of_nonneg h1]; exact hlt, h.lo, h.hi, rfl⟩
    refine ⟨⟨n, e, hs⟩, fun hev => ⟨n, e, hs, ?_, hev⟩⟩
    rw [abs_of_nonneg h1]; exact h3
  · have he : e < 971 := by
      by_contra hc
      have : e = 971 := by have := h.hi; omega
      subst this
      have : (((2 : ℤ) ^ 53 : ℤ) : ℚ) * 2 ^ (971 : ℤ) = 2 ^ (1024 : ℤ) := by
        rw [show (((2 ^ 53 : ℤ)) : ℚ) = 2 ^ (53 : ℤ) by norm_cast, ← zpow_add₀ (by norm_num)]
        rfl
      exact absurd ho (by rw [this]; exact lt_irrefl _)
    have hs : Scaled ((((2 : ℤ) ^ 53 : ℤ) : ℚ) * 2 ^ e) (2 ^ 52) (e + 1) := by
      refine ⟨by norm_num, by have := h.lo; omega, by omega, ?_⟩
      rw [zpow_add₀ (by norm_num)]
      push_cast
      ring
    exact ⟨⟨_, _, hs⟩, fun _ => ⟨_, _, hs, Or.inr (by norm_num), by norm_num⟩⟩

/-- The only nearest number. -/
theorem grid_unique (h : Step q e) {x : ℚ} (hx : IsBinary64 x) (heq : |q - rne (q * 2 ^ (-e)) * (2 : ℚ) ^ e| = |q - x|)
    (hev : x ≠ rne (q * 2 ^ (-e)) * (2 : ℚ) ^ e → EvenSignificand x) : x = rne (q * 2 ^ (-e)) * (2 : ℚ) ^ e := by
  by_contra hne
  have hev := hev hne
  obtain ⟨k, rfl⟩ := (grid_near h hx).2 heq
  rw [grid_dist, grid_dist] at heq
  have heq' := mul_right_cancel₀ (step_pos e).ne' heq
  have hkn : k ≠ rne (q * 2 ^ (-e)) := fun hc => hne (by rw [hc])
  have h1 := rne_err (q * 2 ^ (-e))
  have h2 : (1 : ℚ) ≤ |(k : ℚ) - rne (q * 2 ^ (-e))| := by
    have : (1 : ℤ) ≤ |k - rne (q * 2 ^ (-e))| := Int.one_le_abs (sub_ne_zero.2 hkn)
    exact_mod_cast this
  have h3 : |(k : ℚ) - rne (q * 2 ^ (-e))| ≤ |(k : ℚ) - q * 2 ^ (-e)| + |(rne (q * 2 ^ (-e)) : ℚ) - q * 2 ^ (-e)| := by
    rw [abs_sub_comm (rne (q * 2 ^ (-e)) : ℚ) (q * 2 ^ (-e))]; exact abs_sub_le _ _ _
  have htie : |(rne (q * 2 ^ (-e)) : ℚ) - q * 2 ^ (-e)| = 1 / 2 := by linarith
  have hpar := rne_tie _ htie
  obtain ⟨hb1, hb2, hb3⟩ := scaled_bounds h
  have hle1 : |(k : ℚ) - rne (q * 2 ^ (-e))| ≤ 1 := by linarith
  have hle : |k - rne (q * 2 ^ (-e))| ≤ 1 := by exact_mod_cast hle1
  have hodd : k % 2 = 1 := by
    rw [abs_le] at hle
    omega
  have hk52 : e = -1074 ∨ 2 ^ 52 ≤ k := by
    rcases h.normal with h4 | h4
    · exact Or.inl h4
    · right
      have hcancel : (2 : ℚ) ^ e * 2 ^ (-e) = 1 := by rw [← zpow_add₀ (by norm_num)]; simp
      have h5 := mul_le_mul_of_nonneg_right h4 (step_pos (-e)).le
      rw [mul_assoc, hcancel, mul_one] at h5
      have h6 : |(k : ℚ) - q * 2 ^ (-e)| ≤ 1 / 2 := by rw [← heq']; exact h1
      have h7 := (abs_le.1 h6).1
      have h8 : (2 : ℚ) ^ 52 - 1 < k := by linarith
      have : (2 : ℤ) ^ 52 - 1 < k := by exact_mod_cast h8
      omega
  obtain ⟨m, e2, ⟨g1, g2, g3, g4⟩, -, g5⟩ := hev
  by_cases hc : e ≤ e2
  · have : (k : ℚ) = m * 2 ^ (e2 - e) := by
      have h9 : (k : ℚ) * 2 ^ e = m * 2 ^ (e2 - e) * 2 ^ e := by
        rw [mul_assoc, ← zpow_add₀ (by norm_num)]; simpa using g4
      exact mul_right_cancel₀ (step_pos e).ne' h9
    obtain ⟨j, hj⟩ := Int.eq_ofNat_of_zero_le (sub_nonneg.2 hc)
    rw [hj, zpow_natCast] at this
    have hz : k = m * 2 ^ j := by exact_mod_cast this
    rw [hz, Int.mul_emod, g5] at hodd
    simp at hodd
  · rcases hk52 with h5 | h5
    · omega
    · have hm : (m : ℚ) < 2 ^ 53 := by exact_mod_cast (abs_lt.1 g1).2
      have hp : (2 : ℚ) ^ e2 ≤ 2 ^ (e - 1) := zpow_le_zpow_right₀ (by norm_num) (by omega)
      have e1 : (2 : ℚ) ^ e = 2 * 2 ^ (e - 1) := by
        rw [← zpow_one_add₀ (by norm_num)]; congr 1; omega
      have hlt : (m : ℚ) * 2 ^ e2 < 2 ^ 52 * 2 ^ e := by
        calc (m : ℚ) * 2 ^ e2 < 2 ^ 53 * 2 ^ e2 := by apply mul_lt_mul_of_pos_right hm (step_pos e2)
          _ ≤ 2 ^ 53 * 2 ^ (e - 1) := by apply mul_le_mul_of_nonneg_left hp; positivity
          _ = _ := by rw [e1]; ring
      have hk' : (2 : ℚ) ^ 52 ≤ k := by exact_mod_cast h5
      have := mul_le_mul_of_nonneg_right hk' (step_pos e).le
      linarith

theorem zero_nearest : Nearest 0 (.fin 0) := by
  have h0 : IsBinary64 0 := ⟨0, 0, by norm_num, by norm_num, by norm_num, by norm_num⟩
  refine ⟨?_, h0, fun y hy => ⟨by simp, fun hne heq => ?_⟩⟩
  · rw [abs_zero, tooLarge, sub_pos]
    exact zpow_lt_zpow_right₀ (by norm_num) (by norm_num)
  · rw [sub_zero, abs_zero, zero_sub, abs_neg] at heq
    exact absurd (abs_eq_zero.1 heq.symm) hne

theorem two_pow (a b : ℤ) : (2 : ℚ) ^ a * 2 ^ b = 2 ^ (a + b) := (zpow_add₀ (by norm_num) a b).symm

theorem rne_top (y : ℚ) : (2 : ℚ) ^ 53 ≤ rne y ↔ (2 : ℚ) ^ 53 - 1 / 2 ≤ y := by
  have herr := rne_err y
  constructor
  · intro hh
    have := (abs_le.1 herr).2
    linarith
  · intro hh
    have h4 := (abs_le.1 herr).1
    have h5 : (2 : ℚ) ^ 53 - 1 ≤ rne y := by linarith
    have h6 : (2 : ℤ) ^ 53 - 1 ≤ rne y := by exact_mod_cast h5
    have h7 : (2 : ℤ) ^ 53 ≤ rne y := by
      by_contra hc
      have h8 : rne y = 2 ^ 53 - 1 := by omega
      have h9 : (rne y : ℚ) = 2 ^ 53 - 1 := by rw [h8]; norm_num
      have : |(rne y : ℚ) - y| = 1 / 2 := by
        refine le_antisymm herr ?_
        rw [abs_of_nonpos (by linarith)]
        linarith
      have := rne_tie _ this
      omega
    exact_mod_cast h7

theorem double_gap {A B C : ℚ} (h : A = 2 * B) (h2 : C < B) : B < A - C := by linarith

theorem large_iff (h : Step q e) : 2 ^ (1024 : ℤ) ≤ (rne (q * 2 ^ (-e)) : ℚ) * 2 ^ e ↔ tooLarge ≤ q := by
  obtain ⟨h1, h2, h3⟩ := scaled_bounds h
  have e53 : (2 : ℚ) ^ 53 = 2 ^ (53 : ℤ) := by norm_cast
  have hgap : (2 : ℚ) ^ (1023 : ℤ) < tooLarge := by
    have a : (2 : ℚ) ^ (1024 : ℤ) = 2 * 2 ^ (1023 : ℤ) := by
      have := two_pow 1 1023; norm_num only at this; exact this.symm
    have b : (2 : ℚ) ^ (970 : ℤ) < 2 ^ (1023 : ℤ) := zpow_lt_zpow_right₀ (by norm_num) (by norm_num)
    exact double_gap a b
  by_cases he : e = 971
  · subst he
    have hp := step_pos 971
    have e1024 : (2 : ℚ) ^ (1024 : ℤ) = 2 ^ 53 * 2 ^ (971 : ℤ) := by rw [e53, two_pow]; norm_num only
    have e970 : (2 : ℚ) ^ (970 : ℤ) = 1 / 2 * 2 ^ (971 : ℤ) := by
      have := two_pow 1 970
      norm_num only [zpow_one] at this
      rw [← this]; ring
    have hy : tooLarge ≤ q ↔ (2 : ℚ) ^ 53 - 1 / 2 ≤ q * 2 ^ (-(971 : ℤ)) := by
      unfold tooLarge
      rw [e1024, e970, ← sub_mul]
      have hq : q = q * 2 ^ (-(971 : ℤ)) * 2 ^ (971 : ℤ) := by rw [mul_assoc, two_pow]; simp
      constructor
      · intro hh
        rw [hq] at hh
        exact le_of_mul_le_mul_right hh hp
      · intro hh
        rw [hq]
        exact mul_le_mul_of_nonneg_right hh hp.le
    rw [hy, e1024]
    rw [← rne_top]
    exact ⟨fun hh => le_of_mul_le_mul_right hh hp, fun hh => mul_le_mul_of_nonneg_right hh hp.le⟩
  · have he' : e ≤ 970 := by have := h.hi; omega
    have hle : 2 ^ 53 * (2 : ℚ) ^ e ≤ 2 ^ (1023 : ℤ) := by
      rw [e53, two_pow]
      exact zpow_le_zpow_right₀ (by norm_num) (by omega)
    have hlt : (2 : ℚ) ^ (1023 : ℤ) < 2 ^ (1024 : ℤ) := zpow_lt_zpow_right₀ (by norm_num) (by norm_num)
    have hn : (rne (q * 2 ^ (-e)) : ℚ) ≤ 2 ^ 53 := by exact_mod_cast h2
    have := mul_le_mul_of_nonneg_right hn (step_pos e).le
    have hq := h.lt
    generalize (2 : ℚ) ^ (1024 : ℤ) = A at *
    generalize (2 : ℚ) ^ (1023 : ℤ) = B at *
    generalize tooLarge = C at *
    exact ⟨fun hh => by linarith, fun hh => by linarith⟩

theorem tooLarge_lt : tooLarge < 2 ^ (1024 : ℤ) := by
  exact sub_lt_self _ (step_pos 970)

theorem round64Pos_nearest (q : ℚ) (hq : 0 ≤ q) : Nearest q (round64Pos q) ∧ ∀ f, Nearest q f → f = round64Pos q := by
  have hT : (0 : ℚ) < tooLarge := by
    unfold tooLarge
    rw [sub_pos]
    exact zpow_lt_zpow_right₀ (by norm_num) (by norm_num)
  unfold round64Pos
  by_cases h0 : q = 0
  · subst h0
    rw [if_pos rfl]
    refine ⟨zero_nearest, fun f hf => ?_⟩
    cases f with
    | fin x =>
      have := (hf.2.2 0 ⟨0, 0, by norm_num, by norm_num, by norm_num, by norm_num⟩).1
      simp at this
      rw [this]
    | inf => exact absurd hf (not_le.2 hT)
    | negInf => exact absurd hf (not_le.2 (by simpa using hT))
    | nan => exact hf.elim
  rw [if_neg h0]
  have hpos : 0 < q := lt_of_le_of_ne hq (Ne.symm h0)
  obtain ⟨g1, g2⟩ := ilog2_spec q hpos
  simp only [pow2_eq]
  by_cases hbig : 2 ^ (1024 : ℤ) ≤ q
  · have hl : 1024 ≤ ilog2 q := by
      by_contra hc
      have : (2 : ℚ) ^ (ilog2 q + 1) ≤ 2 ^ (1024 : ℤ) := zpow_le_zpow_right₀ (by norm_num) (by omega)
      linarith
    have hmax : max (ilog2 q - 52) (-1074) = ilog2 q - 52 := by omega
    rw [hmax]
    have hr : (rne (q * 2 ^ (-(ilog2 q - 52))) : ℚ) * 2 ^ (ilog2 q - 52) = rndPos q := by
      unfold rndPos; simp only [pow2_eq]
    rw [hr, if_pos]
    · have hl : tooLarge ≤ q := tooLarge_lt.le.trans hbig
      refine ⟨hl, fun f hf => ?_⟩
      cases f with
      | fin x => exact absurd (lt_of_le_of_lt (le_abs_self q) hf.1) (not_lt.2 hl)
      | inf => rfl
      | negInf =>
        exact absurd (le_trans hf (neg_nonpos.2 hT.le)) (not_le.2 hpos)
      | nan => exact hf.elim
    · exact le_trans (zpow_le_zpow_right₀ (by norm_num) hl) (rndPos_bounds q hpos).1
  · have hl : ilog2 q ≤ 1023 := by
      by_contra hc
      have : (2 : ℚ) ^ (1024 : ℤ) ≤ 2 ^ (ilog2 q) := zpow_le_zpow_right₀ (by norm_num) (by omega)
      linarith
    have hs : Step q (max (ilog2 q - 52) (-1074)) := by
      refine ⟨hpos, le_max_right _ _, by omega, ?_, ?_⟩
      · rcases le_total (ilog2 q - 52) (-1074) with hm | hm
        · left; exact max_eq_right hm
        · right
          rw [max_eq_left hm, show (2 : ℚ) ^ 52 = 2 ^ (52 : ℤ) by norm_cast, two_pow]
          have : (52 : ℤ) + (ilog2 q - 52) = ilog2 q := by omega
          rw [this]; exact g1
      · refine lt_of_lt_of_le g2 ?_
        rw [show (2 : ℚ) ^ 53 = 2 ^ (53 : ℤ) by norm_cast, two_pow]
        exact zpow_le_zpow_right₀ (by norm_num) (by omega)
    generalize max (ilog2 q - 52) (-1074) = e at hs
    have hli := large_iff hs
    by_cases hv : 2 ^ (1024 : ℤ) ≤ (rne (q * 2 ^ (-e)) : ℚ) * 2 ^ e
    · rw [if_pos hv]
      have hl := hli.1 hv
      refine ⟨hl, fun f hf => ?_⟩
      cases f with
      | fin x => exact absurd (lt_of_le_of_lt (le_abs_self q) hf.1) (not_lt.2 hl)
      | inf => rfl
      | negInf =>
        exact absurd (le_trans hf (neg_nonpos.2 hT.le)) (not_le.2 hpos)
      | nan => exact hf.elim
    · rw [if_neg hv]
      have hl : q < tooLarge := not_le.1 (fun hc => hv (hli.2 hc))
      obtain ⟨r1, r2⟩ := rounded_scaled hs (not_le.1 hv)
      constructor
      · refine ⟨by rwa [abs_of_pos hpos], r1, fun y hy => ⟨(grid_near hs hy).1, fun hne heq => r2 ?_⟩⟩
        obtain ⟨k, rfl⟩ := (grid_near hs hy).2 heq
        rw [grid_dist, grid_dist] at heq
        have heq' := mul_right_cancel₀ (step_pos e).ne' heq
        have hkn : k ≠ rne (q * 2 ^ (-e)) := fun hc => hne (by rw [hc])
        have h1 := rne_err (q * 2 ^ (-e))
        have h2 : (1 : ℚ) ≤ |(k : ℚ) - rne (q * 2 ^ (-e))| := by
          have : (1 : ℤ) ≤ |k - rne (q * 2 ^ (-e))| := Int.one_le_abs (sub_ne_zero.2 hkn)
          exact_mod_cast this
        have h3 : |(k : ℚ) - rne (q * 2 ^ (-e))| ≤ |(k : ℚ) - q * 2 ^ (-e)| + |(rne (q * 2 ^ (-e)) : ℚ) - q * 2 ^ (-e)| := by
          rw [abs_sub_comm (rne (q * 2 ^ (-e)) : ℚ) (q * 2 ^ (-e))]; exact abs_sub_le _ _ _
        exact rne_tie _ (by linarith)
      · intro f hf
        cases f with
        | fin x =>
          obtain ⟨-, f2, f3⟩ := hf
          have heq : |q - rne (q * 2 ^ (-e)) * (2 : ℚ) ^ e| = |q - x| := le_antisymm (grid_near hs f2).1 (f3 _ r1).1
          rw [grid_unique hs f2 heq (fun hne => (f3 _ r1).2 (Ne.symm hne) heq.symm)]
        | inf => exact absurd hf (not_le.2 hl)
        | negInf =>
          exact absurd (le_trans hf (neg_nonpos.2 hT.le)) (not_le.2 hpos)
        | nan => exact hf.elim

/-! ## Negative numbers -/

/-- The float of opposite sign. -/
def opposite : PyFloat → PyFloat
  | .fin x => .fin (-x)
  | .inf => .negInf
  | .negInf => .inf
  | .nan => .nan

theorem isBinary64_neg {x : ℚ} (h : IsBinary64 x) : IsBinary64 (-x) := by
  obtain ⟨m, e, h1, h2, h3, rfl⟩ := h
  exact ⟨-m, e, by rwa [abs_neg], h2, h3, by push_cast; ring⟩

theorem even_neg {x : ℚ} (h : EvenSignificand x) : EvenSignificand (-x) := by
  obtain ⟨m, e, ⟨h1, h2, h3, rfl⟩, h4, h5⟩ := h
  exact ⟨-m, e, ⟨by rwa [abs_neg], h2, h3, by push_cast; ring⟩, by rwa [abs_neg], by omega⟩

theorem nearest_neg {q : ℚ} {f : PyFloat} (h : Nearest q f) : Nearest (-q) (opposite f) := by
  cases f with
  | fin x =>
    obtain ⟨h1, h2, h3⟩ := h
    refine ⟨by rwa [abs_neg], isBinary64_neg h2, fun y hy => ?_⟩
    obtain ⟨h4, h5⟩ := h3 (-y) (isBinary64_neg hy)
    have e1 : |-q - -x| = |q - x| := by rw [← abs_neg]; congr 1; ring
    have e2 : |-q - y| = |q - -y| := by rw [← abs_neg]; congr 1; ring
    rw [e1, e2]
    exact ⟨h4, fun hne heq => even_neg (h5 (fun hc => hne (by rw [← hc]; ring)) heq)⟩
  | inf => show -q ≤ -tooLarge; have : tooLarge ≤ q := h; linarith
  | negInf => show tooLarge ≤ -q; have : q ≤ -tooLarge := h; linarith
  | nan => exact h

theorem opposite_opposite (f : PyFloat) : opposite (opposite f) = f := by
  cases f <;> simp [opposite]

/-- `round64` gives the nearest number, and there is only one. -/
theorem round64_nearest (neg : Bool) (q : ℚ) (hq : 0 ≤ q) (f : PyFloat) :
    round64 neg q = f ↔ Nearest (if neg then -q else q) f := by
  obtain ⟨h1, h2⟩ := round64Pos_nearest q hq
  cases neg with
  | false =>
    show round64Pos q = f ↔ Nearest q f
    exact ⟨fun h => h ▸ h1, fun h => (h2 f h).symm⟩
  | true =>
    have e : round64 true q = opposite (round64Pos q) := by
      have hni : round64Pos q ≠ .negInf := by
        unfold round64Pos
        simp only
        split
        · intro hc; cases hc
        · split <;> intro hc <;> cases hc
      unfold round64
      cases hr : round64Pos q with
      | negInf => exact absurd hr hni
      | _ => rfl
    rw [e, if_pos rfl]
    constructor
    · rintro rfl
      exact nearest_neg h1
    · intro h
      have := h2 _ (by simpa using nearest_neg h)
      rw [← this, opposite_opposite]

/-- In the range of normal numbers, the rounding of all arithmetic of the model (`Py.rnd`) is that of IEEE 754. -/
theorem rnd_nearest (q : ℚ) (hlo : (2 : ℚ) ^ (-1022 : ℤ) ≤ |q|) (hhi : |q| < tooLarge) : Nearest q (.fin (rnd q)) := by
  have pos : ∀ q : ℚ, 0 < q → (2 : ℚ) ^ (-1022 : ℤ) ≤ q → q < tooLarge → Nearest q (.fin (rnd q)) := by
    intro q hq h1 h2
    have h := (round64Pos_nearest q hq.le).1
    obtain ⟨g1, g2⟩ := ilog2_spec q hq
    have hl : -1022 ≤ ilog2 q := by
      by_contra hc
      have : (2 : ℚ) ^ (ilog2 q + 1) ≤ 2 ^ (-1022 : ℤ) := zpow_le_zpow_right₀ (by norm_num) (by omega)
      exact absurd (g2.trans_le this) (not_lt.2 h1)
    unfold round64Pos at h
    have hmax : max (ilog2 q - 52) (-1074) = ilog2 q - 52 := by omega
    have hr : (rne (q * pow2 (-(ilog2 q - 52))) : ℚ) * pow2 (ilog2 q - 52) = rnd q := by rw [rnd_of_pos hq]; rfl
    rw [if_neg hq.ne'] at h
    simp only [hmax, hr] at h
    split at h
    · exact absurd h (not_le.2 h2)
    · exact h
  rcases lt_trichotomy q 0 with h | h | h
  · rw [abs_of_neg h] at hlo hhi
    have := nearest_neg (pos (-q) (neg_pos.2 h) hlo hhi)
    rw [neg_neg, rnd_neg] at this
    simpa [opposite] using this
  · rw [h, abs_zero] at hlo
    exact absurd hlo (not_le.2 (step_pos _))
  · rw [abs_of_pos h] at hlo hhi
    exact pos q h hlo hhi

end Lemmas
