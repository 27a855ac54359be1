import Verif.Py.Basic
import Verif.Spec.Bytes
import Mathlib.Data.List.Nodup
/-!
# Slices: the model of Python slicing agrees with its specification
-/
namespace Py
open Spec

theorem filterMap_congr' {α β} {f g : α → Option β} {l : List α} (h : ∀ a ∈ l, f a = g a) : l.filterMap f = l.filterMap g := by
  induction l with
  | nil => rfl
  | cons a l ih => rw [List.filterMap_cons, List.filterMap_cons, h a (by simp), ih (fun b hb => h b (by simp [hb]))]

theorem filter_between (n lo hi : Nat) (h : hi ≤ n) :
    (List.range n).filter (fun i => decide (lo ≤ i) && decide (i < hi)) = List.range' lo (hi - lo) := by
  apply List.Perm.eq_of_pairwise (le := (· < ·))
  · intro a b _ _ h1 h2; omega
  · exact (List.pairwise_lt_range).filter _
  · exact List.pairwise_lt_range'
  · rw [List.perm_ext_iff_of_nodup ((List.nodup_range).filter _) (List.nodup_range')]
    intro a
    simp [List.mem_range'_1]
    omega

theorem filterMap_range' {α} (l : List α) (lo c : Nat) : (List.range' lo c).filterMap (l[·]?) = (l.drop lo).take c := by
  induction c generalizing lo with
  | zero => simp
  | succ c ih =>
    rw [List.range'_succ, List.filterMap_cons, ih]
    by_cases h : lo < l.length
    · rw [List.getElem?_eq_getElem h]
      simp only
      rw [List.drop_eq_getElem_cons h, List.take_succ_cons]
    · have : l.length ≤ lo := by omega
      simp [List.getElem?_eq_none this, List.drop_eq_nil_of_le this, List.drop_eq_nil_of_le (show l.length ≤ lo + 1 by omega)]

theorem slice_eq_filter {α} (l : List α) (lo hi : Nat) (h : hi ≤ l.length) :
    slice l lo hi = ((List.range l.length).filter (fun i => decide (lo ≤ i) && decide (i < hi))).filterMap (l[·]?) := by
  rw [filter_between _ _ _ h, filterMap_range']
  unfold slice
  rw [List.drop_take]

theorem pySlice_eq {α} (l : List α) (start stop : Option Int) : pySlice l start stop = sliced l start stop := by
  unfold pySlice sliced
  rw [slice_eq_filter _ _ _ (by
    cases stop with
    | none => simp
    | some b => simp only [Option.map_some, Option.getD_some, sliceBound]; split <;> omega)]
  congr 1
  apply List.filter_congr
  intro i hi
  have hi := List.mem_range.1 hi
  congr 1
  · cases start with
    | none => simp
    | some b =>
      simp only [Option.map_some, Option.getD_some, Option.all_some, sliceBound, position]
      apply decide_eq_decide.2
      split <;> omega
  · cases stop with
    | none => simp [hi]
    | some b =>
      simp only [Option.map_some, Option.getD_some, Option.all_some, sliceBound, position]
      apply decide_eq_decide.2
      split <;> omega

theorem filter_mult (m k : Nat) (hk : 0 < k) :
    (List.range m).filter (fun i => decide (i % k = 0)) = (List.range ((m + k - 1) / k)).map (· * k) := by
  apply List.Perm.eq_of_pairwise (le := (· < ·))
  · intro a b _ _ h1 h2; omega
  · exact (List.pairwise_lt_range).filter _
  · rw [List.pairwise_map]
    exact List.pairwise_lt_range.imp (fun h => Nat.mul_lt_mul_of_pos_right h hk)
  · rw [List.perm_ext_iff_of_nodup ((List.nodup_range).filter _)
      ((List.nodup_range).map (fun a b h => Nat.eq_of_mul_eq_mul_right hk h))]
    intro a
    simp only [List.mem_filter, List.mem_range, decide_eq_true_eq, List.mem_map]
    constructor
    · rintro ⟨h1, h2⟩
      refine ⟨a / k, ?_, Nat.div_mul_cancel (Nat.dvd_of_mod_eq_zero h2)⟩
      rw [Nat.div_lt_iff_lt_mul hk]
      have h3 := Nat.div_add_mod (m + k - 1) k
      have h4 := Nat.mod_lt (m + k - 1) hk
      have h5 : (m + k - 1) / k * k = k * ((m + k - 1) / k) := Nat.mul_comm _ _
      omega
    · rintro ⟨b, h1, rfl⟩
      refine ⟨?_, by simp⟩
      have h3 := Nat.div_add_mod (m + k - 1) k
      have h6 : (b + 1) * k ≤ (m + k - 1) / k * k := Nat.mul_le_mul_right k h1
      have h5 : (m + k - 1) / k * k = k * ((m + k - 1) / k) := Nat.mul_comm _ _
      rw [Nat.add_mul] at h6
      omega

theorem stepBound_up (n : Nat) (b : Int) : stepBound n 0 n b = sliceBound n b := by
  unfold stepBound sliceBound; split <;> omega

theorem count_eq (lo hi k : Nat) (hk : 0 < k) :
    (if (lo : Int) < hi then (((hi : Int) - lo - 1) / (k : Int) + 1).toNat else 0) = (hi - lo + k - 1) / k := by
  split
  · rename_i h
    have h1 : ((hi : Int) - lo - 1) = ((hi - lo - 1 : Nat) : Int) := by omega
    rw [h1, show (((hi - lo - 1 : Nat) : Int) / (k : Int) + 1) = (((hi - lo - 1) / k + 1 : Nat) : Int) from by push_cast; rfl, Int.toNat_natCast]
    rw [show hi - lo + k - 1 = (hi - lo - 1) + k from by omega, Nat.add_div_right _ hk]
  · rename_i h
    rw [show hi - lo = 0 from by omega, Nat.div_eq_of_lt (by omega)]

theorem pySliceStep_up {α} (l : List α) (start stop : Option Int) (k : Nat) (hk : 0 < k) :
    pySliceStep l start stop (some k) = .ok (slicedUp l start stop k) := by
  unfold pySliceStep slicedUp
  simp only [Option.getD_some]
  rw [if_neg (by omega), filter_mult _ _ hk, ← pySlice_eq]
  have hlt : ¬ ((k : Int) < 0) := by omega
  simp only [if_neg hlt]
  unfold pySlice
  obtain ⟨lo, h1, h2⟩ : ∃ lo : Nat, (start.map (sliceBound l.length)).getD 0 = lo ∧
      (start.map (stepBound l.length 0 l.length)).getD 0 = lo := by
    refine ⟨_, rfl, ?_⟩
    cases start <;> simp [stepBound_up]
  obtain ⟨hi, h3, h4, h5⟩ : ∃ hi : Nat, (stop.map (sliceBound l.length)).getD l.length = hi ∧
      (stop.map (stepBound l.length 0 l.length)).getD l.length = hi ∧ hi ≤ l.length := by
    refine ⟨_, rfl, ?_, ?_⟩
    · cases stop <;> simp [stepBound_up]
    · cases stop with
      | none => simp
      | some b => simp only [Option.map_some, Option.getD_some, sliceBound]; split <;> omega
  rw [h1, h2, h3, h4, count_eq _ _ _ hk]
  have hlen : (slice l lo hi).length = hi - lo := by unfold slice; simp; omega
  rw [hlen, List.filterMap_map]
  congr 1
  apply filterMap_congr'
  intro i hi'
  have hi' := List.mem_range.1 hi'
  have h6 : (i + 1) * k ≤ (hi - lo + k - 1) / k * k := Nat.mul_le_mul_right k hi'
  have h7 := Nat.div_mul_le_self (hi - lo + k - 1) k
  rw [Nat.add_mul] at h6
  have h8 : ((lo : Int) + (i : Int) * (k : Int)).toNat = lo + i * k := by
    rw [show ((lo : Int) + (i : Int) * (k : Int)) = ((lo + i * k : Nat) : Int) from by push_cast; rfl, Int.toNat_natCast]
  rw [h8]
  show l[lo + i * k]? = (slice l lo hi)[i * k]?
  unfold slice
  rw [List.getElem?_drop, List.getElem?_take, if_pos (by omega)]

theorem pySliceStep_down {α} (l : List α) (start stop : Option Int) (k : Nat) (hk : 0 < k) :
    pySliceStep l start stop (some (-k)) = .ok (slicedDown l start stop k) := by
  unfold pySliceStep slicedDown
  simp only [Option.getD_some]
  have hlt : (-(k : Int) < 0) := by omega
  rw [if_neg (by omega), filter_mult _ _ hk]
  simp only [if_pos hlt, Int.neg_neg]
  -- `lo` is the first position taken, `hi` the one after the last, both counted forwards
  obtain ⟨hi, h1, h2, h3⟩ : ∃ hi : Nat, (start.map (stepBound l.length (-1) ((l.length : Int) - 1))).getD ((l.length : Int) - 1) = (hi : Int) - 1 ∧
      hi ≤ l.length ∧ ∀ i : Nat, i < l.length → start.all (fun b => decide ((i : Int) ≤ position l.length b)) = decide (i < hi) := by
    cases start with
    | none => exact ⟨l.length, by simp, by omega, by intro i h; simp [h]⟩
    | some b =>
      simp only [Option.map_some, Option.getD_some, Option.all_some, position]
      refine ⟨(stepBound l.length (-1) ((l.length : Int) - 1) b + 1).toNat, ?_, ?_, ?_⟩
      · unfold stepBound; split <;> omega
      · unfold stepBound; split <;> omega
      · intro i h; apply decide_eq_decide.2; unfold stepBound; split <;> omega
  obtain ⟨lo, h4, h5⟩ : ∃ lo : Nat, (stop.map (stepBound l.length (-1) ((l.length : Int) - 1))).getD (-1) = (lo : Int) - 1 ∧
      ∀ i : Nat, i < l.length → (stop.all (fun b => decide (position l.length b < (i : Int))) = decide (lo ≤ i)) := by
    cases stop with
    | none => exact ⟨0, by simp, by intro i h; simp⟩
    | some b =>
      simp only [Option.map_some, Option.getD_some, Option.all_some, position]
      refine ⟨(stepBound l.length (-1) ((l.length : Int) - 1) b + 1).toNat, ?_, ?_⟩
      · unfold stepBound; split <;> omega
      · intro i h; apply decide_eq_decide.2; unfold stepBound; split <;> omega
  have hpart : ((List.range l.length).filter (fun (i : Nat) =>
      start.all (fun b => decide ((i : Int) ≤ position l.length b)) &&
      stop.all (fun b => decide (position l.length b < i)))).filterMap (l[·]?) = slice l lo hi := by
    rw [slice_eq_filter _ _ _ h2]
    congr 1
    apply List.filter_congr
    intro i hi'
    have hi' := List.mem_range.1 hi'
    rw [h3 i hi', h5 i hi', Bool.and_comm]
  rw [hpart, h1, h4]
  have hlen : (slice l lo hi).length = hi - lo := by unfold slice; simp; omega
  have hc : (if (lo : Int) - 1 < (hi : Int) - 1 then (((hi : Int) - 1 - ((lo : Int) - 1) - 1) / (k : Int) + 1).toNat else 0) = (hi - lo + k - 1) / k := by
    rw [← count_eq lo hi k hk]
    rw [show (hi : Int) - 1 - ((lo : Int) - 1) - 1 = (hi : Int) - lo - 1 from by omega]
    simp
  rw [hc, List.length_reverse, hlen, List.filterMap_map]
  congr 1
  apply filterMap_congr'
  intro i hi'
  have hi' := List.mem_range.1 hi'
  have h6 : (i + 1) * k ≤ (hi - lo + k - 1) / k * k := Nat.mul_le_mul_right k hi'
  have h7 := Nat.div_mul_le_self (hi - lo + k - 1) k
  rw [Nat.add_mul] at h6
  have h8 : ((hi : Int) - 1 + (i : Int) * (-(k : Int))).toNat = hi - 1 - i * k := by
    rw [Int.mul_neg, show (i : Int) * (k : Int) = ((i * k : Nat) : Int) from by push_cast; rfl]
    omega
  rw [h8]
  show l[hi - 1 - i * k]? = (slice l lo hi).reverse[i * k]?
  rw [List.getElem?_reverse (by rw [hlen]; omega), hlen]
  unfold slice
  rw [List.getElem?_drop, List.getElem?_take, if_pos (by omega)]
  congr 1
  omega
end Py
