import Verif.Props.Lines
/-!
# C11: in which order the lines of different ECUs arrive has no effect
-/
namespace Props
open Py Model Spec

theorem txs_ext {fs fs' : List Frame} (h : ∀ t, t ∈ txs fs ↔ t ∈ txs fs') : txs fs = txs fs' := by
  have hp : (txs fs).Perm (txs fs') := (List.perm_ext_iff_of_nodup (txs_nodup fs) (txs_nodup fs')).2 h
  have h1 := sortBy_eq_of_perm txKey hp (txs_sorted fs')
  have h2 := sortBy_eq_of_perm txKey (List.Perm.refl (txs fs)) (txs_sorted fs)
  rw [← h2, h1]

/-- C11: two receptions in which every ECU's lines come in the same order, and the adapter's own text too, give the same messages in the
same order (or both raise), however they are interleaved and whatever malformed lines are among them. -/
theorem C11_interleaving (p : Proto) (hp : p ≠ .unknown) (map : Dict (Option Nat) Nat) (lines lines' : List Str)
    (hsame : ∀ t, lines.filter (sentBy p t) = lines'.filter (sentBy p t))
    (hchat : lines.filter (fun s => NotHex s) = lines'.filter (fun s => NotHex s)) (ms : List Message) :
    p.call map lines = .ok ms ↔ p.call map lines' = .ok ms := by
  have hfr : ∀ t, fromTx (framesOf p lines) (some t) = fromTx (framesOf p lines') (some t) := by
    intro t; rw [fromTx_framesOf p hp, fromTx_framesOf p hp, hsame t]
  have hnone : ∀ l : List Str, none ∉ txs (framesOf p l) := by
    intro l h
    obtain ⟨f, hf, ht⟩ := (mem_txs _ _).1 h
    obtain ⟨_, t, ht'⟩ := framesOf_good p hp l f hf
    rw [ht] at ht'; cases ht'
  have hall : ∀ t, fromTx (framesOf p lines) t = fromTx (framesOf p lines') t := by
    intro t
    cases t with
    | some t => exact hfr t
    | none => rw [fromTx_empty.2 (hnone lines), fromTx_empty.2 (hnone lines')]
  have htx : txs (framesOf p lines) = txs (framesOf p lines') := by
    apply txs_ext
    intro t
    have h1 := @fromTx_empty (framesOf p lines) t
    have h2 := @fromTx_empty (framesOf p lines') t
    rw [hall t] at h1
    rw [← not_iff_not, ← h1, ← h2]
  have hnon : nonObdLines lines = nonObdLines lines' := by
    have e : ∀ l : List Str, nonObdLines l = l.filter (fun s => NotHex s) := by
      intro l
      unfold nonObdLines
      apply List.filter_congr
      intro s _
      rw [Bool.eq_iff_iff]
      simp [notHex_iff]
    rw [e, e, hchat]
  rw [call_ok_iff, call_ok_iff]
  unfold ecuMessages
  simp only [ecuMessage, htx, hall, hnon]

/-- The same lines of two ECUs and the adapter, interleaved in another way, and a malformed line among them. -/
def shuffledLines : List Str := ["7E8 06 41 00 BE 3E B8 13".toList, "7E9 10 09 41 00 01 02 03 04".toList, "7E8 0".toList,
  "7E9 21 05 06 07 00 00 00 00".toList, "SEARCHING...".toList]

example : (∀ t ∈ [0, 1, 0xF1], sampleLines.filter (sentBy .can11_500 t) = shuffledLines.filter (sentBy .can11_500 t)) ∧
    sampleLines.filter (fun s => NotHex s) = shuffledLines.filter (fun s => NotHex s) ∧
    (Proto.can11_500.call [] shuffledLines).map (List.map (fun m => (m.txId, m.data))) =
      .ok [(some 0, [0x41, 0x00, 0xBE, 0x3E, 0xB8, 0x13]), (some 1, [0x41, 0, 1, 2, 3, 4, 5, 6, 7]), (none, [])] := by decide +kernel

end Props
