import Verif.Props.TroubleCodes
import Verif.Props.Legacy
import Verif.Spec.PendingLegacy
/-!
# Pending trouble codes on the older protocols (C69)
-/
namespace Props
open Py Model Spec ObdM

theorem kept_dropped {p : Proto} (hp : IsLegacy p) {t : Nat} {lines : List Str} {bodies : List Bytes} (hne : bodies ≠ [])
    (hlen : ∀ b ∈ bodies, b.length = 6) (own : framesBy p t lines = bodies.map (0x47 :: ·)) {map : Dict (Option Nat) Nat} {ms : List Message}
    (hms : p.call map lines = .ok ms) :
    ∃ k, LeftOver (framesBy p t lines) k ∧ (ms.filter (fun m => m.txId == some t)).flatMap (fun m => m.data.drop 2) = k := by
  have hall : ∀ d ∈ framesBy p t lines, d.head? = some 0x47 ∧ d.length = 7 := by
    intro d hd
    rw [own] at hd
    obtain ⟨b, hb, rfl⟩ := List.mem_map.1 hd
    exact ⟨rfl, by simp [hlen b hb]⟩
  by_cases h1 : (framesBy p t lines).length = 1
  · obtain ⟨d, hd⟩ := List.length_eq_one_iff.1 h1
    have h47 := (hall d (by rw [hd]; simp)).1
    obtain ⟨m, g1, g2⟩ := C16_single_line p hp map lines t d hd (by rw [h47]; decide) ms hms
    exact ⟨_, .one d hd, by rw [g1]; simp [g2]⟩
  · have h2 : 2 ≤ (framesBy p t lines).length := by
      have : (framesBy p t lines).length ≠ 0 := by rw [own]; simpa using hne
      omega
    obtain ⟨e1, e2⟩ := C18_exact_partial p hp map lines t h2 (fun d hd => by rw [(hall d hd).1]; decide) ms hms
    by_cases hperm : ((framesBy p t lines).map (fun d => (d.getD 2 0).toNat)).Perm (List.range' 1 (framesBy p t lines).length)
    · have hm := e1.2 ⟨fun x hx y hy => by rw [(hall x hx).1, (hall y hy).1], hperm⟩
      obtain ⟨m, hm⟩ := List.exists_mem_of_ne_nil _ hm
      obtain ⟨hm1, hm2⟩ := List.mem_filter.1 hm
      obtain ⟨first, rest, f1, f2, f3⟩ := e2 m hm1 (by simpa using hm2)
      refine ⟨_, .joined h2 (first :: rest) f1 f2, ?_⟩
      have hone : ms.filter (fun m => m.txId == some t) = [m] := by
        obtain ⟨r, q1, q2, q3⟩ := legacy_message hp map lines ms hms t (by intro h0; rw [h0] at h2; simp at h2)
        cases r with
        | none => rw [q2 rfl] at hm; cases hm
        | some x =>
          obtain ⟨m', q4, -⟩ := q3 x rfl
          rw [q4, List.mem_singleton] at hm
          rw [q4, hm]
      have hfl : first.length = 7 := (hall first (f1.mem_iff.2 (by simp))).2
      rw [hone]
      simp only [List.flatMap_cons, List.flatMap_nil, List.append_nil, f3]
      rw [List.append_assoc, List.drop_append_of_le_length (by simp [hfl])]
      rw [List.drop_eq_nil_of_le (as := first.take 2) (by simp), List.nil_append]
    · refine ⟨[], .dropped h2 hperm, ?_⟩
      have : ms.filter (fun m => m.txId == some t) = [] := by
        by_contra hcon
        exact hperm (e1.1 hcon).2
      rw [this]; rfl

theorem kept_all {p : Proto} (hp : IsLegacy p) {lines : List Str} {ecus : List Nat} {codes : Nat → List (UInt8 × UInt8)}
    (h : Reported p 0x47 lines ecus codes) {map : Dict (Option Nat) Nat} {ms : List Message} (hms : p.call map lines = .ok ms) :
    ∃ kept : Nat → Bytes, (∀ t ∈ ecus, LeftOver (framesBy p t lines) (kept t)) ∧ ms.flatMap (fun m => m.data.drop 2) = ecus.flatMap kept := by
  have hu : p ≠ .unknown := by rcases hp with rfl | rfl | rfl | rfl | rfl <;> decide
  have hk : ∀ t ∈ ecus, ∃ k, LeftOver (framesBy p t lines) k ∧ (ms.filter (fun m => m.txId == some t)).flatMap (fun m => m.data.drop 2) = k := by
    intro t ht
    cases h.reports t ht with
    | can n hcan => exfalso; rcases hp with rfl | rfl | rfl | rfl | rfl <;> cases hcan
    | legacy _ bodies hne hlen k hb own => exact kept_dropped hp hne hlen own hms
  refine ⟨fun t => (ms.filter (fun m => m.txId == some t)).flatMap (fun m => m.data.drop 2), ?_, ?_⟩
  · intro t ht
    obtain ⟨k, k1, k2⟩ := hk t ht
    subst k2
    exact k1
  have hnone : ∀ m ∈ ms, m.txId = none → m.data = [] := by
    intro m hm ht
    by_contra hd
    obtain ⟨t, h1⟩ := C10_has_sender p hu map lines ms hms m hm hd
    rw [ht] at h1; cases h1
  have hso := C11_order p map lines ms hms
  rw [flatMap_by_sender _ ms (fun m hm ht => by rw [hnone m hm ht]; rfl) hso]
  have hsub : ms.filterMap Message.txId = ecus.filter (fun t => decide (ms.filter (fun m => m.txId == some t) ≠ [])) := by
    apply List.Pairwise.eq_of_mem_iff hso (h.sorted.filter _)
    intro t
    rw [List.mem_filter, List.mem_filterMap]
    constructor
    · rintro ⟨m, hm, htx⟩
      have hx : m ∈ ms.filter (fun m => m.txId == some t) := List.mem_filter.2 ⟨hm, by simp [htx]⟩
      refine ⟨?_, by simpa using List.ne_nil_of_mem hx⟩
      rw [h.mem]
      intro h0
      rw [silent_message hu h0 map ms hms] at hx
      cases hx
    · rintro ⟨-, hx⟩
      obtain ⟨m, hm⟩ := List.exists_mem_of_ne_nil _ (of_decide_eq_true hx)
      obtain ⟨hm1, hm2⟩ := List.mem_filter.1 hm
      exact ⟨m, hm1, by simpa using hm2⟩
  rw [hsub]
  clear hsub hk
  · have ih' : ∀ l : List Nat, (l.filter (fun t => decide (ms.filter (fun m => m.txId == some t) ≠ []))).flatMap
        (fun t => (ms.filter (fun m => m.txId == some t)).flatMap (fun m => m.data.drop 2)) =
        l.flatMap (fun t => (ms.filter (fun m => m.txId == some t)).flatMap (fun m => m.data.drop 2)) := by
      intro l
      induction l with
      | nil => rfl
      | cons a l ihl =>
        by_cases ha : ms.filter (fun m => m.txId == some a) = []
        · rw [List.filter_cons_of_neg (by simp [ha]), ihl, List.flatMap_cons, ha]; rfl
        · rw [List.filter_cons_of_pos (by simp only [decide_eq_true_eq]; exact ha), List.flatMap_cons, List.flatMap_cons, ihl]
    exact ih' _

/-- C69 (what holds) on the older protocols: the response lists the codes that are left when the mode and, wrongly, the first byte
of the first code is taken from single lines, and when answers of several lines are taken for numbered lines: these
are dropped, unless they happen to look numbered.  If nothing at all is left, the response is null.
Missing: these are not the codes that the car reported. -/
theorem C69_legacy_partial (dev : Device) (fl : Str → Option PyFloat) (a : Args) (s0 : OW) (hc : Constructed dev fl a s0)
    (hs : status s0 = .carConnected) :
    ∃ (p : Proto) (r : List Str), ConnectedTo fl a s0 p r ∧
      ∀ (calls : List Call) (c : OBDCommand) (force : Bool) (out : Except Exc Response) (s' : OW) (evs : History) (cmd : Bytes)
        (lines : List Str) (ecus : List Nat) (codes : Nat → List (UInt8 × UInt8)), byName "GET_CURRENT_DTC" = some c →
        query dev fl c force (session dev fl calls s0) = (out, s') → s'.hist = (session dev fl calls s0).hist ++ evs →
        Ends evs cmd lines → (cmd = [] ∨ CommandString c cmd) → Reported p 0x47 lines ecus codes → IsLegacy p →
        ∃ (res : Response) (kept : Nat → Bytes), out = .ok res ∧ (∀ t ∈ ecus, LeftOver (framesBy p t lines) (kept t)) ∧
          ((∃ cs, res.value = .dtcs cs ∧ res.isNull = false ∧ List.Forall₂ Decoded (codePairs (ecus.flatMap kept)) cs) ∨
            (res.isNull = true ∧ ecus.flatMap kept = [])) := by
  obtain ⟨r, o, h1, hu, hi, hq⟩ := connected_query hc hs
  refine ⟨o.cls, r, h1, ?_⟩
  intro calls c force out s' evs cmd lines ecus codes hb hqq hh he hcmd hrep hleg
  have hattr : (byName "GET_CURRENT_DTC").map (fun c => (c.ecu, c.bytes, match c.decode with | .dtc => true | _ => false)) = some (ECU.all, 0, true) := by
    decide +kernel
  rw [hb] at hattr
  simp only [Option.map_some, Option.some.injEq, Prod.mk.injEq] at hattr
  obtain ⟨a1, a2, a3⟩ := hattr
  have a3 : c.decode = .dtc := by split at a3 <;> simp_all
  rw [hq calls c force out s' evs cmd lines hqq hh he (table_not_header (mem_of_byName hb) hcmd _)]
  obtain ⟨ms, hms⟩ := reported_parses hu hrep o.ecuMap
  obtain ⟨kept, k1, k2⟩ := kept_all hleg hrep hms
  rw [show o.call lines = .ok ms from hms]
  by_cases hne : ms = []
  · simp only [if_pos hne]
    refine ⟨{}, kept, rfl, k1, Or.inr ⟨rfl, ?_⟩⟩
    rw [← k2, hne]; rfl
  · simp only [if_neg hne]
    obtain ⟨cs, g1, g2⟩ := C32_concatenated fl ms
    refine ⟨{ command := some c, messages := ms, value := .dtcs cs }, kept, ?_, k1, Or.inl ⟨cs, rfl, ?_, by rw [← k2]; exact g2⟩⟩
    · rw [call_all hi hms fl c a1 a2 hne, a3, g1]
    · cases ms with
      | nil => exact absurd rfl hne
      | cons m ms => rfl

/-- The car of the refutation: one line, of which 04 00 00 00 00 is kept. -/
example : Constructed oldCar fl0 { ports := ["COM1".toList] } oldObd ∧ status oldObd = .carConnected ∧ Reported .j1850vpw 0x47 oldLines [0x10] (fun _ => [(0x01, 0x04)]) ∧
    IsLegacy .j1850vpw ∧ LeftOver (framesBy .j1850vpw 0x10 oldLines) [4, 0, 0, 0, 0] ∧ codePairs [4, 0, 0, 0, 0] = [(0x04, 0x00)] :=
  ⟨constructed_of (by decide +kernel), by decide +kernel, old_reported, Or.inr (Or.inl rfl),
    (show framesBy .j1850vpw 0x10 oldLines = [[0x47, 1, 4, 0, 0, 0, 0]] by decide +kernel) ▸ .one _ rfl, by decide⟩

/-- Four codes in two lines: nothing is kept. -/
example : LeftOver [[0x47, 1, 4, 1, 8, 2, 0], [0x47, 3, 0, 0, 0, 0, 0]] [] := .dropped (by decide) (by decide)

end Props
