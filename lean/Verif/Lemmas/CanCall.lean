import Verif.Lemmas.Lines
/-! Whole parses of CAN replies. -/
namespace Model
open Py Spec

theorem on_ne_unknown {e : Sender} {p : Proto} (h : e.On p) : p ≠ .unknown := by
  rintro rfl
  cases e <;> simp [Sender.On] at h

theorem on_family {e : Sender} {p : Proto} (h : e.On p) : ∃ n, p.family = .can n := by
  cases e <;> simp only [Sender.On] at h
  · rcases h with rfl | rfl <;> exact ⟨_, rfl⟩
  · rcases h with rfl | rfl | rfl <;> exact ⟨_, rfl⟩

theorem parseMessage_can {p : Proto} {n : Nat} (h : p.family = .can n) (fs : List Frame) :
    p.parseMessage fs = canParseMessage fs := by
  unfold Proto.parseMessage; rw [h]

theorem lineF_of_frameOf {p : Proto} {s : Str} {f : Frame} (hs : isHex (noSpaces s) = true)
    (h : frameOf p (noSpaces s) = some f) : lineF p s = some f := by
  simp [lineF, hs, h]

theorem canLine_hex {e : Sender} {d : Bytes} {s : Str} (h : CanLine e d s) : isHex (noSpaces s) = true :=
  spells_hex h

/-- The frames of a received segmented reply. -/
theorem received_frames {e : Sender} {p : Proto} (hp : e.On p) {payload pad : Bytes}
    (hseg : Segmentable payload pad) {recvd : List (Str × Nat)} (hr : Received e payload pad recvd) :
    ∃ xs : List (Frame × Nat), framesOf p (recvd.map Prod.fst) = xs.map Prod.fst ∧
      xs.map Prod.snd = recvd.map Prod.snd ∧ ReplyFrames payload pad xs ∧
      (∀ x ∈ xs, x.1.txId = some e.ecu) ∧ nonObdLines (recvd.map Prod.fst) = [] := by
  induction recvd with
  | nil =>
    exact ⟨[], rfl, rfl, ⟨by simp, by simp, by simp, by simp⟩, by simp, rfl⟩
  | cons x recvd ih =>
    obtain ⟨xs, h1, h2, h3, h4, h5⟩ := ih (fun y hy => hr y (List.mem_cons_of_mem _ hy))
    obtain ⟨hx1, hx2⟩ := hr x (List.mem_cons_self ..)
    obtain ⟨g, hg, _, hpar⟩ := frame_reply e p hp payload pad hseg x.2 hx1 x.1 hx2
    have hl := lineF_of_frameOf (canLine_hex hx2) hg
    refine ⟨(g, x.2) :: xs, ?_, ?_, ⟨?_, ?_, ?_, ?_⟩, ?_, ?_⟩
    · rw [framesOf_eq] at h1 ⊢
      rw [List.map_cons, List.filterMap_cons, hl]
      simp only [List.map_cons]
      rw [h1]
    · simp [h2]
    · intro y hy
      rcases List.mem_cons.1 hy with rfl | hy
      · exact hpar.data
      · exact h3.data y hy
    · intro y hy
      rcases List.mem_cons.1 hy with rfl | hy
      · exact hpar.ty
      · exact h3.ty y hy
    · intro y hy h0
      rcases List.mem_cons.1 hy with rfl | hy
      · have := hpar.len; simp only at h0; rwa [if_pos h0] at this
      · exact h3.len y hy h0
    · intro y hy h0
      rcases List.mem_cons.1 hy with rfl | hy
      · have := hpar.seq; simp only at h0; rwa [if_neg h0] at this
      · exact h3.seq y hy h0
    · intro y hy
      rcases List.mem_cons.1 hy with rfl | hy
      · exact hpar.tx
      · exact h4 y hy
    · unfold nonObdLines at h5 ⊢
      rw [List.map_cons, List.filter_cons, if_neg (by simp [canLine_hex hx2])]
      exact h5

/-- The parse of whatever was received of a segmented reply. -/
theorem call_received {e : Sender} {p : Proto} (hp : e.On p) (map : Dict (Option Nat) Nat)
    {payload pad : Bytes} (hseg : Segmentable payload pad) {recvd : List (Str × Nat)}
    (hr : Received e payload pad recvd)
    (ht : Trackable ((recvd.map Prod.snd).filter (· ≠ 0))) :
    (Complete (recvd.map Prod.snd) → ∃ m, p.call map (recvd.map Prod.fst) = .ok [m] ∧
      m.txId = some e.ecu ∧ m.ecu = (map.get? (some e.ecu)).getD ECU.unknown ∧
      m.data = dtcCut (payload.take (6 + 7 * ((recvd.map Prod.snd).filter (· ≠ 0)).length))) ∧
    (¬ Complete (recvd.map Prod.snd) → p.call map (recvd.map Prod.fst) = .ok []) := by
  obtain ⟨xs, h1, h2, h3, h4, h5⟩ := received_frames hp hseg hr
  obtain ⟨n, hn⟩ := on_family hp
  have h6 : 6 ≤ payload.length := by have := hseg.min; omega
  cases xs with
  | nil =>
    have : recvd = [] := by simpa using h2.symm
    subst this
    refine ⟨fun hc => ?_, fun _ => rfl⟩
    have := hc.1; simp at this
  | cons x xs =>
    have hall : ∀ f ∈ framesOf p (recvd.map Prod.fst), f.txId = some e.ecu := by
      rw [h1]
      intro f hf
      obtain ⟨y, hy, rfl⟩ := List.mem_map.1 hf
      exact h4 y hy
    have hne : framesOf p (recvd.map Prod.fst) ≠ [] := by rw [h1]; simp
    have hpm := canParseMessage_reply h3 h6 (by simp) (by rw [h2]; exact ht)
    rw [h2, ← h1, ← parseMessage_can hn] at hpm
    constructor
    · intro hc
      have := call_single p map _ _ hall h5 _ hne (hpm.1 hc)
      refine ⟨_, this, ?_, rfl, rfl⟩
      apply ecuMessage_txId
      rw [fromTx_all _ _ hall]; exact hne
    · intro hc
      exact call_single p map _ _ hall h5 _ hne (hpm.2 hc)

theorem slice_cons {α} (a : α) (l : List α) (n : Nat) : slice (a :: l) 1 (1 + n) = l.take n := by
  unfold slice
  rw [Nat.add_comm, List.take_succ_cons, List.drop_succ_cons, List.drop_zero]

/-- The parse of a single frame. -/
theorem call_singleFrame {e : Sender} {p : Proto} (hp : e.On p) (map : Dict (Option Nat) Nat)
    (payload pad : Bytes) (h1 : 1 ≤ payload.length) (h7 : payload.length + pad.length ≤ 7) (s : Str)
    (hs : CanLine e (singleFrame payload pad) s) (d : Bytes) (hd : canTrimDtc payload = .ok d) :
    ∃ m, p.call map [s] = .ok [m] ∧ m.txId = some e.ecu ∧
      m.ecu = (map.get? (some e.ecu)).getD ECU.unknown ∧ m.data = d := by
  obtain ⟨g, hg, _, hpar⟩ := frame_single e p hp payload pad h1 h7 s hs
  obtain ⟨n, hn⟩ := on_family hp
  have hl := lineF_of_frameOf (canLine_hex hs) hg
  have hfs : framesOf p [s] = [g] := by rw [framesOf_eq]; simp [hl]
  have hpm : p.parseMessage (framesOf p [s]) = .ok (some d) := by
    rw [parseMessage_can hn, hfs]
    simp only [canParseMessage, hpar.ty, ne_eq, not_true, if_false, hpar.data, hpar.len, Option.getD_some,
      singleFrame, List.cons_append, slice_cons, List.take_left, hd, bind, Except.bind, pure, Except.pure]
  have hall : ∀ f ∈ framesOf p [s], f.txId = some e.ecu := by
    rw [hfs]; intro f hf; rw [List.mem_singleton.1 hf]; exact hpar.tx
  have hne : framesOf p [s] ≠ [] := by rw [hfs]; simp
  have hno : nonObdLines [s] = [] := by
    unfold nonObdLines
    rw [List.filter_cons, if_neg (by simp [canLine_hex hs])]; rfl
  have := call_single p map [s] _ hall hno _ hne hpm
  refine ⟨_, this, ?_, rfl, rfl⟩
  apply ecuMessage_txId
  rw [fromTx_all _ _ hall]; exact hne

end Model
