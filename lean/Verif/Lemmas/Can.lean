import Verif.Lemmas.Protocol
import Verif.Spec.IsoTp
/-! Helper lemmas about CAN frames and reassembly. -/
namespace Model
open Py Spec

/-! ### hex text -/

theorem digit_eq_small : ∀ n : Fin 128, digit? (Char.ofNat n) = hexVal (Char.ofNat n) := by
  decide +kernel

theorem digit?_eq (c : Char) : digit? c = hexVal c := by
  by_cases h : c.toNat < 128
  · have := digit_eq_small ⟨c.toNat, h⟩
    simpa using this
  · have h1 : hexVal c = none := by
      unfold hexVal
      have hc : ∀ d : Char, d.toNat < 128 → ¬ c ≤ d := by
        intro d hd hle
        have : c.toNat ≤ d.toNat := hle
        omega
      rw [if_neg (fun h => hc '9' (by decide) h.2), if_neg (fun h => hc 'f' (by decide) h.2),
        if_neg (fun h => hc 'F' (by decide) h.2)]
    have h2 : digit? c = none := by
      unfold digit?
      rw [Option.map_eq_none_iff, List.find?_eq_none]
      intro e he
      simp only [beq_iff_eq]
      rintro rfl
      apply h
      have : ∀ e ∈ ("0123456789abcdef".toList.zipIdx ++ "ABCDEF".toList.zipIdx 10), e.1.toNat < 128 := by
        decide
      exact this e he
    rw [h1, h2]

theorem nibbles_cons (b : UInt8) (bs : Bytes) :
    nibbles (b :: bs) = b.toNat / 16 :: b.toNat % 16 :: nibbles bs := by
  simp [nibbles]

theorem nibbles_append (a b : Bytes) : nibbles (a ++ b) = nibbles a ++ nibbles b := by
  simp [nibbles]

theorem unhexlify_of_digits (s : Str) (bs : Bytes) (h : s.map digit? = (nibbles bs).map some) :
    unhexlify s = .ok bs := by
  induction bs generalizing s with
  | nil =>
    simp [nibbles] at h; subst h; rfl
  | cons b bs ih =>
    rw [nibbles_cons] at h
    match s, h with
    | [], h => simp at h
    | [_], h => simp at h
    | c1 :: c2 :: s, h =>
      simp only [List.map_cons, List.cons.injEq] at h
      obtain ⟨h1, h2, h3⟩ := h
      rw [digit?_eq] at h1 h2
      have : 16 * (b.toNat / 16) + b.toNat % 16 = b.toNat := Nat.div_add_mod _ _
      simp only [unhexlify, h1, h2, ih s h3, this]
      simp

theorem isHex_of_digits (s : Str) (ds : List Nat) (h : s.map digit? = ds.map some) : isHex s = true := by
  induction ds generalizing s with
  | nil => simp at h; subst h; rfl
  | cons d ds ih =>
    match s, h with
    | [], h => simp at h
    | c :: s, h =>
      simp only [List.map_cons, List.cons.injEq] at h
      rw [digit?_eq] at h
      have := ih s h.2
      simp only [isHex, List.all_cons, isHexDigit, h.1] at this ⊢
      simpa using this

theorem spells_hex {s : Str} {ds : List Nat} (h : Spells s ds) : isHex (noSpaces s) = true :=
  isHex_of_digits _ ds h

theorem notHex_iff (s : Str) : NotHex s ↔ isHex (noSpaces s) = false := by
  unfold NotHex isHex noSpaces
  rw [List.all_eq_false]
  simp only [List.mem_filter, isHexDigit, digit?_eq]
  constructor
  · rintro ⟨c, h1, h2, h3⟩
    exact ⟨c, ⟨h1, by simpa using h2⟩, by simp [h3]⟩
  · rintro ⟨c, ⟨h1, h2⟩, h3⟩
    exact ⟨c, h1, by simpa using h2, by simpa using h3⟩

/-! ### one frame -/

theorem nib_and (n : Fin 256) : n.val &&& 0xF0 = n.val / 16 * 16 ∧ n.val &&& 0x0F = n.val % 16 := by
  revert n; decide +kernel

theorem and_F0 {n : Nat} (h : n < 256) : n &&& 0xF0 = n / 16 * 16 := (nib_and ⟨n, h⟩).1
theorem and_0F (n : Nat) : n &&& 0x0F = n % 16 := Nat.and_two_pow_sub_one_eq_mod n 4

/-- The unparsed part of a frame of ECU `e`: what `canHeader` leaves. -/
structure FrameOk (e : Sender) (data : Bytes) (f : Frame) : Prop where
  data : f.data = data
  tx : f.txId = some e.ecu
  len : f.dataLen = none
  seq : f.seqIndex = 0

theorem canParseFrame_line (e : Sender) (p : Proto) (hp : e.On p) (data : Bytes)
    (h2 : 2 ≤ data.length) (h8 : data.length ≤ 8) (s : Str) (hs : CanLine e data s) :
    ∃ f, FrameOk e data f ∧ f.raw = noSpaces s ∧ p.parseFrame { raw := noSpaces s } = canPci f := by
  unfold CanLine Spells at hs
  cases e with
  | e11 n =>
    have hfam : p.family = .can 11 := by rcases hp with rfl | rfl <;> rfl
    have hu : unhexlify ("00000".toList ++ noSpaces s)
        = .ok ([0, 0, 7, UInt8.ofNat (0xE8 + n.val)] ++ data) := by
      apply unhexlify_of_digits
      rw [List.map_append, nibbles_append, List.map_append]
      unfold noSpaces
      rw [hs]
      simp only [Sender.digits, List.map_append]
      rw [← List.append_assoc]
      congr 1
      clear hp hs
      revert n; decide
    have hlen := unhexlify_length _ _ hu
    unfold Proto.parseFrame
    rw [hfam]
    simp only [canParseFrame, if_true, hu, bind, Except.bind, pure, Except.pure]
    rw [if_neg (by omega), if_neg (by simp; omega), if_neg (by simp; omega)]
    simp only [canHeader, idx, List.cons_append, List.nil_append, List.getElem?_cons_succ,
      List.getElem?_cons_zero, bind, Except.bind, pure, Except.pure, if_true]
    have h1 : ∀ n : Fin 8, ¬ ((UInt8.ofNat (0xE8 + n.val)).toNat &&& 0xF0 = 0xD0) ∧
        (UInt8.ofNat (0xE8 + n.val)).toNat &&& 0x08 ≠ 0 ∧
        (UInt8.ofNat (0xE8 + n.val)).toNat &&& 0x07 = n.val := by decide
    obtain ⟨ha, hb, hc⟩ := h1 n
    rw [if_neg ha, if_pos hb, hc]
    exact ⟨_, ⟨rfl, rfl, rfl, rfl⟩, rfl, rfl⟩
  | e29 a b c d =>
    have hfam : p.family = .can 29 := by rcases hp with rfl | rfl | rfl <;> rfl
    have hu : unhexlify (noSpaces s) = .ok ([a, b, c, d] ++ data) := by
      apply unhexlify_of_digits
      rw [nibbles_append]
      exact hs
    have hlen := unhexlify_length _ _ hu
    unfold Proto.parseFrame
    rw [hfam]
    simp only [canParseFrame, show ¬ (29 = 11) by decide, if_false, hu, bind, Except.bind, pure, Except.pure]
    rw [if_neg (by omega), if_neg (by simp; omega), if_neg (by simp; omega)]
    simp only [canHeader, idx, List.cons_append, List.nil_append, List.getElem?_cons_succ,
      List.getElem?_cons_zero, bind, Except.bind, pure, Except.pure, if_false,
      show ¬ (29 = 11) by decide]
    exact ⟨_, ⟨rfl, rfl, rfl, rfl⟩, rfl, rfl⟩

/-- A parsed frame: its bytes, sender and PCI fields. -/
structure Parsed (e : Sender) (data : Bytes) (ty : Nat) (len : Option Nat) (seq : Nat) (f : Frame) : Prop where
  data : f.data = data
  tx : f.txId = some e.ecu
  ty : f.type = some ty
  len : f.dataLen = len
  seq : f.seqIndex = seq

theorem canPci_single (e : Sender) (f : Frame) (L : Nat) (rest : Bytes) (hL : 1 ≤ L) (hL' : L ≤ 15)
    (hf : FrameOk e (UInt8.ofNat L :: rest) f) :
    ∃ g, canPci f = .ok (some g) ∧ g.raw = f.raw ∧
      Parsed e (UInt8.ofNat L :: rest) frameTypeSF (some L) 0 g := by
  have hn : (UInt8.ofNat L).toNat = L := UInt8.toNat_ofNat_of_lt' (show _ < 256 by omega)
  have h0 : idx f.data 0 = .ok (UInt8.ofNat L) := by rw [hf.data]; rfl
  unfold canPci
  simp only [h0, bind, Except.bind, pure, Except.pure, hn, and_F0 (show L < 256 by omega), and_0F]
  have ht : L / 16 * 16 = 0 := by omega
  rw [ht, if_neg (by decide), if_pos (by rfl), if_neg (by omega), show L % 16 = L by omega]
  exact ⟨_, rfl, rfl, ⟨hf.data, hf.tx, rfl, rfl, hf.seq⟩⟩

theorem canPci_first (e : Sender) (f : Frame) (L : Nat) (rest : Bytes) (hL : 1 ≤ L) (hL' : L ≤ 4095)
    (hf : FrameOk e (UInt8.ofNat (0x10 + L / 256) :: UInt8.ofNat (L % 256) :: rest) f) :
    ∃ g, canPci f = .ok (some g) ∧ g.raw = f.raw ∧
      Parsed e (UInt8.ofNat (0x10 + L / 256) :: UInt8.ofNat (L % 256) :: rest) frameTypeFF (some L) 0 g := by
  have hn : (UInt8.ofNat (0x10 + L / 256)).toNat = 0x10 + L / 256 :=
    UInt8.toNat_ofNat_of_lt' (show _ < 256 by omega)
  have hn2 : (UInt8.ofNat (L % 256)).toNat = L % 256 :=
    UInt8.toNat_ofNat_of_lt' (show _ < 256 by omega)
  have h0 : idx f.data 0 = .ok (UInt8.ofNat (0x10 + L / 256)) := by rw [hf.data]; rfl
  have h1 : idx f.data 1 = .ok (UInt8.ofNat (L % 256)) := by rw [hf.data]; rfl
  unfold canPci
  simp only [h0, h1, bind, Except.bind, pure, Except.pure, hn, hn2,
    and_F0 (show 0x10 + L / 256 < 256 by omega), and_0F]
  have ht : (0x10 + L / 256) / 16 * 16 = 16 := by omega
  have hl : ((0x10 + L / 256) % 16) <<< 8 + L % 256 = L := by rw [Nat.shiftLeft_eq]; omega
  rw [ht, hl, if_neg (by decide), if_neg (by decide), if_pos (by rfl), if_neg (by omega)]
  exact ⟨_, rfl, rfl, ⟨hf.data, hf.tx, rfl, rfl, hf.seq⟩⟩

theorem canPci_consecutive (e : Sender) (f : Frame) (i : Nat) (rest : Bytes)
    (hf : FrameOk e (UInt8.ofNat (0x20 + i % 16) :: rest) f) :
    ∃ g, canPci f = .ok (some g) ∧ g.raw = f.raw ∧
      Parsed e (UInt8.ofNat (0x20 + i % 16) :: rest) frameTypeCF none (i % 16) g := by
  have hn : (UInt8.ofNat (0x20 + i % 16)).toNat = 0x20 + i % 16 :=
    UInt8.toNat_ofNat_of_lt' (show _ < 256 by omega)
  have h0 : idx f.data 0 = .ok (UInt8.ofNat (0x20 + i % 16)) := by rw [hf.data]; rfl
  unfold canPci
  simp only [h0, bind, Except.bind, pure, Except.pure, hn,
    and_F0 (show 0x20 + i % 16 < 256 by omega), and_0F]
  have ht : (0x20 + i % 16) / 16 * 16 = 32 := by omega
  rw [ht, if_neg (by decide), if_neg (by decide), if_neg (by decide)]
  have : (0x20 + i % 16) % 16 = i % 16 := by omega
  rw [this]
  exact ⟨_, rfl, rfl, ⟨hf.data, hf.tx, rfl, hf.len, rfl⟩⟩

theorem frameOf_of {p : Proto} {l : Str} {g : Frame} (h : p.parseFrame { raw := l } = .ok (some g)) :
    frameOf p l = some g := by simp [frameOf, h]

theorem frame_single (e : Sender) (p : Proto) (hp : e.On p) (payload pad : Bytes)
    (h1 : 1 ≤ payload.length) (h7 : payload.length + pad.length ≤ 7) (s : Str)
    (hs : CanLine e (singleFrame payload pad) s) :
    ∃ g, frameOf p (noSpaces s) = some g ∧ g.raw = noSpaces s ∧
      Parsed e (singleFrame payload pad) frameTypeSF (some payload.length) 0 g := by
  obtain ⟨f, hf, hr, hpf⟩ := canParseFrame_line e p hp _ (by simp [singleFrame]; omega)
    (by simp [singleFrame]; omega) s hs
  obtain ⟨g, hg, hgr, hpar⟩ := canPci_single e f payload.length (payload ++ pad) h1 (by omega) hf
  exact ⟨g, frameOf_of (hpf.trans hg), hgr.trans hr, hpar⟩

theorem consecutiveCount_bounds {payload pad : Bytes} (h : Segmentable payload pad) :
    1 ≤ consecutiveCount payload ∧ 6 + 7 * (consecutiveCount payload - 1) < payload.length ∧
      payload.length ≤ 6 + 7 * consecutiveCount payload := by
  have := h.min
  unfold consecutiveCount
  omega

theorem frame_reply (e : Sender) (p : Proto) (hp : e.On p) (payload pad : Bytes)
    (hseg : Segmentable payload pad) (i : Nat) (hi : i ≤ consecutiveCount payload) (s : Str)
    (hs : CanLine e (replyFrame payload pad i) s) :
    ∃ g, frameOf p (noSpaces s) = some g ∧ g.raw = noSpaces s ∧
      Parsed e (replyFrame payload pad i) (if i = 0 then frameTypeFF else frameTypeCF)
        (if i = 0 then some payload.length else none) (if i = 0 then 0 else i % 16) g := by
  have hb := consecutiveCount_bounds hseg
  have hmin := hseg.min
  have hmax := hseg.max
  by_cases h0 : i = 0
  · subst h0
    simp only [replyFrame, if_true] at hs ⊢
    obtain ⟨f, hf, hr, hpf⟩ := canParseFrame_line e p hp _ (by simp [firstFrame])
      (by simp [firstFrame]; omega) s hs
    obtain ⟨g, hg, hgr, hpar⟩ := canPci_first e f payload.length _ (by omega) (by omega) hf
    exact ⟨g, frameOf_of (hpf.trans hg), hgr.trans hr, hpar⟩
  · simp only [replyFrame, h0, if_false] at hs ⊢
    obtain ⟨f, hf, hr, hpf⟩ := canParseFrame_line e p hp _ (by simp [consecutiveFrame]; omega)
      (by simp [consecutiveFrame]; omega) s hs
    obtain ⟨g, hg, hgr, hpar⟩ := canPci_consecutive e f i _ hf
    exact ⟨g, frameOf_of (hpf.trans hg), hgr.trans hr, hpar⟩

end Model
