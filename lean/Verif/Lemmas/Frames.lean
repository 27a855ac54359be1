import Verif.Lemmas.Reassembly
/-! The frames of the model against `Spec.lineFrame?`. -/
namespace Model
open Py Spec

theorem hexBytes?_eq (s : Str) (hs : isHex s = true) :
    hexBytes? (s.map digit?) = if s.length % 2 = 1 then none else (unhexlify s).toOption := by
  induction s using unhexlify.induct with
  | case1 => rfl
  | case2 c =>
    simp only [isHex, List.all_cons, isHexDigit, Bool.and_eq_true] at hs
    obtain ⟨a, ha⟩ := Option.isSome_iff_exists.1 hs.1
    simp [hexBytes?, digit?_eq, ha]
  | case3 c1 c2 rest h l h1 h2 bs hbs ih =>
    simp only [isHex, List.all_cons, isHexDigit, Bool.and_eq_true] at hs
    simp only [List.map_cons, digit?_eq, h1, h2, hexBytes?, List.length_cons]
    rw [ih hs.2.2]
    by_cases hl : rest.length % 2 = 1
    · rw [if_pos hl, if_pos (by omega)]; rfl
    · rw [if_neg hl, if_neg (by omega)]
      simp only [unhexlify, h1, h2, hbs]; rfl
  | case4 c1 c2 rest h l h1 h2 e he ih =>
    simp only [isHex, List.all_cons, isHexDigit, Bool.and_eq_true] at hs
    simp only [List.map_cons, digit?_eq, h1, h2, hexBytes?, List.length_cons]
    rw [ih hs.2.2]
    by_cases hl : rest.length % 2 = 1
    · rw [if_pos hl, if_pos (by omega)]; rfl
    · rw [if_neg hl, if_neg (by omega)]
      simp only [unhexlify, h1, h2, he]; rfl
  | case5 c1 c2 rest hno =>
    simp only [isHex, List.all_cons, isHexDigit, Bool.and_eq_true] at hs
    obtain ⟨a, ha⟩ := Option.isSome_iff_exists.1 hs.1
    obtain ⟨b, hb⟩ := Option.isSome_iff_exists.1 hs.2.1
    exact absurd hb (hno a b ha)

theorem hexBytes?_some {ds : List (Option Nat)} {bs : Bytes} (h : hexBytes? ds = some bs) :
    ds.length = 2 * bs.length := by
  induction ds using hexBytes?.induct generalizing bs with
  | case1 => simp [hexBytes?] at h; subst h; rfl
  | case2 a b rest ih =>
    simp only [hexBytes?, Option.map_eq_some_iff] at h
    obtain ⟨bs', h1, rfl⟩ := h
    simp [ih h1]; omega
  | case3 ds h1 h2 => simp [hexBytes?] at h

theorem hexBytes?_hex {ds : List (Option Nat)} {bs : Bytes} (h : hexBytes? ds = some bs) :
    ∀ d ∈ ds, d.isSome := by
  induction ds using hexBytes?.induct generalizing bs with
  | case1 => simp
  | case2 a b rest ih =>
    simp only [hexBytes?, Option.map_eq_some_iff] at h
    obtain ⟨bs', h1, rfl⟩ := h
    intro d hd
    simp only [List.mem_cons] at hd
    rcases hd with rfl | rfl | hd
    · rfl
    · rfl
    · exact ih h1 d hd
  | case3 ds h1 h2 => simp [hexBytes?] at h

theorem isHex_of_all {s : Str} (h : ∀ d ∈ s.map digit?, d.isSome) : isHex s = true := by
  simp only [isHex, List.all_eq_true, isHexDigit]
  intro c hc
  have := h (digit? c) (List.mem_map.2 ⟨c, hc, rfl⟩)
  rwa [digit?_eq] at this

/-- A line that is a frame is hex text. -/
theorem lineFrame?_hex {p : Proto} {s : Str} {x : Nat × Bytes} (h : lineFrame? p s = some x) :
    isHex (noSpaces s) = true := by
  apply isHex_of_all
  unfold lineFrame? at h
  unfold noSpaces
  have h11 : ∀ ds, (match ds with
      | some _ :: some a :: some b :: rest =>
        match hexBytes? rest with
        | some data => if data.length ≤ 8 ∧ pciOk data then some (ecuOf11 a b, data) else none
        | none => none
      | _ => none : Option (Nat × Bytes)) = some x → ∀ d ∈ ds, d.isSome := by
    intro ds h
    split at h
    · next c a b rest =>
      split at h
      · next data hd =>
        intro d hd'
        simp only [List.mem_cons] at hd'
        rcases hd' with rfl | rfl | rfl | hd'
        · rfl
        · rfl
        · rfl
        · exact hexBytes?_hex hd d hd'
      · simp at h
    · simp at h
  cases p <;> simp only at h
  case unknown => simp at h
  case can11_500 => exact h11 _ h
  case can11_250 => exact h11 _ h
  all_goals
    split at h
    · next hd => exact hexBytes?_hex hd
    · simp at h

/-- What the parser knows of a CAN frame with data bytes `d`. -/
structure CanFrame (f : Frame) : Prop where
  len2 : 2 ≤ f.data.length
  len8 : f.data.length ≤ 8
  pci : pciOk f.data = true
  ty : f.type = some ((f.data.getD 0 0).toNat / 16 * 16)
  sf : (f.data.getD 0 0).toNat / 16 = 0 → f.dataLen = some ((f.data.getD 0 0).toNat % 16)
  ff : (f.data.getD 0 0).toNat / 16 = 1 → f.dataLen =
    some ((f.data.getD 0 0).toNat % 16 * 256 + (f.data.getD 1 0).toNat)
  cf : (f.data.getD 0 0).toNat / 16 = 2 → f.seqIndex = (f.data.getD 0 0).toNat % 16

theorem canPci_spec (f : Frame) (h2 : 2 ≤ f.data.length) (h8 : f.data.length ≤ 8) :
    ∃ r, canPci f = .ok r ∧ (pciOk f.data = false → r = none) ∧
      (pciOk f.data = true → ∃ g, r = some g ∧ g.raw = f.raw ∧ g.data = f.data ∧ g.txId = f.txId ∧ CanFrame g) := by
  match hd : f.data with
  | [] => simp [hd] at h2
  | [_] => simp [hd] at h2
  | a :: b :: rest =>
    have ha : a.toNat < 256 := a.toNat_lt
    have hb : b.toNat < 256 := b.toNat_lt
    have h0 : idx f.data 0 = .ok a := by rw [hd]; rfl
    have h1 : idx f.data 1 = .ok b := by rw [hd]; rfl
    have g0 : f.data.getD 0 0 = a := by rw [hd]; rfl
    have g1 : f.data.getD 1 0 = b := by rw [hd]; rfl
    unfold canPci
    simp only [h0, h1, bind, Except.bind, pure, Except.pure, and_F0 ha, and_0F]
    have hcases : a.toNat / 16 = 0 ∨ a.toNat / 16 = 1 ∨ a.toNat / 16 = 2 ∨ 3 ≤ a.toNat / 16 := by omega
    rcases hcases with h | h | h | h
    · rw [if_neg (by simp [h, frameTypeSF]), if_pos (by simp [h, frameTypeSF])]
      by_cases hz : a.toNat % 16 = 0
      · rw [if_pos hz]
        refine ⟨_, rfl, fun _ => rfl, ?_⟩
        intro hp
        simp [pciOk] at hp
        omega
      · rw [if_neg hz]
        have hp : pciOk (a :: b :: rest) = true := by simp [pciOk]; omega
        refine ⟨_, rfl, by simp [hp], fun _ => ⟨_, rfl, rfl, hd, rfl, ?_⟩⟩
        refine ⟨h2, h8, by rw [← hp, ← hd], ?_, ?_, ?_, ?_⟩ <;> simp [hd, h] 
    · have hl : (a.toNat % 16) <<< 8 = a.toNat % 16 * 256 := by rw [Nat.shiftLeft_eq]
      rw [hl, if_neg (by simp [h, frameTypeSF, frameTypeFF]), if_neg (by simp [h, frameTypeSF]),
        if_pos (by simp [h, frameTypeFF])]
      by_cases hz : a.toNat % 16 * 256 + b.toNat = 0
      · rw [if_pos hz]
        refine ⟨_, rfl, fun _ => rfl, ?_⟩
        intro hp
        simp [pciOk] at hp
        omega
      · rw [if_neg hz]
        have hp : pciOk (a :: b :: rest) = true := by simp [pciOk]; omega
        refine ⟨_, rfl, by simp [hp], fun _ => ⟨_, rfl, rfl, hd, rfl, ?_⟩⟩
        refine ⟨h2, h8, by rw [← hp, ← hd], ?_, ?_, ?_, ?_⟩ <;> simp [hd, h]
    · rw [if_neg (by simp [h, frameTypeSF, frameTypeFF, frameTypeCF]), if_neg (by simp [h, frameTypeSF]),
        if_neg (by simp [h, frameTypeFF])]
      have hp : pciOk (a :: b :: rest) = true := by simp [pciOk]; omega
      refine ⟨_, rfl, by simp [hp], fun _ => ⟨_, rfl, rfl, hd, rfl, ?_⟩⟩
      refine ⟨h2, h8, by rw [← hp, ← hd], ?_, ?_, ?_, ?_⟩ <;> simp [hd, h]
    · rw [if_pos (by simp [frameTypeSF, frameTypeFF, frameTypeCF]; omega)]
      refine ⟨_, rfl, fun _ => rfl, ?_⟩
      intro hp
      simp [pciOk] at hp
      omega

/-- What the parser knows of a frame of protocol `p`. -/
def GoodFrame (p : Proto) (f : Frame) : Prop :=
  match p.family with
  | .unknown => True
  | .legacy => 2 ≤ f.data.length ∧ f.data.length ≤ 7
  | .can _ => CanFrame f

theorem frameOf_eq_some {p : Proto} {l : Str} {f : Frame} (h : frameOf p l = some f) :
    p.parseFrame { raw := l } = .ok (some f) := by
  unfold frameOf at h
  split at h
  · next r hr => rw [hr, h]
  · simp at h

/-- The parser reads a hex line as the specification says. -/
def ReadsAs (p : Proto) (l : Str) (r : Option (Nat × Bytes)) : Prop :=
  match r with
  | none => frameOf p l = none
  | some (t, d) => ∃ f, frameOf p l = some f ∧ f.raw = l ∧ f.txId = some t ∧ f.data = d ∧ GoodFrame p f

theorem hexVal_lt {c : Char} {n : Nat} (h : hexVal c = some n) : n < 16 := by
  rw [← digit?_eq] at h
  unfold digit? at h
  rw [Option.map_eq_some_iff] at h
  obtain ⟨e, he, rfl⟩ := h
  have hm := List.mem_of_find?_eq_some he
  have : ∀ e ∈ ("0123456789abcdef".toList.zipIdx ++ "ABCDEF".toList.zipIdx 10), e.2 < 16 := by decide
  exact this e hm

theorem id11 : ∀ a b : Fin 16, (UInt8.ofNat (16 * a.val + b.val)).toNat &&& 0xF0 = 16 * a.val ∧
    ((UInt8.ofNat (16 * a.val + b.val)).toNat &&& 0x08 ≠ 0 ↔ 8 ≤ b.val) ∧
    (8 ≤ b.val → (UInt8.ofNat (16 * a.val + b.val)).toNat &&& 0x07 = b.val - 8) := by
  decide +kernel

theorem pciOk_len {d : Bytes} (h : pciOk d = true) : 2 ≤ d.length := by
  match d, h with
  | a :: b :: r, _ => simp

theorem parseFrame_11 (p : Proto) (hp : p.family = .can 11) (l : Str) (hs : isHex l = true) :
    ReadsAs p l (match l.map digit? with
      | some _ :: some a :: some b :: rest =>
        match hexBytes? rest with
        | some data => if data.length ≤ 8 ∧ pciOk data then some (ecuOf11 a b, data) else none
        | none => none
      | _ => none) := by
  have hpf : p.parseFrame { raw := l } = canParseFrame 11 { raw := l } := by
    unfold Proto.parseFrame; rw [hp]
  have hfo : ∀ r, canParseFrame 11 { raw := l } = .ok r → frameOf p l = r := by
    intro r hr; simp [frameOf, hpf, hr]
  match l, hs with
  | [], _ => exact hfo none (by decide)
  | [c1], hs =>
    have hd : (match [c1].map digit? with
      | some _ :: some a :: some b :: rest =>
        match hexBytes? rest with
        | some data => if data.length ≤ 8 ∧ pciOk data then some (ecuOf11 a b, data) else none
        | none => none
      | _ => none : Option (Nat × Bytes)) = none := by
      cases h : digit? c1 <;> simp [h]
    rw [hd]
    apply hfo none
    simp only [isHex, List.all_cons, isHexDigit, Bool.and_eq_true] at hs
    obtain ⟨d1, h1⟩ := Option.isSome_iff_exists.1 hs.1
    simp [canParseFrame, pure, Except.pure, bind, Except.bind, unhexlify, h1,
      show hexVal '0' = some 0 from rfl]
  | [c1, c2], hs =>
    have hd : (match [c1, c2].map digit? with
      | some _ :: some a :: some b :: rest =>
        match hexBytes? rest with
        | some data => if data.length ≤ 8 ∧ pciOk data then some (ecuOf11 a b, data) else none
        | none => none
      | _ => none : Option (Nat × Bytes)) = none := by
      cases h : digit? c1 <;> cases h' : digit? c2 <;> simp [h, h']
    rw [hd]
    apply hfo none
    simp [canParseFrame, pure, Except.pure]
  | c1 :: c2 :: c3 :: rest, hs =>
    simp only [isHex, List.all_cons, isHexDigit, Bool.and_eq_true] at hs
    obtain ⟨d1, h1⟩ := Option.isSome_iff_exists.1 hs.1
    obtain ⟨a, h2⟩ := Option.isSome_iff_exists.1 hs.2.1
    obtain ⟨b, h3⟩ := Option.isSome_iff_exists.1 hs.2.2.1
    have hrest : isHex rest = true := hs.2.2.2
    have ha := hexVal_lt h2
    have hb := hexVal_lt h3
    simp only [List.map_cons, digit?_eq c1, digit?_eq c2, digit?_eq c3, h1, h2, h3]
    rw [hexBytes?_eq rest hrest]
    by_cases hodd : rest.length % 2 = 1
    · rw [if_pos hodd]
      apply hfo none
      have : ("00000".toList ++ c1 :: c2 :: c3 :: rest).length % 2 = 1 := by simp; omega
      simp only [canParseFrame, if_true, this]
      rfl
    · rw [if_neg hodd]
      obtain ⟨bs, hbs⟩ := unhexlify_ok rest hrest (by omega)
      have hu : unhexlify ("00000".toList ++ c1 :: c2 :: c3 :: rest)
          = .ok (0 :: 0 :: UInt8.ofNat d1 :: UInt8.ofNat (16 * a + b) :: bs) := by
        simp [unhexlify, show hexVal '0' = some 0 from rfl, h1, h2, h3, hbs]
      have hl : ¬ ("00000".toList ++ c1 :: c2 :: c3 :: rest).length % 2 = 1 := by simp; omega
      rw [hbs]
      simp only [Except.toOption]
      have hcall : canParseFrame 11 { raw := c1 :: c2 :: c3 :: rest } =
          if bs.length < 2 then .ok none else if bs.length > 8 then .ok none else
          (do let f ← canHeader 11 (0 :: 0 :: UInt8.ofNat d1 :: UInt8.ofNat (16 * a + b) :: bs)
                { raw := c1 :: c2 :: c3 :: rest }
              canPci { f with data := bs }) := by
        simp only [canParseFrame, if_true, hl, hu, bind, Except.bind, pure, Except.pure, if_false,
          List.length_cons, List.drop_succ_cons, List.drop_zero]
        by_cases h4 : bs.length < 2
        · rw [if_pos h4, if_pos (by omega)]
        · rw [if_neg h4, if_neg (by omega)]
          by_cases h5 : bs.length > 8
          · rw [if_pos h5, if_pos (by omega)]
          · rw [if_neg h5, if_neg (by omega)]
      by_cases h4 : bs.length < 2
      · rw [if_neg (by intro h; have := pciOk_len h.2; omega)]
        exact hfo none (by rw [hcall, if_pos h4])
      · by_cases h5 : bs.length > 8
        · rw [if_neg (by omega)]
          exact hfo none (by rw [hcall, if_neg h4, if_pos h5])
        · rw [if_neg h4, if_neg h5] at hcall
          obtain ⟨x1, x2, x3⟩ := id11 ⟨a, ha⟩ ⟨b, hb⟩
          simp only at x1 x2 x3
          have hh : ∃ f, canHeader 11 (0 :: 0 :: UInt8.ofNat d1 :: UInt8.ofNat (16 * a + b) :: bs)
                { raw := c1 :: c2 :: c3 :: rest } = .ok f ∧ f.raw = c1 :: c2 :: c3 :: rest ∧
                f.txId = some (ecuOf11 a b) := by
            simp only [canHeader, if_true, idx, List.getElem?_cons_succ, List.getElem?_cons_zero, bind,
              Except.bind, pure, Except.pure]
            unfold ecuOf11
            by_cases hD : a = 13
            · rw [if_pos (by rw [x1, hD]), if_pos (Or.inl hD)]
              exact ⟨_, rfl, rfl, rfl⟩
            · rw [if_neg (by rw [x1]; omega)]
              by_cases h8 : 8 ≤ b
              · rw [if_pos (x2.2 h8), if_neg (by omega), x3 h8]
                exact ⟨_, rfl, rfl, rfl⟩
              · rw [if_neg (fun h => h8 (x2.1 h)), if_pos (by omega)]
                exact ⟨_, rfl, rfl, rfl⟩
          obtain ⟨f, hf, hraw, htx⟩ := hh
          rw [hf] at hcall
          obtain ⟨r, hr, hr0, hr1⟩ := canPci_spec { f with data := bs } (by simp; omega) (by simp; omega)
          have hcall' : canParseFrame 11 { raw := c1 :: c2 :: c3 :: rest } = .ok r := by
            rw [hcall]; exact hr
          by_cases hpci : pciOk bs = true
          · rw [if_pos ⟨by omega, hpci⟩]
            obtain ⟨g, rfl, hgr, hgd, hgt, hg⟩ := hr1 hpci
            refine ⟨g, hfo _ hcall', hgr.trans hraw, hgt.trans htx, hgd, ?_⟩
            unfold GoodFrame; rw [hp]; exact hg
          · rw [if_neg (fun h => hpci h.2)]
            have := hr0 (by simpa using hpci)
            subst this
            exact hfo none hcall'

theorem parseFrame_29 (p : Proto) (hp : p.family = .can 29) (l : Str) (hs : isHex l = true) :
    ReadsAs p l (match hexBytes? (l.map digit?) with
    | some (_ :: _ :: _ :: t :: data) =>
      if data.length ≤ 8 ∧ pciOk data then some (t.toNat, data) else none
    | _ => none) := by
  have hpf : p.parseFrame { raw := l } = canParseFrame 29 { raw := l } := by
    unfold Proto.parseFrame; rw [hp]
  have hfo : ∀ r, canParseFrame 29 { raw := l } = .ok r → frameOf p l = r := by
    intro r hr; simp [frameOf, hpf, hr]
  rw [hexBytes?_eq l hs]
  by_cases hodd : l.length % 2 = 1
  · rw [if_pos hodd]
    apply hfo none
    simp [canParseFrame, hodd, pure, Except.pure]
  · rw [if_neg hodd]
    obtain ⟨rb, hrb⟩ := unhexlify_ok l hs (by omega)
    rw [hrb]
    simp only [Except.toOption]
    by_cases h6 : rb.length < 6
    · have hnone : frameOf p l = none := by
        apply hfo
        simp [canParseFrame, hodd, hrb, h6, pure, Except.pure, bind, Except.bind]
      split
      · next t data heq =>
        injection heq with heq
        subst heq
        rw [if_neg (by intro h; have := pciOk_len h.2; simp at h6; omega)]
        exact hnone
      · exact hnone
    · match rb, h6 with
      | [], h6 => simp at h6
      | [_], h6 => simp at h6
      | [_, _], h6 => simp at h6
      | [_, _, _], h6 => simp at h6
      | b0 :: b1 :: b2 :: t :: bs, h6 =>
        simp only
        simp only [List.length_cons] at h6
        have hcall : canParseFrame 29 { raw := l } = if bs.length > 8 then .ok none else
          (do let f ← canHeader 29 (b0 :: b1 :: b2 :: t :: bs) { raw := l }
              canPci { f with data := bs }) := by
          simp only [canParseFrame, show ¬ (29 = 11) by decide, hodd, hrb, bind, Except.bind, pure,
            Except.pure, if_false, List.length_cons, List.drop_succ_cons, List.drop_zero]
          rw [if_neg h6]
          by_cases h5 : bs.length > 8
          · rw [if_pos h5, if_pos (by omega)]
          · rw [if_neg h5, if_neg (by omega)]
        by_cases h5 : bs.length > 8
        · rw [if_neg (by omega)]
          exact hfo none (by rw [hcall, if_pos h5])
        · rw [if_neg h5] at hcall
          obtain ⟨f, hf, hraw, htx⟩ : ∃ f, canHeader 29 (b0 :: b1 :: b2 :: t :: bs) { raw := l } = .ok f
              ∧ f.raw = l ∧ f.txId = some t.toNat := by
            simp only [canHeader, show ¬ (29 = 11) by decide, if_false, idx, List.getElem?_cons_succ,
              List.getElem?_cons_zero, bind, Except.bind, pure, Except.pure]
            exact ⟨_, rfl, rfl, rfl⟩
          rw [hf] at hcall
          obtain ⟨r, hr, hr0, hr1⟩ := canPci_spec { f with data := bs } (by simp; omega) (by simp; omega)
          have hcall' : canParseFrame 29 { raw := l } = .ok r := by rw [hcall]; exact hr
          by_cases hpci : pciOk bs = true
          · rw [if_pos ⟨by omega, hpci⟩]
            obtain ⟨g, rfl, hgr, hgd, hgt, hg⟩ := hr1 hpci
            refine ⟨g, hfo _ hcall', hgr.trans hraw, hgt.trans htx, hgd, ?_⟩
            unfold GoodFrame; rw [hp]; exact hg
          · rw [if_neg (fun h => hpci h.2)]
            have := hr0 (by simpa using hpci)
            subst this
            exact hfo none hcall'

theorem parseFrame_legacy (p : Proto) (hp : p.family = .legacy) (l : Str) (hs : isHex l = true) :
    ReadsAs p l (match hexBytes? (l.map digit?) with
    | some (_ :: _ :: t :: rest) =>
      if 3 ≤ rest.length ∧ rest.length ≤ 8 then some (t.toNat, rest.dropLast) else none
    | _ => none) := by
  have hpf : p.parseFrame { raw := l } = legacyParseFrame { raw := l } := by
    unfold Proto.parseFrame; rw [hp]
  have hfo : ∀ r, legacyParseFrame { raw := l } = .ok r → frameOf p l = r := by
    intro r hr; simp [frameOf, hpf, hr]
  rw [hexBytes?_eq l hs]
  by_cases hodd : l.length % 2 = 1
  · rw [if_pos hodd]
    apply hfo none
    simp [legacyParseFrame, hodd, pure, Except.pure]
  · rw [if_neg hodd]
    obtain ⟨rb, hrb⟩ := unhexlify_ok l hs (by omega)
    rw [hrb]
    simp only [Except.toOption]
    match rb, hrb with
    | [], hrb => exact hfo none (by simp [legacyParseFrame, hodd, hrb, pure, Except.pure, bind, Except.bind])
    | [_], hrb => exact hfo none (by simp [legacyParseFrame, hodd, hrb, pure, Except.pure, bind, Except.bind])
    | [_, _], hrb => exact hfo none (by simp [legacyParseFrame, hodd, hrb, pure, Except.pure, bind, Except.bind])
    | b0 :: b1 :: t :: bs, hrb =>
      simp only
      by_cases h3 : 3 ≤ bs.length ∧ bs.length ≤ 8
      · rw [if_pos h3]
        refine ⟨_, hfo _ (by
          simp only [legacyParseFrame, hodd, hrb, bind, Except.bind, pure, Except.pure, if_false,
            List.length_cons, idx, List.getElem?_cons_succ, List.getElem?_cons_zero]
          rw [if_neg (by omega), if_neg (by omega)]), rfl, rfl, ?_, ?_⟩
        · match bs, h3 with
          | x :: xs, _ => simp [List.dropLast]
        · unfold GoodFrame; rw [hp]
          match bs, h3 with
          | x :: xs, h3 => simp at h3 ⊢; omega
      · rw [if_neg h3]
        apply hfo none
        simp only [legacyParseFrame, hodd, hrb, bind, Except.bind, pure, Except.pure, if_false,
            List.length_cons]
        by_cases h6 : bs.length < 3
        · rw [if_pos (by omega)]
        · rw [if_neg (by omega), if_pos (by omega)]

theorem readsAs (p : Proto) (hp : p ≠ .unknown) (s : Str) (hs : isHex (noSpaces s) = true) :
    ReadsAs p (noSpaces s) (lineFrame? p s) := by
  cases p with
  | unknown => exact absurd rfl hp
  | can11_500 => exact parseFrame_11 _ rfl _ hs
  | can11_250 => exact parseFrame_11 _ rfl _ hs
  | can29_500 => exact parseFrame_29 _ rfl _ hs
  | can29_250 => exact parseFrame_29 _ rfl _ hs
  | j1939 => exact parseFrame_29 _ rfl _ hs
  | j1850pwm => exact parseFrame_legacy _ rfl _ hs
  | j1850vpw => exact parseFrame_legacy _ rfl _ hs
  | iso9141 => exact parseFrame_legacy _ rfl _ hs
  | kwp5baud => exact parseFrame_legacy _ rfl _ hs
  | kwpFast => exact parseFrame_legacy _ rfl _ hs

end Model
