import Verif.Py.FloatText
import Verif.Spec.Decimal
import Verif.Props.Works
import Verif.Props.AdapterInfo
/-!
# C100: the voltage

`float()` is CPython's (`Py.pyFloat`).
-/
namespace Props
open Py Model Spec ObdM

theorem decimalChar_facts (d : Fin 10) : decDigit (decimalChar d) = true ∧ (decimalChar d).toNat = 48 + d.val ∧ cSpace (decimalChar d) = false ∧
    decimalChar d ≠ '_' ∧ decimalChar d ≠ '-' ∧ decimalChar d ≠ '+' ∧ decimalChar d ≠ 'v' ∧ ¬ ('A' ≤ decimalChar d ∧ decimalChar d ≤ 'Z') := by
  revert d; decide

theorem underscoresOk_of : ∀ s : Str, '_' ∉ s → underscoresOk s = true
  | [], _ => rfl
  | [a], h => by
    unfold underscoresOk
    split <;> simp_all
  | a :: b :: s, h => by
    have ih := underscoresOk_of (b :: s) (fun hm => h (List.mem_cons_of_mem _ hm))
    rw [underscoresOk]
    · exact ih
    all_goals intros; simp_all

theorem noSpace_strip {s : Str} (h : ∀ c ∈ s, cSpace c = false) : ((s.dropWhile cSpace).reverse.dropWhile cSpace).reverse = s := by
  have e : ∀ t : Str, (∀ c ∈ t, cSpace c = false) → t.dropWhile cSpace = t := by
    intro t ht
    cases t with
    | nil => rfl
    | cons c t => rw [List.dropWhile_cons_of_neg]; simp [ht c (by simp)]
  rw [e s h, e s.reverse (fun c hc => h c (List.mem_reverse.1 hc)), List.reverse_reverse]

theorem span_digits (a : List (Fin 10)) (rest : Str) (hr : ∀ c t, rest = c :: t → decDigit c = false) :
    (a.map decimalChar ++ rest).span decDigit = (a.map decimalChar, rest) := by
  rw [List.span_eq_takeWhile_dropWhile]
  have h : ∀ c ∈ a.map decimalChar, decDigit c = true := by
    intro c hc
    obtain ⟨d, -, rfl⟩ := List.mem_map.1 hc
    exact (decimalChar_facts d).1
  have h2 : rest.takeWhile decDigit = [] ∧ rest.dropWhile decDigit = rest := by
    cases rest with
    | nil => simp
    | cons c t => simp [hr c t rfl]
  rw [List.takeWhile_append_of_pos h, List.dropWhile_append_of_pos h, h2.1, h2.2, List.append_nil]

theorem digitsVal_map (a : List (Fin 10)) : ((digitsVal (a.map decimalChar) : Nat) : ℚ) = wholePart a := by
  have : ∀ (a : List (Fin 10)) (n : Nat), (((a.map decimalChar).foldl (fun n c => 10 * n + (c.toNat - 48)) n : Nat) : ℚ) =
      a.foldl (fun n d => 10 * n + (d.val : ℚ)) (n : ℚ) := by
    intro a
    induction a with
    | nil => intro n; rfl
    | cons d a ih =>
      intro n
      simp only [List.map_cons, List.foldl_cons]
      rw [ih, (decimalChar_facts d).2.1]
      congr 1
      push_cast
      simp
  have h := this a 0
  simpa [digitsVal, wholePart] using h

theorem wholePart_append (a b : List (Fin 10)) : wholePart (a ++ b) = (wholePart a + fractionPart b) * 10 ^ b.length := by
  have : ∀ (b : List (Fin 10)) (n : ℚ), b.foldl (fun n d => 10 * n + (d.val : ℚ)) n = (n + fractionPart b) * 10 ^ b.length := by
    intro b
    induction b with
    | nil => intro n; simp [fractionPart]
    | cons d b ih =>
      intro n
      simp only [List.foldl_cons, fractionPart, List.length_cons]
      rw [ih]
      ring
  unfold wholePart
  rw [List.foldl_append, this]

theorem parts_nonneg (a b : List (Fin 10)) : 0 ≤ wholePart a ∧ 0 ≤ fractionPart b := by
  constructor
  · rw [← digitsVal_map]; positivity
  · induction b with
    | nil => simp [fractionPart]
    | cons d b ih => simp only [fractionPart]; positivity

theorem wholePart_lt (a : List (Fin 10)) : wholePart a < 10 ^ a.length := by
  have : ∀ (a : List (Fin 10)) (n : ℚ), a.foldl (fun n d => 10 * n + (d.val : ℚ)) n < (n + 1) * 10 ^ a.length := by
    intro a
    induction a with
    | nil => intro n; simp
    | cons d a ih =>
      intro n
      simp only [List.foldl_cons, List.length_cons]
      refine lt_of_lt_of_le (ih _) ?_
      have : (d.val : ℚ) ≤ 9 := by exact_mod_cast (by omega : d.val ≤ 9)
      rw [pow_succ]
      have hp : (0 : ℚ) < 10 ^ a.length := by positivity
      nlinarith
  have h := this a 0
  simpa [wholePart] using h

theorem fractionPart_lt (b : List (Fin 10)) : fractionPart b < 1 := by
  induction b with
  | nil => simp [fractionPart]
  | cons d b ih =>
    simp only [fractionPart]
    have : (d.val : ℚ) ≤ 9 := by exact_mod_cast (by omega : d.val ≤ 9)
    linarith

/-- The value is a whole number of units of the last place. -/
theorem units (a b : List (Fin 10)) : ∃ n : Nat, wholePart a + fractionPart b = n / 10 ^ b.length := by
  refine ⟨digitsVal ((a ++ b).map decimalChar), ?_⟩
  rw [digitsVal_map, wholePart_append]
  field_simp

theorem round64Pos_fin (q : ℚ) (h : q = 0 ∨ (1 / 10 ^ 60 ≤ q ∧ q ≤ 10 ^ 60 + 1)) : round64Pos q = .fin (rnd q) := by
  unfold round64Pos
  rcases h with rfl | ⟨h1, h2⟩
  · simp
  have hq : 0 < q := lt_of_lt_of_le (by positivity) h1
  rw [if_neg hq.ne']
  obtain ⟨g1, g2⟩ := ilog2_spec q hq
  have hlo : -250 ≤ ilog2 q := by
    by_contra hc
    have : (2 : ℚ) ^ (ilog2 q + 1) ≤ 2 ^ (-250 : ℤ) := zpow_le_zpow_right₀ (by norm_num) (by omega)
    have h3 : q < 2 ^ (-250 : ℤ) := lt_of_lt_of_le g2 this
    have h4 : (2 : ℚ) ^ (-250 : ℤ) < 1 / 10 ^ 60 := by
      rw [zpow_neg]; norm_num
    exact absurd (h1.trans_lt (h3.trans h4)) (lt_irrefl _)
  have hhi : ilog2 q ≤ 250 := by
    by_contra hc
    have : (2 : ℚ) ^ (250 : ℤ) ≤ 2 ^ (ilog2 q) := zpow_le_zpow_right₀ (by norm_num) (by omega)
    have h4 : (10 : ℚ) ^ 60 + 1 < 2 ^ (250 : ℤ) := by norm_num
    linarith
  have hmax : max (ilog2 q - 52) (-1074) = ilog2 q - 52 := by omega
  simp only [hmax]
  have hr : (rne (q * pow2 (-(ilog2 q - 52))) : ℚ) * pow2 (ilog2 q - 52) = rnd q := by rw [rnd_of_pos hq]; rfl
  rw [hr, if_neg]
  rw [not_le, rnd_of_pos hq, pow2_eq]
  refine lt_of_le_of_lt (rndPos_bounds q hq).2 ?_
  exact zpow_lt_zpow_right₀ (by norm_num) (by omega)

theorem pyFloat_printed (a b : List (Fin 10)) (ha : a ≠ []) (h1 : a.length ≤ 60) (h2 : b.length ≤ 60) :
    pyFloat (a.map decimalChar ++ '.' :: b.map decimalChar) = some (.fin (rnd (wholePart a + fractionPart b))) := by
  have hall : ∀ c ∈ a.map decimalChar ++ '.' :: b.map decimalChar, cSpace c = false ∧ c ≠ '_' := by
    intro c hc
    simp only [List.mem_append, List.mem_cons, List.mem_map] at hc
    rcases hc with ⟨d, -, rfl⟩ | rfl | ⟨d, -, rfl⟩
    · exact ⟨(decimalChar_facts d).2.2.1, (decimalChar_facts d).2.2.2.1⟩
    · decide
    · exact ⟨(decimalChar_facts d).2.2.1, (decimalChar_facts d).2.2.2.1⟩
  unfold pyFloat
  simp only
  rw [noSpace_strip (fun c hc => (hall c hc).1), if_pos (underscoresOk_of _ (fun hm => (hall _ hm).2 rfl)),
    List.filter_eq_self.2 (fun c hc => by simpa using (hall c hc).2)]
  have hsign : takeSign (a.map decimalChar ++ '.' :: b.map decimalChar) = (false, a.map decimalChar ++ '.' :: b.map decimalChar) := by
    cases a with
    | nil => exact absurd rfl ha
    | cons d a =>
      obtain ⟨-, -, -, -, f5, f6, -⟩ := decimalChar_facts d
      simp only [List.map_cons, List.cons_append]
      unfold takeSign
      split
      · rename_i h; injection h with h; exact absurd h f5
      · rename_i h; injection h with h; exact absurd h f6
      · rfl
  unfold bareFloat
  rw [hsign]
  simp only
  rw [span_digits a _ (by intro c t h; injection h with h; subst h; decide)]
  simp only
  have hs := span_digits b [] (by intro c t h; cases h)
  rw [List.append_nil] at hs
  rw [hs]
  simp only
  rw [if_neg (by simp [ha])]
  simp only [floatExponent]
  congr 1
  have hv : ((digitsVal (a.map decimalChar ++ b.map decimalChar) : Nat) : ℚ) * pow10 (0 - ((b.map decimalChar).length : Int)) = wholePart a + fractionPart b := by
    rw [← List.map_append, digitsVal_map, wholePart_append, List.length_map]
    unfold pow10
    by_cases h0 : b.length = 0
    · simp [h0]
    · rw [if_neg (by omega)]
      have : (-(0 - (b.length : Int))).toNat = b.length := by omega
      rw [this]
      push_cast
      field_simp
  rw [hv]
  show round64Pos _ = _
  apply round64Pos_fin
  obtain ⟨n, hn⟩ := units a b
  rcases Nat.eq_zero_or_pos n with h0 | h0
  · left; rw [hn, h0]; simp
  · right
    constructor
    · rw [hn]
      have : (1 : ℚ) ≤ n := by exact_mod_cast h0
      have hp : (10 : ℚ) ^ b.length ≤ 10 ^ 60 := pow_le_pow_right₀ (by norm_num) h2
      exact div_le_div₀ (by positivity) this (by positivity) hp
    · have hp : (10 : ℚ) ^ a.length ≤ 10 ^ 60 := pow_le_pow_right₀ (by norm_num) h1
      have := wholePart_lt a
      have := fractionPart_lt b
      linarith

theorem lower_unit (a b : List (Fin 10)) (unit : Str) (hu : unit = [] ∨ unit = ['V'] ∨ unit = ['v']) :
    (lower (a.map decimalChar ++ '.' :: (b.map decimalChar ++ unit))).filter (fun c => c != 'v') = a.map decimalChar ++ '.' :: b.map decimalChar := by
  have hd : ∀ l : List (Fin 10), (lower (l.map decimalChar)).filter (fun c => c != 'v') = l.map decimalChar := by
    intro l
    unfold lower
    rw [List.map_map]
    have : (fun c : Char => if 'A' ≤ c ∧ c ≤ 'Z' then Char.ofNat (c.toNat + 32) else c) ∘ decimalChar = decimalChar := by
      funext d
      show ite _ _ _ = _
      rw [if_neg (decimalChar_facts d).2.2.2.2.2.2.2]
    rw [this, List.filter_eq_self.2]
    intro c hc
    obtain ⟨d, -, rfl⟩ := List.mem_map.1 hc
    simpa using (decimalChar_facts d).2.2.2.2.2.2.1
  have hsplit : lower (a.map decimalChar ++ '.' :: (b.map decimalChar ++ unit)) = lower (a.map decimalChar) ++ '.' :: (lower (b.map decimalChar) ++ lower unit) := by
    unfold lower
    simp
  have hun : (lower unit).filter (fun c => c != 'v') = [] := by
    rcases hu with rfl | rfl | rfl <;> decide
  rw [hsplit, List.filter_append, hd, List.filter_cons_of_pos (by decide), List.filter_append, hd, hun, List.append_nil]

theorem voltageRead_printed {line : Str} {v : ℚ} (h : PrintedVolt 60 line v) : voltageRead pyFloat line = some (.fin (rnd v)) := by
  obtain ⟨a, b, unit, h1, h2, h3, h4, rfl, rfl⟩ := h
  unfold voltageRead
  rw [lower_unit a b unit h4]
  exact pyFloat_printed a b h1 h2 h3

theorem printed_nonneg {line : Str} {v : ℚ} (h : PrintedVolt 60 line v) : 0 ≤ v := by
  obtain ⟨a, b, unit, -, -, -, -, -, rfl⟩ := h
  have := parts_nonneg a b
  linarith [this.1, this.2]

theorem printed_notHex {line : Str} {v : ℚ} (h : PrintedVolt 60 line v) : NotHex line := by
  obtain ⟨a, b, unit, -, -, -, -, rfl, -⟩ := h
  exact ⟨'.', by simp, by decide, by decide⟩

/-! ## C100 -/

/-- C100: when the adapter prints a voltage, ELM_VOLTAGE is that number, up to the rounding of a float. -/
theorem C100_voltage (dev : Device) (s : OW) (hr : Reachable dev pyFloat s) (hs : status s ≠ .notConnected)
    (c : OBDCommand) (hc : byName "ELM_VOLTAGE" = some c) (force : Bool) (hg : Goes s c force) (l : Str) (v : ℚ)
    (hl : JustRead (query dev pyFloat c force s).2.hist [l]) (hv : PrintedVolt 60 l v) :
    ∃ r x, (query dev pyFloat c force s).1 = .ok r ∧ r.value = .fqty (.fin x) "volt" ∧ |x - v| ≤ v / 2 ^ 53 := by
  obtain ⟨r, h1, h2, -⟩ := C83_voltage dev pyFloat s hr hs c hc force hg l [] hl (by simpa using printed_notHex hv)
  obtain ⟨h3, -⟩ := h2 _ (voltageRead_printed hv)
  refine ⟨r, rnd v, h1, h3, ?_⟩
  have := rnd_err v
  rwa [abs_of_nonneg (printed_nonneg hv)] at this

/-- With at most ten digits after the point, rounding does not move a voltage across 6 V. -/
theorem low_iff {a b : List (Fin 10)} (hb : b.length ≤ 10) :
    Low (.fin (rnd (wholePart a + fractionPart b))) ↔ wholePart a + fractionPart b < 6 := by
  show rnd _ < 6 ↔ _
  obtain ⟨n, hn⟩ := units a b
  have h6 : rnd 6 = 6 := by have := rnd_int 6 (by norm_num); simpa using this
  have h0 : 0 ≤ wholePart a + fractionPart b := by have := parts_nonneg a b; linarith [this.1, this.2]
  constructor
  · intro h
    by_contra hge
    have := rnd_mono (not_lt.1 hge)
    rw [h6] at this
    linarith
  · intro h
    have hp : (10 : ℚ) ^ b.length ≤ 10 ^ 10 := pow_le_pow_right₀ (by norm_num) hb
    have hpos : (0 : ℚ) < 10 ^ b.length := by positivity
    have hgap : wholePart a + fractionPart b ≤ 6 - 1 / 10 ^ 10 := by
      rw [hn] at h ⊢
      have h1 : (n : ℚ) < 6 * 10 ^ b.length := by rwa [div_lt_iff₀ hpos] at h
      have h2 : (n : ℚ) + 1 ≤ 6 * 10 ^ b.length := by exact_mod_cast h1
      rw [div_le_iff₀ hpos]
      have h3 : (1 : ℚ) / 10 ^ 10 * 10 ^ b.length ≤ 1 := by
        rw [div_mul_eq_mul_div, one_mul, div_le_one (by positivity)]; exact hp
      linarith
    have herr := rnd_err (wholePart a + fractionPart b)
    rw [abs_of_nonneg h0] at herr
    have h4 := (abs_le.1 herr).2
    have h5 : (wholePart a + fractionPart b) / 2 ^ 53 ≤ 6 / 2 ^ 53 := by
      apply div_le_div_of_nonneg_right h.le (by positivity)
    have h7 : (6 : ℚ) / 2 ^ 53 < 1 / 10 ^ 10 := by norm_num
    linarith

/-- C100: when the adapter prints a voltage during the set-up (with at most ten digits after the point), the ignition counts as off
exactly if the number printed is below 6. -/
theorem C100_ignition (dev : Device) (volt number : Str) (car : Option Str → List Str) (hd : Elm327 dev volt number car)
    (a : Args) (s : OW) (hc : Constructed dev pyFloat a s) (hp : a.portstr ≠ none ∨ a.ports ≠ []) (hchk : a.cfg.checkVoltage = true)
    (v : ℚ) (hv : PrintedVolt 10 volt v) (out : Option Str) (ha : Agreed number car a.cfg.protocol out) :
    (v < 6 → status s = .elmConnected) ∧
    (6 ≤ v → (∀ id, out = some id → status s = .carConnected ∧ protocolId s = .ok id) ∧ (out = none → status s = .obdConnected)) := by
  have hv60 : PrintedVolt 60 volt v := by
    obtain ⟨x, y, u, h1, h2, h3, h4⟩ := hv
    exact ⟨x, y, u, h1, h2, by omega, h4⟩
  have hne : volt ≠ [] := by
    obtain ⟨x, y, u, -, -, -, -, h, -⟩ := hv
    rw [h]; simp
  have hlow : Low (.fin (rnd v)) ↔ v < 6 := by
    obtain ⟨x, y, u, -, -, h3, -, -, h⟩ := hv
    rw [h]
    exact low_iff h3
  have h := C98_status dev pyFloat volt number car hd a s hc hp (.fin (rnd v)) (fun _ => ⟨hne, voltageRead_printed hv60⟩) out ha
  rw [hlow] at h
  refine ⟨fun hlt => h.1 ⟨hchk, hlt⟩, fun hge => ?_⟩
  have h2 := h.2 (fun hx => absurd hx.2 (not_lt.2 hge))
  rw [if_pos hchk] at h2
  exact h2

theorem noNumber_facts : ∀ c ∈ noNumber, ∀ d, d = (if 'A' ≤ c ∧ c ≤ 'Z' then Char.ofNat (c.toNat + 32) else c) →
    d ≠ 'v' ∧ cSpace d = false ∧ d ≠ '_' ∧ d ≠ '-' ∧ d ≠ '+' ∧ d ≠ '.' ∧ decDigit d = false ∧ d ≠ 'e' ∧ d ≠ 'E' ∧
    (if 'A' ≤ d ∧ d ≤ 'Z' then Char.ofNat (d.toNat + 32) else d) ∉ "infinitynan".toList := by
  intro c hc d hd
  subst hd
  revert c
  decide +kernel

theorem mem_strip {s : Str} {d : Char} (hd : cSpace d = false) (hm : d ∈ s) : d ∈ ((s.dropWhile cSpace).reverse.dropWhile cSpace).reverse := by
  have e : ∀ t : Str, d ∈ t → d ∈ t.dropWhile cSpace := by
    intro t ht
    rw [← List.takeWhile_append_dropWhile (p := cSpace) (l := t)] at ht
    rcases List.mem_append.1 ht with h | h
    · have := List.all_eq_true.1 (List.all_takeWhile (l := t) (p := cSpace)) d h
      rw [hd] at this; cases this
    · exact h
  exact List.mem_reverse.2 (e _ (List.mem_reverse.2 (e s hm)))

theorem mem_takeSign {s : Str} {d : Char} (hm : d ∈ s) (h3 : d ≠ '-') (h4 : d ≠ '+') : d ∈ (takeSign s).2 := by
  unfold takeSign
  split
  · rcases List.mem_cons.1 hm with rfl | h
    · exact absurd rfl h3
    · exact h
  · rcases List.mem_cons.1 hm with rfl | h
    · exact absurd rfl h4
    · exact h
  · exact hm

theorem mem_span_rest {s : Str} {d : Char} (hm : d ∈ s) (hd : decDigit d = false) : d ∈ (s.span decDigit).2 := by
  rw [List.span_eq_takeWhile_dropWhile]
  rw [← List.takeWhile_append_dropWhile (p := decDigit) (l := s)] at hm
  rcases List.mem_append.1 hm with h | h
  · have := List.all_eq_true.1 (List.all_takeWhile (l := s) (p := decDigit)) d h
    rw [hd] at this; cases this
  · exact h

theorem not_exponent {s : Str} {d : Char} (hm : d ∈ s) (h1 : d ≠ 'e') (h2 : d ≠ 'E') (h3 : d ≠ '-') (h4 : d ≠ '+') (h5 : decDigit d = false) :
    floatExponent s = none := by
  cases s with
  | nil => cases hm
  | cons c s =>
    simp only [floatExponent]
    by_cases hce : c = 'e' ∨ c = 'E'
    · rw [if_pos hce]
      have hm' : d ∈ s := by
        rcases List.mem_cons.1 hm with rfl | h
        · rcases hce with h | h
          · exact absurd h h1
          · exact absurd h h2
        · exact h
      have hm2 : d ∈ (takeSign s).2 := mem_takeSign hm' h3 h4
      rw [if_neg]
      rintro ⟨-, hall⟩
      have := List.all_eq_true.1 hall d hm2
      rw [h5] at this; cases this
    · rw [if_neg hce]


theorem no_float {line : Str} {c : Char} (hm : c ∈ line) (hc : c ∈ noNumber) : voltageRead pyFloat line = none := by
  obtain ⟨f1, f2, f3, f4, f5, f6, f7, f8, f9, f10⟩ := noNumber_facts c hc _ rfl
  generalize hd : (if 'A' ≤ c ∧ c ≤ 'Z' then Char.ofNat (c.toNat + 32) else c) = d at f1 f2 f3 f4 f5 f6 f7 f8 f9 f10
  have m1 : d ∈ (lower line).filter (fun c => c != 'v') := by
    rw [List.mem_filter]
    refine ⟨?_, by simpa using f1⟩
    unfold lower
    exact List.mem_map.2 ⟨c, hm, hd⟩
  unfold voltageRead
  generalize (lower line).filter (fun c => c != 'v') = s at m1
  unfold pyFloat
  simp only
  have m2 := mem_strip f2 m1
  generalize ((s.dropWhile cSpace).reverse.dropWhile cSpace).reverse = t at m2
  split
  · have m3 : d ∈ t.filter (fun c => c != '_') := List.mem_filter.2 ⟨m2, by simpa using f3⟩
    generalize t.filter (fun c => c != '_') = u at m3
    unfold bareFloat
    have m4 := mem_takeSign m3 f4 f5
    generalize takeSign u = p at m4
    obtain ⟨neg, s1⟩ := p
    simp only at m4 ⊢
    have m5 := mem_span_rest m4 f7
    generalize hsp : s1.span decDigit = q at m5
    obtain ⟨a, s2⟩ := q
    simp only at m5 ⊢
    have key : ∀ (b s3 : Str), d ∈ s3 → (if a = [] ∧ b = [] then infOrNan neg s1 else match floatExponent s3 with
        | some e => some (round64 neg ((digitsVal (a ++ b) : Rat) * pow10 (e - b.length)))
        | none => none) = none := by
      intro b s3 m6
      split
      · unfold infOrNan
        have hin : (if 'A' ≤ d ∧ d ≤ 'Z' then Char.ofNat (d.toNat + 32) else d) ∈ lower s1 := by
          unfold lower
          exact List.mem_map.2 ⟨d, m4, rfl⟩
        rw [if_neg, if_neg]
        · intro h
          rw [h] at hin
          exact f10 ((by decide : "nan".toList ⊆ "infinitynan".toList) hin)
        · rintro (h | h)
          · rw [h] at hin
            exact f10 ((by decide : "inf".toList ⊆ "infinitynan".toList) hin)
          · rw [h] at hin
            exact f10 ((by decide : "infinity".toList ⊆ "infinitynan".toList) hin)
      · rw [not_exponent m6 f8 f9 f4 f5 f7]
    split
    · rename_i t'
      have m6 : d ∈ (t'.span decDigit).2 := by
        refine mem_span_rest ?_ f7
        rcases List.mem_cons.1 m5 with h | h
        · exact absurd h f6
        · exact h
      exact key _ _ m6
    · exact key _ _ m5
  · rfl

/-- C100: a reply with a character that is in no number (an error message, say) is a null response. -/
theorem C100_garbage (dev : Device) (s : OW) (hr : Reachable dev pyFloat s) (hs : status s ≠ .notConnected)
    (c : OBDCommand) (hc : byName "ELM_VOLTAGE" = some c) (force : Bool) (hg : Goes s c force) (l : Str) (lines : List Str)
    (hl : JustRead (query dev pyFloat c force s).2.hist (l :: lines)) (ht : ∀ x ∈ l :: lines, NotHex x) (ch : Char) (hm : ch ∈ l) (hch : ch ∈ noNumber) :
    ∃ r, (query dev pyFloat c force s).1 = .ok r ∧ r.value = .none ∧ r.isNull = true := by
  obtain ⟨r, h1, -, h3⟩ := C83_voltage dev pyFloat s hr hs c hc force hg l lines hl ht
  obtain ⟨h4, h5⟩ := h3 (no_float hm hch)
  exact ⟨r, h1, h4, h5⟩

theorem printed_12_5 : PrintedVolt 10 "12.5V".toList 12.5 :=
  ⟨[1, 2], [5], ['V'], by simp, by simp, by simp, by simp, by decide, by unfold wholePart fractionPart; norm_num [fractionPart]⟩

theorem printed_0_1 : PrintedVolt 10 "0.1".toList 0.1 :=
  ⟨[0], [1], [], by simp, by simp, by simp, by simp, by decide, by unfold wholePart fractionPart; norm_num [fractionPart]⟩

/-- What the constructor gives with the adapter and car of C98, with CPython's `float`. -/
def voltObd : OW := (ObdM.construct shy pyFloat [] (some "COM1".toList) true {}).2

/-- The hypotheses of C100 can be met: 12.5 V is not below 6, the car is found. -/
example : Constructed shy pyFloat { portstr := some "COM1".toList } voltObd ∧ status voltObd = .carConnected := by
  refine ⟨constructed_of (by decide +kernel), by decide +kernel⟩

/-- The car of C92 with an adapter that prints 13.75v on request: the response is exactly that, a quarter being a binary fraction. -/
def quarterCar : Device := demo (("ATRV", "13.75v") :: table)
def quarterObd : OW := (construct quarterCar pyFloat ["COM1".toList] none true {}).2

/-- The response to a query of the voltage and the last thing read, on this car and on one whose adapter says STOPPED. -/
example : status quarterObd = .carConnected ∧
    (byName "ELM_VOLTAGE").map (fun c => (match (query quarterCar pyFloat c false quarterObd).1 with | .ok r => r.value | _ => .none,
      (query quarterCar pyFloat c false quarterObd).2.hist.getLast?)) =
      some (.fqty (.fin 13.75) "volt", some (.read (some (ascii "13.75v\r\r>")))) ∧
    pyFloat "stopped".toList = none ∧ 'P' ∈ noNumber ∧ NotHex "STOPPED".toList := by decide +kernel

/-- Numbers as CPython reads them. -/
example : pyFloat " 1_2.5e-1 ".toList = some (.fin 1.25) ∧ pyFloat "-INF".toList = some .negInf ∧ pyFloat "1__2".toList = none ∧ pyFloat ".".toList = none ∧
    pyFloat "1e400".toList = some .inf ∧ pyFloat "1e-400".toList = some (.fin 0) ∧ pyFloat "1e".toList = none := by decide +kernel

end Props
