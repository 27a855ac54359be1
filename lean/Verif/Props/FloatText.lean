import Verif.Spec.FloatGrammar
import Verif.Lemmas.Binary64
import Verif.Props.Volts
/-!
# C100: `float()` of any text

The model of CPython's `float` accepts exactly the strings of the documented grammar and gives the nearest binary64 number.
-/
namespace Props
open Py Model Spec ObdM Lemmas

/-! ## Digits and underscores -/

theorem decDigit_iff (c : Char) : decDigit c = true ↔ ∃ d : Fin 10, decimalChar d = c := by
  constructor
  · intro h
    have h' : 48 ≤ c.toNat ∧ c.toNat ≤ 57 := by
      unfold decDigit at h
      simp only [Bool.and_eq_true, decide_eq_true_eq] at h
      exact ⟨h.1, h.2⟩
    have hc : c = Char.ofNat c.toNat := by simp
    have : ∀ n, 48 ≤ n ∧ n ≤ 57 → ∃ d : Fin 10, decimalChar d = Char.ofNat n := by
      intro n hn
      have hall : ∀ k : Fin 10, ∃ d : Fin 10, decimalChar d = Char.ofNat (48 + k.val) := by decide
      have := hall ⟨n - 48, by omega⟩
      simpa [show 48 + (n - 48) = n by omega] using this
    rw [hc]
    exact this _ h'
  · rintro ⟨d, rfl⟩
    exact (decimalChar_facts d).1

theorem under_digit : decDigit '_' = false := by decide

/-- After a leading non-digit, nothing changes. -/
theorem under_cons {c : Char} {s : Str} (h : underscoresOk (c :: s) = true) : c ≠ '_' ∧
    ((∀ t, s ≠ '_' :: t) → underscoresOk s = true) ∧ (decDigit c = false → ∀ t, s ≠ '_' :: t) ∧
    (∀ t, s = '_' :: t → ∃ b u, t = b :: u ∧ decDigit b = true ∧ underscoresOk t = true) := by
  unfold underscoresOk at h
  split at h
  · next heq => cases heq
  · cases h
  · next x hx heq =>
    injection heq with h1 h2
    subst h1 h2
    exact ⟨fun hc => hx hc, fun _ => rfl, fun _ t ht => (by cases ht), fun t ht => (by cases ht)⟩
  · next a b u hx heq =>
    injection heq with h1 h2
    subst h1 h2
    simp only [Bool.and_eq_true] at h
    refine ⟨fun hc => hx hc, fun hne => absurd rfl (hne _), fun hd => ?_, fun t ht => ?_⟩
    · rw [h.1.1] at hd; cases hd
    · injection ht with _ ht
      subst ht
      exact ⟨b, u, rfl, h.1.2, h.2⟩
  · cases h
  · next a b u hx h2 h3 heq =>
    injection heq with h4 h5
    subst h4 h5
    have hb : b ≠ '_' := by
      rintro rfl
      cases u with
      | nil => exact h3 rfl rfl
      | cons x u => exact h2 _ _ rfl rfl
    exact ⟨fun hc => hx hc, fun _ => h, fun _ t ht => (by injection ht with ht; exact hb ht), fun t ht => (by injection ht with ht; exact absurd ht hb)⟩

theorem under_nondigit {c : Char} {s : Str} (hc : c ≠ '_') (h : underscoresOk s = true) : underscoresOk (c :: s) = true := by
  cases s with
  | nil =>
    rw [underscoresOk]
    intro h; exact hc h
  | cons b s =>
    have hb := (under_cons h).1
    rw [underscoresOk]
    · exact h
    all_goals intros; simp_all

theorem under_digit_cons {a b : Char} {s : Str} (ha : decDigit a = true) (hb : decDigit b = true) (h : underscoresOk (b :: s) = true) :
    underscoresOk (a :: '_' :: b :: s) = true := by
  rw [underscoresOk]
  · simp [ha, hb, h]
  · intro hc
    rw [hc] at ha
    exact absurd ha (by decide)

theorem digitPart_facts {p : Str} {ds : List (Fin 10)} (h : DigitPart p ds) :
    (∃ d t, p = decimalChar d :: t) ∧ ds ≠ [] ∧ p.filter (fun c => c != '_') = ds.map decimalChar ∧ (∀ c ∈ p, cSpace c = false) ∧
    ∀ r, underscoresOk r = true → underscoresOk (p ++ r) = true := by
  induction h with
  | last d =>
    obtain ⟨-, -, f3, f4, -⟩ := decimalChar_facts d
    exact ⟨⟨d, [], rfl⟩, by simp, by simp [f4], by simpa using f3, fun r hr => under_nondigit f4 hr⟩
  | digit d _ ih =>
    obtain ⟨-, -, f3, f4, -⟩ := decimalChar_facts d
    obtain ⟨-, -, h3, h4, h5⟩ := ih
    refine ⟨⟨d, _, rfl⟩, by simp, by simp [f4, h3], ?_, fun r hr => under_nondigit f4 (h5 r hr)⟩
    intro c hc
    rcases List.mem_cons.1 hc with rfl | hc
    · exact f3
    · exact h4 c hc
  | underscore d _ ih =>
    obtain ⟨f1, -, f3, f4, -⟩ := decimalChar_facts d
    obtain ⟨⟨d', t, rfl⟩, -, h3, h4, h5⟩ := ih
    refine ⟨⟨d, _, rfl⟩, by simp, by rw [List.filter_cons_of_pos (by simpa using f4), List.filter_cons_of_neg (by simp), h3]; rfl, ?_, fun r hr => ?_⟩
    · intro c hc
      rcases List.mem_cons.1 hc with rfl | hc
      · exact f3
      · rcases List.mem_cons.1 hc with rfl | hc
        · decide
        · exact h4 c hc
    · exact under_digit_cons f1 (decimalChar_facts d').1 (h5 r hr)

/-- The digits at the front of a string with well-placed underscores. -/
theorem front_digits : ∀ (n : Nat) (t : Str), t.length ≤ n → underscoresOk t = true → ∀ c u, t = c :: u → decDigit c = true →
    ∃ p ds r, t = p ++ r ∧ DigitPart p ds ∧ underscoresOk r = true ∧ (∀ x v, r = x :: v → decDigit x = false)
  | 0, t, hn, _, c, u, hcu, _ => by subst hcu; simp at hn
  | n + 1, t, hn, h, c, u, hcu, hd => by
    subst hcu
    obtain ⟨h1, h2, h3, h4⟩ := under_cons h
    obtain ⟨d, rfl⟩ := (decDigit_iff c).1 hd
    simp only [List.length_cons] at hn
    cases u with
    | nil => exact ⟨[decimalChar d], [d], [], rfl, .last d, rfl, fun x v hx => by cases hx⟩
    | cons b u =>
      by_cases hb : b = '_'
      · subst hb
        obtain ⟨b', u', rfl, hb', hok⟩ := h4 u rfl
        obtain ⟨p, ds, r, e1, e2, e3, e4⟩ := front_digits n (b' :: u') (by simp at hn ⊢; omega) hok b' u' rfl hb'
        exact ⟨decimalChar d :: '_' :: p, d :: ds, r, by rw [e1]; rfl, .underscore d e2, e3, e4⟩
      · have hok := h2 (fun t ht => by injection ht with ht; exact hb ht)
        by_cases hb' : decDigit b = true
        · obtain ⟨p, ds, r, e1, e2, e3, e4⟩ := front_digits n (b :: u) (by simpa using hn) hok b u rfl hb'
          exact ⟨decimalChar d :: p, d :: ds, r, by rw [e1]; rfl, .digit d e2, e3, e4⟩
        · exact ⟨[decimalChar d], [d], b :: u, rfl, .last d, hok, fun x v hx => by injection hx with hx; subst hx; simpa using hb'⟩

/-- Digits, possibly none, at the front. -/
theorem front (t : Str) (h : underscoresOk t = true) : ∃ p ds r, t = p ++ r ∧ (DigitPart p ds ∨ (p = [] ∧ ds = [])) ∧ underscoresOk r = true ∧
    (∀ x v, r = x :: v → decDigit x = false ∧ x ≠ '_') ∧ p.filter (fun c => c != '_') = ds.map decimalChar := by
  have head : ∀ r : Str, underscoresOk r = true → (∀ x v, r = x :: v → decDigit x = false) → ∀ x v, r = x :: v → decDigit x = false ∧ x ≠ '_' := by
    intro r hr h x v hx
    refine ⟨h x v hx, ?_⟩
    subst hx
    exact (under_cons hr).1
  cases t with
  | nil => exact ⟨[], [], [], rfl, Or.inr ⟨rfl, rfl⟩, rfl, (fun x v hx => by cases hx), rfl⟩
  | cons c u =>
    by_cases hd : decDigit c = true
    · obtain ⟨p, ds, r, e1, e2, e3, e4⟩ := front_digits _ (c :: u) (le_refl _) h c u rfl hd
      exact ⟨p, ds, r, e1, Or.inl e2, e3, head r e3 e4, (digitPart_facts e2).2.2.1⟩
    · exact ⟨[], [], c :: u, rfl, Or.inr ⟨rfl, rfl⟩, h, head _ h (fun x v hx => by injection hx with hx; subst hx; simpa using hd), rfl⟩

theorem filter_head {x : Char} {v : Str} (hx : x ≠ '_') : (x :: v).filter (fun c => c != '_') = x :: v.filter (fun c => c != '_') := by
  rw [List.filter_cons_of_pos (by simpa using hx)]

/-- If a string with well-placed underscores has one, it has a digit. -/
theorem under_mem : ∀ t : Str, underscoresOk t = true → '_' ∈ t → ∃ c ∈ t, decDigit c = true
  | [], _, h => by cases h
  | c :: u, h, hm => by
    obtain ⟨h1, h2, h3, h4⟩ := under_cons h
    by_cases hd : decDigit c = true
    · exact ⟨c, by simp, hd⟩
    · have hne := h3 (by simpa using hd)
      have hm' : '_' ∈ u := by
        rcases List.mem_cons.1 hm with h | h
        · exact absurd h.symm h1
        · exact h
      obtain ⟨x, hx, hxd⟩ := under_mem u (h2 hne) hm'
      exact ⟨x, List.mem_cons_of_mem _ hx, hxd⟩

/-! ## Signs and exponents -/

theorem takeSign_other {c : Char} {s : Str} (h1 : c ≠ '-') (h2 : c ≠ '+') : takeSign (c :: s) = (false, c :: s) := by
  unfold takeSign
  split
  · rename_i h; injection h with h; exact absurd h h1
  · rename_i h; injection h with h; exact absurd h h2
  · rfl

theorem sign_text {sg : Str} {neg : Bool} (h : SignText sg neg) {s : Str} (hs : ∀ c t, s = c :: t → c ≠ '-' ∧ c ≠ '+') :
    takeSign (sg ++ s) = (neg, s) ∧ (∀ c ∈ sg, c ≠ '_' ∧ cSpace c = false) := by
  cases h with
  | none =>
    refine ⟨?_, by simp⟩
    cases s with
    | nil => rfl
    | cons c s => exact takeSign_other (hs c s rfl).1 (hs c s rfl).2
  | plus => exact ⟨rfl, by decide⟩
  | minus => exact ⟨rfl, by decide⟩

/-- The sign of a string with well-placed underscores. -/
theorem raw_sign (t : Str) (h : underscoresOk t = true) : ∃ sg t1 neg, t = sg ++ t1 ∧ SignText sg neg ∧ underscoresOk t1 = true ∧
    takeSign (t.filter (fun c => c != '_')) = (neg, t1.filter (fun c => c != '_')) := by
  cases t with
  | nil => exact ⟨[], [], false, rfl, .none, rfl, rfl⟩
  | cons c u =>
    obtain ⟨h1, h2, h3, h4⟩ := under_cons h
    by_cases hm : c = '-'
    · subst hm
      exact ⟨['-'], u, true, rfl, .minus, h2 (h3 (by decide)), by rw [filter_head h1]; rfl⟩
    · by_cases hp : c = '+'
      · subst hp
        exact ⟨['+'], u, false, rfl, .plus, h2 (h3 (by decide)), by rw [filter_head h1]; rfl⟩
      · exact ⟨[], c :: u, false, rfl, .none, h, by rw [filter_head h1, takeSign_other hm hp]⟩

theorem all_digits (v : Str) (h : underscoresOk v = true) (hne : v.filter (fun c => c != '_') ≠ []) (hall : (v.filter (fun c => c != '_')).all decDigit = true) :
    ∃ ds, DigitPart v ds ∧ v.filter (fun c => c != '_') = ds.map decimalChar := by
  obtain ⟨p, ds, r, e1, e2, e3, e4, e5⟩ := front v h
  have hr : r = [] := by
    cases r with
    | nil => rfl
    | cons x w =>
      obtain ⟨f1, f2⟩ := e4 x w rfl
      have hx : x ∈ v.filter (fun c => c != '_') := List.mem_filter.2 ⟨by rw [e1]; simp, by simpa using f2⟩
      have := List.all_eq_true.1 hall x hx
      rw [f1] at this; cases this
  subst hr
  rw [List.append_nil] at e1
  subst e1
  rcases e2 with e2 | ⟨rfl, rfl⟩
  · exact ⟨ds, e2, e5⟩
  · exact absurd rfl hne

theorem pow10_eq (k : ℤ) : pow10 k = (10 : ℚ) ^ k := by
  unfold pow10
  split
  · next h =>
    obtain ⟨n, rfl⟩ := Int.eq_ofNat_of_zero_le h
    simp
  · next h =>
    obtain ⟨n, hn⟩ := Int.eq_ofNat_of_zero_le (show 0 ≤ -k by omega)
    have : k = -(n : ℤ) := by omega
    subst this
    simp

theorem pow10_signed (neg : Bool) (n : ℕ) : pow10 (if neg then -(n : ℤ) else n) = if neg then 1 / 10 ^ n else 10 ^ n := by
  rw [pow10_eq]
  cases neg <;> simp

theorem exponent_of (r : Str) (h : underscoresOk r = true) (e : ℤ) (he : floatExponent (r.filter (fun c => c != '_')) = some e) :
    ExponentText r (pow10 e) := by
  cases r with
  | nil =>
    injection he with he
    subst he
    exact .none
  | cons c u =>
    obtain ⟨h1, h2, h3, h4⟩ := under_cons h
    rw [filter_head h1] at he
    simp only [floatExponent] at he
    split at he
    · next hce =>
      have hd : decDigit c = false := by rcases hce with rfl | rfl <;> decide
      obtain ⟨sg, v, neg, rfl, g2, g3, g4⟩ := raw_sign u (h2 (h3 hd))
      rw [g4] at he
      simp only at he
      split at he
      · next hds =>
        obtain ⟨ds, k1, k2⟩ := all_digits v g3 hds.1 hds.2
        injection he with he
        subst he
        rw [pow10_signed, k2]
        exact .power hce g2 k1 (digitsVal_map ds)
      · cases he
    · cases he

theorem exponent_facts {r : Str} {p : ℚ} (h : ExponentText r p) : underscoresOk r = true ∧ (∀ c ∈ r, cSpace c = false) ∧
    (∃ e, floatExponent (r.filter (fun c => c != '_')) = some e ∧ pow10 e = p) ∧ ∀ c t, r = c :: t → (c = 'e' ∨ c = 'E') := by
  cases h with
  | none => exact ⟨rfl, by simp, ⟨0, rfl, rfl⟩, fun c t hc => by cases hc⟩
  | @power c sg s neg ds n hce hsg hd hn =>
    obtain ⟨⟨d, t, ht⟩, d2, d3, d4, d5⟩ := digitPart_facts hd
    have hs : ∀ c u, s = c :: u → c ≠ '-' ∧ c ≠ '+' := by
      intro c u hu
      rw [ht] at hu
      injection hu with hu
      subst hu
      exact ⟨(decimalChar_facts d).2.2.2.2.1, (decimalChar_facts d).2.2.2.2.2.1⟩
    obtain ⟨-, s2⟩ := sign_text hsg hs
    have hc : c ≠ '_' ∧ cSpace c = false := by rcases hce with rfl | rfl <;> decide
    have hok : underscoresOk (sg ++ s) = true := by
      have := d5 [] rfl
      rw [List.append_nil] at this
      cases hsg with
      | none => exact this
      | plus => exact under_nondigit (by decide) this
      | minus => exact under_nondigit (by decide) this
    refine ⟨under_nondigit hc.1 hok, ?_, ?_, fun x t hx => by injection hx with hx; exact hx ▸ hce⟩
    · intro x hx
      rcases List.mem_cons.1 hx with rfl | hx
      · exact hc.2
      · rcases List.mem_append.1 hx with hx | hx
        · exact (s2 x hx).2
        · exact d4 x hx
    · have hf : sg.filter (fun c => c != '_') = sg := List.filter_eq_self.2 (fun c hc => by simpa using (s2 c hc).1)
      have hsn := (sign_text (s := ds.map decimalChar) hsg (by
        intro c u hu
        cases ds with
        | nil => cases hu
        | cons d ds =>
          injection hu with hu
          subst hu
          exact ⟨(decimalChar_facts d).2.2.2.2.1, (decimalChar_facts d).2.2.2.2.2.1⟩)).1
      refine ⟨_, ?_, pow10_signed neg n⟩
      rw [filter_head hc.1, List.filter_append, hf, d3]
      simp only [floatExponent]
      rw [if_pos hce, hsn]
      simp only
      rw [if_pos]
      · have : digitsVal (ds.map decimalChar) = n := by
          have h1 := digitsVal_map ds
          rw [← hn] at h1
          exact_mod_cast h1
        rw [this]
      · refine ⟨by simpa using d2, ?_⟩
        rw [List.all_eq_true]
        intro x hx
        obtain ⟨d, -, rfl⟩ := List.mem_map.1 hx
        exact (decimalChar_facts d).1

/-! ## Numbers -/

theorem number_value (a b : List (Fin 10)) (e : ℤ) :
    ((digitsVal (a.map decimalChar ++ b.map decimalChar) : Nat) : ℚ) * pow10 (e - ((b.map decimalChar).length : ℤ)) = (wholePart a + fractionPart b) * pow10 e := by
  rw [← List.map_append, digitsVal_map, wholePart_append, List.length_map, pow10_eq, pow10_eq, zpow_sub₀ (by norm_num), zpow_natCast]
  field_simp

theorem value_nonneg (a b : List (Fin 10)) (e : ℤ) : 0 ≤ (wholePart a + fractionPart b) * pow10 e := by
  obtain ⟨h1, h2⟩ := parts_nonneg a b
  rw [pow10_eq]
  positivity

theorem number_facts {s : Str} {a b : List (Fin 10)} (h : NumberText s a b) : (a ≠ [] ∨ b ≠ []) ∧ (∀ c ∈ s, cSpace c = false) ∧
    (∀ r, underscoresOk r = true → underscoresOk (s ++ r) = true) ∧ (∃ c t, s = c :: t ∧ c ≠ '-' ∧ c ≠ '+' ∧ c ≠ '_') ∧
    ((s.filter (fun c => c != '_') = a.map decimalChar ∧ b = []) ∨ s.filter (fun c => c != '_') = a.map decimalChar ++ '.' :: b.map decimalChar) := by
  have hdig : ∀ d, decimalChar d ≠ '-' ∧ decimalChar d ≠ '+' ∧ decimalChar d ≠ '_' :=
    fun d => ⟨(decimalChar_facts d).2.2.2.2.1, (decimalChar_facts d).2.2.2.2.2.1, (decimalChar_facts d).2.2.2.1⟩
  cases h with
  | whole hd =>
    obtain ⟨⟨d, t, rfl⟩, d2, d3, d4, d5⟩ := digitPart_facts hd
    exact ⟨Or.inl d2, d4, d5, ⟨_, _, rfl, hdig d⟩, Or.inl ⟨d3, rfl⟩⟩
  | point hd =>
    obtain ⟨⟨d, t, rfl⟩, d2, d3, d4, d5⟩ := digitPart_facts hd
    refine ⟨Or.inl d2, ?_, fun r hr => ?_, ⟨_, _, rfl, hdig d⟩, Or.inr ?_⟩
    · intro c hc
      rcases List.mem_append.1 hc with hc | hc
      · exact d4 c hc
      · rw [List.mem_singleton.1 hc]; decide
    · rw [List.append_assoc]
      exact d5 _ (under_nondigit (by decide) hr)
    · rw [List.filter_append, d3]; rfl
  | @both s t a b hd he =>
    obtain ⟨⟨d, u, rfl⟩, d2, d3, d4, d5⟩ := digitPart_facts hd
    obtain ⟨-, e2, e3, e4, e5⟩ := digitPart_facts he
    refine ⟨Or.inl d2, ?_, fun r hr => ?_, ⟨_, _, rfl, hdig d⟩, Or.inr ?_⟩
    · intro c hc
      rcases List.mem_append.1 hc with hc | hc
      · exact d4 c hc
      · rcases List.mem_cons.1 hc with rfl | hc
        · decide
        · exact e4 c hc
    · rw [List.append_assoc, List.cons_append]
      exact d5 _ (under_nondigit (by decide) (e5 r hr))
    · rw [List.filter_append, d3, filter_head (by decide), e3]
  | @fraction t b he =>
    obtain ⟨-, e2, e3, e4, e5⟩ := digitPart_facts he
    refine ⟨Or.inr e2, ?_, fun r hr => under_nondigit (by decide) (e5 r hr), ⟨_, _, rfl, by decide⟩, Or.inr ?_⟩
    · intro c hc
      rcases List.mem_cons.1 hc with rfl | hc
      · decide
      · exact e4 c hc
    · rw [filter_head (by decide), e3]; rfl

/-- The digits after the point, if there is one, and the rest. -/
def afterWhole (s2 : Str) : Str × Str :=
  match s2 with
    | '.' :: t => t.span decDigit
    | _ => ([], s2)

/-- What follows the sign. -/
def afterSign (neg : Bool) (s1 : Str) : Option PyFloat :=
  let (a, s2) := s1.span decDigit
  let (b, s3) := afterWhole s2
  if a = [] ∧ b = [] then infOrNan neg s1
  else match floatExponent s3 with
    | some e => some (round64 neg ((digitsVal (a ++ b) : Rat) * pow10 (e - b.length)))
    | none => none

theorem bareFloat_eq (s : Str) : bareFloat s = afterSign (takeSign s).1 (takeSign s).2 := rfl

theorem after_point (neg : Bool) (a b : List (Fin 10)) (r : Str) (hr : ∀ c t, r = c :: t → decDigit c = false) :
    afterSign neg (a.map decimalChar ++ '.' :: (b.map decimalChar ++ r)) =
      if a = [] ∧ b = [] then infOrNan neg ('.' :: r)
      else (floatExponent r).map (fun e => round64 neg ((wholePart a + fractionPart b) * pow10 e)) := by
  unfold afterSign
  rw [span_digits a _ (by intro c t h; injection h with h; subst h; decide)]
  simp only [afterWhole]
  rw [span_digits b r hr]
  simp only [List.map_eq_nil_iff]
  split
  · next h =>
    obtain ⟨rfl, rfl⟩ := h
    rfl
  · cases floatExponent r with
    | none => rfl
    | some e => simp only [Option.map_some, number_value]

theorem after_plain (neg : Bool) (a : List (Fin 10)) (r : Str) (hr : ∀ c t, r = c :: t → decDigit c = false ∧ c ≠ '.') :
    afterSign neg (a.map decimalChar ++ r) =
      if a = [] then infOrNan neg r else (floatExponent r).map (fun e => round64 neg ((wholePart a + fractionPart []) * pow10 e)) := by
  unfold afterSign
  rw [span_digits a _ (fun c t h => (hr c t h).1)]
  have hm : ∀ r : Str, (∀ c t, r = c :: t → c ≠ '.') → afterWhole r = ([], r) := by
    intro r h
    unfold afterWhole
    split
    · exact absurd rfl (h _ _ rfl)
    · rfl
  simp only
  rw [hm r (fun c t h => (hr c t h).2)]
  simp only [List.map_eq_nil_iff, and_true]
  split
  · next h =>
    subst h
    rfl
  · cases floatExponent r with
    | none => rfl
    | some e =>
      have := number_value a [] e
      simp only [List.map_nil] at this
      simp only [Option.map_some, this]

theorem head_filter {r : Str} {P : Char → Prop} (h : ∀ c t, r = c :: t → c ≠ '_' ∧ P c) : ∀ c t, r.filter (fun c => c != '_') = c :: t → P c := by
  intro c t hc
  cases r with
  | nil => cases hc
  | cons x u =>
    obtain ⟨h1, h2⟩ := h x u rfl
    rw [filter_head h1] at hc
    injection hc with hc
    exact hc ▸ h2

/-! ## White space -/

theorem blank_iff (c : Char) : Blank c ↔ cSpace c = true := by
  unfold Blank cSpace
  constructor
  · intro h
    simp only [List.mem_cons, List.not_mem_nil, or_false] at h
    rcases h with rfl | rfl | rfl | rfl | rfl | rfl <;> decide
  · intro h
    simp only [Bool.or_eq_true, Bool.and_eq_true, decide_eq_true_eq] at h
    rcases h with rfl | h
    · decide
    · have hc : c = Char.ofNat c.toNat := by simp
      rw [hc]
      generalize c.toNat = n at h
      have : ∀ k : Fin 5, Char.ofNat (9 + k.val) ∈ [' ', '\t', '\n', '\r', Char.ofNat 11, Char.ofNat 12] := by decide
      have := this ⟨n - 9, by omega⟩
      simpa [show 9 + (n - 9) = n by omega] using this

/-- `strip()` -/
def stripped (s : Str) : Str := ((s.dropWhile cSpace).reverse.dropWhile cSpace).reverse

theorem stripped_parts (s : Str) : ∃ w1 w2, s = w1 ++ stripped s ++ w2 ∧ (∀ c ∈ w1, Blank c) ∧ ∀ c ∈ w2, Blank c := by
  refine ⟨s.takeWhile cSpace, ((s.dropWhile cSpace).reverse.takeWhile cSpace).reverse, ?_, fun c hc => ?_, fun c hc => ?_⟩
  · unfold stripped
    rw [List.append_assoc, ← List.reverse_append, List.takeWhile_append_dropWhile, List.reverse_reverse, List.takeWhile_append_dropWhile]
  · rw [blank_iff]
    exact List.all_eq_true.1 (List.all_takeWhile (l := s) (p := cSpace)) c hc
  · rw [blank_iff]
    exact List.all_eq_true.1 (List.all_takeWhile (l := (s.dropWhile cSpace).reverse) (p := cSpace)) c (List.mem_reverse.1 hc)

theorem stripped_of {w1 body w2 : Str} (h1 : ∀ c ∈ w1, Blank c) (h2 : ∀ c ∈ w2, Blank c) (hb : ∀ c ∈ body, cSpace c = false) (hne : body ≠ []) :
    stripped (w1 ++ body ++ w2) = body := by
  have drop : ∀ (w b r : Str), (∀ c ∈ w, Blank c) → (∀ c ∈ b, cSpace c = false) → b ≠ [] → (w ++ b ++ r).dropWhile cSpace = b ++ r := by
    intro w b r hw hb hne
    rw [List.append_assoc, List.dropWhile_append_of_pos (fun c hc => (blank_iff c).1 (hw c hc))]
    cases b with
    | nil => exact absurd rfl hne
    | cons c b => rw [List.cons_append, List.dropWhile_cons_of_neg]; simp [hb c (by simp)]
  unfold stripped
  rw [drop w1 body w2 h1 hb hne, List.reverse_append]
  have := drop w2.reverse body.reverse [] (fun c hc => h2 c (List.mem_reverse.1 hc)) (fun c hc => hb c (List.mem_reverse.1 hc)) (by simpa using hne)
  rw [List.append_nil, List.append_nil] at this
  rw [this, List.reverse_reverse]

/-! ## The grammar -/

theorem letter {c : Char} (h : (if 'A' ≤ c ∧ c ≤ 'Z' then Char.ofNat (c.toNat + 32) else c) ∈ "infinitynan".toList) :
    cSpace c = false ∧ decDigit c = false ∧ c ≠ '_' ∧ c ≠ '-' ∧ c ≠ '+' ∧ c ≠ '.' := by
  refine ⟨?_, ?_, ?_, ?_, ?_, ?_⟩
  · by_contra hc
    have hb := (blank_iff c).2 (by simpa using hc)
    unfold Blank at hb
    simp only [List.mem_cons, List.not_mem_nil, or_false] at hb
    revert h
    rcases hb with rfl | rfl | rfl | rfl | rfl | rfl <;> decide
  · by_contra hc
    obtain ⟨d, rfl⟩ := (decDigit_iff c).1 (by simpa using hc)
    revert h
    revert d
    decide
  all_goals
    rintro rfl
    revert h
    decide

theorem letters {neg : Bool} {m : Str} {f : PyFloat} {w : Str} (h : lower m = w) (hne : w ≠ []) (hsub : w ⊆ "infinitynan".toList) (hf : infOrNan neg m = some f) :
    m ≠ [] ∧ (∀ c ∈ m, cSpace c = false) ∧ underscoresOk m = true ∧
    (∀ c t, m = c :: t → c ≠ '_' ∧ (c ≠ '-' ∧ c ≠ '+')) ∧ afterSign neg (m.filter (fun c => c != '_')) = some f := by
  have hl : ∀ c ∈ m, cSpace c = false ∧ decDigit c = false ∧ c ≠ '_' ∧ c ≠ '-' ∧ c ≠ '+' ∧ c ≠ '.' := by
    intro c hc
    apply letter
    apply hsub
    rw [← h]
    unfold lower
    exact List.mem_map.2 ⟨c, hc, rfl⟩
  have hfil : m.filter (fun c => c != '_') = m := List.filter_eq_self.2 (fun c hc => by simpa using (hl c hc).2.2.1)
  refine ⟨?_, fun c hc => (hl c hc).1, underscoresOk_of m (fun hc => (hl _ hc).2.2.1 rfl), ?_, ?_⟩
  · rintro rfl
    exact hne h.symm
  · rintro c t rfl
    have := hl c (by simp)
    exact ⟨this.2.2.1, this.2.2.2.1, this.2.2.2.2.1⟩
  · rw [hfil]
    have := after_plain neg [] m (by
      rintro c t rfl
      have := hl c (by simp)
      exact ⟨this.2.1, this.2.2.2.2.2⟩)
    rw [List.map_nil, List.nil_append, if_pos rfl] at this
    rw [this, hf]

theorem grammar_magnitude {neg : Bool} {m : Str} {f : PyFloat} (h : Magnitude neg m f) : m ≠ [] ∧ (∀ c ∈ m, cSpace c = false) ∧ underscoresOk m = true ∧
    (∀ c t, m = c :: t → c ≠ '_' ∧ (c ≠ '-' ∧ c ≠ '+')) ∧ afterSign neg (m.filter (fun c => c != '_')) = some f := by
  cases h with
  | @number s t a b p f hn he hf =>
    obtain ⟨n1, n2, n3, ⟨c, u, rfl, n4, n5, n6⟩, n7⟩ := number_facts hn
    obtain ⟨e1, e2, ⟨e, e3, rfl⟩, e4⟩ := exponent_facts he
    refine ⟨by simp, ?_, n3 t e1, fun x v hx => by injection hx with hx; subst hx; exact ⟨n6, n4, n5⟩, ?_⟩
    · intro x hx
      rcases List.mem_append.1 hx with hx | hx
      · exact n2 x hx
      · exact e2 x hx
    · have hr : ∀ x v, t.filter (fun c => c != '_') = x :: v → decDigit x = false ∧ x ≠ '.' :=
        head_filter (fun x v hx => by rcases e4 x v hx with rfl | rfl <;> decide)
      have hround : round64 neg ((wholePart a + fractionPart b) * pow10 e) = f := (round64_nearest neg _ (value_nonneg a b e) f).2 hf
      rw [List.filter_append]
      rcases n7 with ⟨n7, rfl⟩ | n7
      · rw [n7, after_plain neg a _ hr, if_neg (by rcases n1 with h | h; exacts [h, absurd rfl h]), e3, Option.map_some, hround]
      · rw [n7, List.append_assoc, List.cons_append, after_point neg a b _ (fun x v hx => (hr x v hx).1), if_neg, e3, Option.map_some, hround]
        rintro ⟨h1, h2⟩
        rcases n1 with h | h
        · exact h h1
        · exact h h2
  | infinity h =>
    rcases h with h | h
    · refine letters h (by decide) (by decide) ?_
      unfold infOrNan
      have h' : lower m = "inf".toList := h
      rw [if_pos (Or.inl h')]
    · refine letters h (by decide) (by decide) ?_
      unfold infOrNan
      have h' : lower m = "infinity".toList := h
      rw [if_pos (Or.inr h')]
  | nan h =>
    refine letters h (by decide) (by decide) ?_
    unfold infOrNan
    have h' : lower m = "nan".toList := h
    rw [h', if_neg (by decide), if_pos rfl]

theorem infOrNan_inv {neg : Bool} {m : Str} {f : PyFloat} (h : infOrNan neg m = some f) : Magnitude neg m f ∧ ∀ c ∈ m, decDigit c = false := by
  unfold infOrNan at h
  have hdig : ∀ w : Str, lower m = w → w ⊆ "infinitynan".toList → ∀ c ∈ m, decDigit c = false := by
    intro w hw hsub c hc
    refine (letter (hsub ?_)).2.1
    rw [← hw]
    unfold lower
    exact List.mem_map.2 ⟨c, hc, rfl⟩
  split at h
  · next hi =>
    injection h with h
    subst h
    refine ⟨.infinity hi, ?_⟩
    rcases hi with hi | hi
    · exact hdig _ hi (by decide)
    · exact hdig _ hi (by decide)
  · split at h
    · next hn =>
      injection h with h
      subst h
      exact ⟨.nan hn, hdig _ hn (by decide)⟩
    · cases h

/-- Text with well-placed underscores that is read as infinity or NaN has none. -/
theorem infOrNan_raw {neg : Bool} {m : Str} {f : PyFloat} (hu : underscoresOk m = true) (h : infOrNan neg (m.filter (fun c => c != '_')) = some f) :
    Magnitude neg m f := by
  obtain ⟨h1, h2⟩ := infOrNan_inv h
  have hno : '_' ∉ m := by
    intro hm
    obtain ⟨c, hc, hd⟩ := under_mem m hu hm
    have := h2 c (List.mem_filter.2 ⟨hc, by
      simp only [bne_iff_ne, ne_eq]
      rintro rfl
      exact absurd hd (by decide)⟩)
    rw [this] at hd; cases hd
  have hfil : m.filter (fun c => c != '_') = m := List.filter_eq_self.2 (fun c hc => by
    simp only [bne_iff_ne, ne_eq]
    rintro rfl
    exact hno hc)
  rwa [hfil] at h1

theorem magnitude_of {neg : Bool} {t1 : Str} {f : PyFloat} (hu : underscoresOk t1 = true) (h : afterSign neg (t1.filter (fun c => c != '_')) = some f) :
    Magnitude neg t1 f := by
  obtain ⟨p, a, r, rfl, g2, g3, g4, g5⟩ := front t1 hu
  by_cases hdot : ∃ r1, r = '.' :: r1
  · obtain ⟨r1, rfl⟩ := hdot
    obtain ⟨-, u2, u3, -⟩ := under_cons g3
    have hu1 := u2 (u3 (by decide))
    obtain ⟨p2, b, r2, rfl, k2, k3, k4, k5⟩ := front r1 hu1
    have hfil : (p ++ '.' :: (p2 ++ r2)).filter (fun c => c != '_') = a.map decimalChar ++ '.' :: (b.map decimalChar ++ r2.filter (fun c => c != '_')) := by
      rw [List.filter_append, g5, filter_head (by decide), List.filter_append, k5]
    rw [hfil, after_point neg a b _ (head_filter (P := fun x => decDigit x = false) (fun x v hx => ⟨(k4 x v hx).2, (k4 x v hx).1⟩))] at h
    split at h
    · next hab =>
      obtain ⟨rfl, rfl⟩ := hab
      refine infOrNan_raw hu ?_
      rw [hfil]
      exact h
    · next hab =>
      cases he : floatExponent (r2.filter (fun c => c != '_')) with
      | none => rw [he] at h; cases h
      | some e =>
        rw [he, Option.map_some] at h
        injection h with h
        have hnum : NumberText (p ++ '.' :: p2) a b := by
          rcases g2 with g2 | ⟨rfl, rfl⟩
          · rcases k2 with k2 | ⟨rfl, rfl⟩
            · exact .both g2 k2
            · exact .point g2
          · rcases k2 with k2 | ⟨rfl, rfl⟩
            · exact .fraction k2
            · exact absurd ⟨rfl, rfl⟩ hab
        have := Magnitude.number (neg := neg) hnum (exponent_of r2 k3 e he) ((round64_nearest neg _ (value_nonneg a b e) f).1 h)
        simpa using this
  · have hfil : (p ++ r).filter (fun c => c != '_') = a.map decimalChar ++ r.filter (fun c => c != '_') := by
      rw [List.filter_append, g5]
    rw [hfil, after_plain neg a _ (head_filter (P := fun x => decDigit x = false ∧ x ≠ '.')
      (fun x v hx => ⟨(g4 x v hx).2, (g4 x v hx).1, fun hc => hdot ⟨v, by rw [hx, hc]⟩⟩))] at h
    split at h
    · next ha =>
      subst ha
      refine infOrNan_raw hu ?_
      rw [hfil]
      exact h
    · next ha =>
      cases he : floatExponent (r.filter (fun c => c != '_')) with
      | none => rw [he] at h; cases h
      | some e =>
        rw [he, Option.map_some] at h
        injection h with h
        rcases g2 with g2 | ⟨rfl, rfl⟩
        · exact Magnitude.number (.whole g2) (exponent_of r g3 e he) ((round64_nearest neg _ (value_nonneg a [] e) f).1 h)
        · exact absurd rfl ha

/-- C100: the modelled `float()` accepts exactly the texts of the documented grammar; the result is the binary64 number nearest
to the decimal number (ties to even), or an infinity or NaN. -/
theorem C100_float (s : Str) (f : PyFloat) : pyFloat s = some f ↔ FloatText s f := by
  have hp : pyFloat s = if underscoresOk (stripped s) then bareFloat ((stripped s).filter (fun c => c != '_')) else none := rfl
  rw [hp]
  constructor
  · intro h
    split at h
    · next hu =>
      obtain ⟨w1, w2, e1, e2, e3⟩ := stripped_parts s
      obtain ⟨sg, t1, neg, g1, g2, g3, g4⟩ := raw_sign _ hu
      rw [bareFloat_eq, g4] at h
      refine ⟨w1, sg, t1, w2, neg, ?_, e2, e3, g2, magnitude_of g3 h⟩
      rw [← g1]; exact e1
    · cases h
  · rintro ⟨w1, sg, m, w2, neg, rfl, h1, h2, h3, h4⟩
    obtain ⟨m1, m2, m3, m4, m5⟩ := grammar_magnitude h4
    obtain ⟨s1, s2⟩ := sign_text (s := m) h3 (fun c t hc => (m4 c t hc).2)
    rw [stripped_of h1 h2 _ (by simp [m1])]
    · have hok : underscoresOk (sg ++ m) = true := by
        cases h3 with
        | none => exact m3
        | plus => exact under_nondigit (by decide) m3
        | minus => exact under_nondigit (by decide) m3
      rw [if_pos hok, bareFloat_eq, List.filter_append, List.filter_eq_self.2 (fun c hc => by simpa using (s2 c hc).1),
        (sign_text h3 (head_filter m4)).1]
      exact m5
    · intro c hc
      rcases List.mem_append.1 hc with hc | hc
      · exact (s2 c hc).2
      · exact m2 c hc

/-- C100: whatever the adapter prints in reply to the voltage request, the value is the number that Python reads there (the letter V aside), or
the response is null. -/
theorem C100_reading (dev : Device) (s : OW) (hr : Reachable dev pyFloat s) (hs : status s ≠ .notConnected)
    (c : OBDCommand) (hc : byName "ELM_VOLTAGE" = some c) (force : Bool) (hg : Goes s c force) (l : Str) (lines : List Str)
    (hl : JustRead (query dev pyFloat c force s).2.hist (l :: lines)) (ht : ∀ x ∈ l :: lines, NotHex x) :
    ∃ r, (query dev pyFloat c force s).1 = .ok r ∧
      (∀ f, FloatText ((lower l).filter (fun ch => ch != 'v')) f → r.value = .fqty f "volt") ∧
      ((∀ f, ¬ FloatText ((lower l).filter (fun ch => ch != 'v')) f) → r.value = .none ∧ r.isNull = true) := by
  obtain ⟨r, h1, h2, h3⟩ := C83_voltage dev pyFloat s hr hs c hc force hg l lines hl ht
  refine ⟨r, h1, fun f hf => (h2 f ((C100_float _ f).2 hf)).1, fun hno => h3 ?_⟩
  cases hv : voltageRead pyFloat l with
  | none => exact hv
  | some f => exact absurd ((C100_float _ f).1 hv) (hno f)

/-- Texts of the grammar: an underscore, a point and an exponent; a tie (rounded to even); an overflow; a word. -/
example : FloatText " -1_2.50E-1\n".toList (.fin (-1.25)) ∧ FloatText "9007199254740993".toList (.fin 9007199254740992) ∧
    FloatText "2e308".toList .inf ∧ FloatText "-iNf".toList .negInf ∧ (∀ f, ¬ FloatText "12.1.3".toList f) ∧ (∀ f, ¬ FloatText "1_".toList f) := by
  refine ⟨(C100_float _ _).1 (by decide +kernel), (C100_float _ _).1 (by decide +kernel), (C100_float _ _).1 (by decide +kernel),
    (C100_float _ _).1 (by decide +kernel), fun f hf => ?_, fun f hf => ?_⟩
  · have h := (C100_float _ _).2 hf
    rw [show pyFloat "12.1.3".toList = none by decide +kernel] at h
    cases h
  · have h := (C100_float _ _).2 hf
    rw [show pyFloat "1_".toList = none by decide +kernel] at h
    cases h

end Props
