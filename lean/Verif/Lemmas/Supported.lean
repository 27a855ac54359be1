import Verif.Spec.Supported
import Verif.Lemmas.Repeat
import Verif.Props.Commands
/-!
# Loading the supported commands
-/
namespace Model
open Py Spec

theorem eq_iff_key {a b : OBDCommand} : a.eq b = true ↔ a.key = b.key := by
  simp [OBDCommand.eq, OBDCommand.key]

theorem any_addCmd (l : List OBDCommand) (c d : OBDCommand) :
    (addCmd l c).any (fun x => x.eq d) = (l.any (fun x => x.eq d) || c.eq d) := by
  unfold addCmd
  split
  · next h =>
    cases hc : c.eq d with
    | false => simp
    | true =>
      obtain ⟨x, hx, hxe⟩ := List.any_eq_true.1 h
      have : l.any (fun x => x.eq d) = true :=
        List.any_eq_true.2 ⟨x, hx, eq_iff_key.2 ((eq_iff_key.1 hxe).trans (eq_iff_key.1 hc))⟩
      simp [this]
  · simp

/-- `commands[mode][p]`, if it is a command. -/
def lookup (mode p : Nat) : Option OBDCommand := (modes[mode]?.bind (fun m => m[p]?)).join

theorem entry_iff {mode p : Nat} {d : OBDCommand} : Entry mode p d ↔ ∃ c, lookup mode p = some c ∧ c.eq d = true := by
  unfold Entry lookup getMode idx
  cases hm : modes[mode]? with
  | none => simp
  | some row =>
    cases hr : row[p]? with
    | none => simp [hr]
    | some x => cases x <;> simp [hr]

namespace ObdM

/-- One bit of the listing. -/
def addBit (mode pid : Nat) (sup : List OBDCommand) (e : Bool × Nat) : List OBDCommand :=
  if e.1 then
    let p := pid + e.2 + 1
    let sup := match lookup mode p with
      | some c => addCmd sup c
      | none => sup
    if mode = 1 then
      match lookup 2 p with
      | some c => addCmd sup c
      | none => sup
    else sup
  else sup

theorem addSupported_eq (mode pid : Nat) (bits : List Bool) (sup : List OBDCommand) :
    addSupported mode pid bits sup = bits.zipIdx.foldl (addBit mode pid) sup := rfl

theorem any_addBit (mode pid : Nat) (sup : List OBDCommand) (e : Bool × Nat) (d : OBDCommand) :
    (addBit mode pid sup e).any (fun x => x.eq d) = true ↔ sup.any (fun x => x.eq d) = true ∨
      e.1 = true ∧ (Entry mode (pid + e.2 + 1) d ∨ mode = 1 ∧ Entry 2 (pid + e.2 + 1) d) := by
  have step : ∀ (sup : List OBDCommand) (m : Nat), (match lookup m (pid + e.2 + 1) with
      | some c => addCmd sup c
      | none => sup).any (fun x => x.eq d) = true ↔ sup.any (fun x => x.eq d) = true ∨ Entry m (pid + e.2 + 1) d := by
    intro sup m
    rw [entry_iff]
    cases h : lookup m (pid + e.2 + 1) with
    | none => simp
    | some c => simp only [any_addCmd, Bool.or_eq_true]; simp
  unfold addBit
  by_cases h1 : e.1 = true
  · rw [if_pos h1]
    simp only [h1, true_and]
    by_cases h2 : mode = 1
    · rw [if_pos h2]
      rw [step, step]
      simp only [h2, true_and, or_assoc]
    · rw [if_neg h2, step]
      simp [h2]
  · rw [if_neg h1]; simp [h1]

theorem any_addSupported (mode pid : Nat) (bits : List Bool) (sup : List OBDCommand) (d : OBDCommand) :
    (addSupported mode pid bits sup).any (fun x => x.eq d) = true ↔ sup.any (fun x => x.eq d) = true ∨
      ∃ i, bits[i]? = some true ∧ (Entry mode (pid + i + 1) d ∨ mode = 1 ∧ Entry 2 (pid + i + 1) d) := by
  rw [addSupported_eq]
  have main : ∀ (l : List (Bool × Nat)) (sup : List OBDCommand), (l.foldl (addBit mode pid) sup).any (fun x => x.eq d) = true ↔
      sup.any (fun x => x.eq d) = true ∨ ∃ e ∈ l, e.1 = true ∧ (Entry mode (pid + e.2 + 1) d ∨ mode = 1 ∧ Entry 2 (pid + e.2 + 1) d) := by
    intro l
    induction l with
    | nil => simp
    | cons e l ih =>
      intro sup
      rw [List.foldl_cons, ih, any_addBit]
      simp only [List.mem_cons, exists_eq_or_imp, or_assoc]
  rw [main]
  apply or_congr Iff.rfl
  constructor
  · rintro ⟨⟨b, i⟩, he, h1, h2⟩
    simp only at h1 h2
    subst h1
    have := List.mem_zipIdx' he
    exact ⟨i, by rw [List.getElem?_eq_getElem this.1, ← this.2], h2⟩
  · rintro ⟨i, h1, h2⟩
    refine ⟨(true, i), ?_, rfl, h2⟩
    rw [List.mem_zipIdx_iff_getElem?]
    exact h1

theorem bits_get (d : Bytes) (i : Nat) : (BitArray.ofBytes d).bits[i]? = some true ↔
    ∃ b, d[i / 8]? = some b ∧ bitOf b (7 - i % 8) = true := by
  rw [ofBytes_bits]
  by_cases h : i < 8 * d.length
  · have h1 := flatMap_bits_get d i h
    have hl : i / 8 < d.length := by omega
    rw [h1, List.getElem?_eq_getElem hl]
    simp [bitOf]
  · rw [List.getElem?_eq_none (by rw [flatMap_bits_length]; omega), List.getElem?_eq_none (by omega)]
    simp

theorem fit_get {n : Nat} (d : Bytes) (k : Nat) (b : UInt8) (hb : b ≠ 0) :
    (fit n d)[k]? = some b ↔ d[k]? = some b ∧ (n = 0 ∨ k < n) := by
  unfold fit
  by_cases hn : n = 0
  · simp [hn]
  rw [if_neg hn, List.getElem?_take]
  split
  · next h =>
    by_cases hk : k < d.length
    · rw [List.getElem?_append_left hk]; simp [h]
    · rw [List.getElem?_append_right (by omega), List.getElem?_eq_none (l := d) (by omega), List.getElem?_replicate]
      split
      · simp only [Option.some.injEq, reduceCtorEq, false_and, iff_false]; exact fun h => hb h.symm
      · simp
  · next h => simp; omega

/-- The bits that the PID decoder sees are those of the specification. -/
theorem listed_bits {c : OBDCommand} (d : Bytes) (i : Nat) :
    (BitArray.ofBytes ((fit c.bytes d).drop 2)).bits[i]? = some true ↔ BitSet c d i := by
  rw [bits_get]
  unfold BitSet
  constructor
  · rintro ⟨b, h1, h2⟩
    rw [List.getElem?_drop] at h1
    have hb : b ≠ 0 := by rintro rfl; simp [bitOf] at h2
    have := (fit_get d _ b hb).1 h1
    exact ⟨b, this.1, this.2, h2⟩
  · rintro ⟨b, h1, h2, h3⟩
    have hb : b ≠ 0 := by rintro rfl; simp [bitOf] at h3
    exact ⟨b, by rw [List.getElem?_drop]; exact (fit_get d _ b hb).2 ⟨h1, h2⟩, h3⟩

theorem first_iff {c : OBDCommand} {ms : List Message} {m : Message} :
    (ms.filter (fun m => decide (Overlap c.ecu m.ecu))).head? = some m ↔ FirstFor c ms m := by
  induction ms with
  | nil => simp [FirstFor]
  | cons x ms ih =>
    by_cases hx : Overlap c.ecu x.ecu
    · rw [List.filter_cons_of_pos (by simp [hx])]
      simp only [List.head?_cons, Option.some.injEq]
      constructor
      · rintro rfl; exact ⟨[], ms, rfl, hx, by simp⟩
      · rintro ⟨a, b, h1, h2, h3⟩
        cases a with
        | nil => simp at h1; exact h1.1
        | cons y a =>
          simp only [List.cons_append, List.cons.injEq] at h1
          exact absurd (h1.1 ▸ hx) (h3 y (by simp))
    · rw [List.filter_cons_of_neg (by simp [hx]), ih]
      constructor
      · rintro ⟨a, b, rfl, h2, h3⟩
        refine ⟨x :: a, b, rfl, h2, ?_⟩
        intro y hy
        rcases List.mem_cons.1 hy with rfl | hy
        · exact hx
        · exact h3 y hy
      · rintro ⟨a, b, h1, h2, h3⟩
        cases a with
        | nil => simp at h1; rw [h1.1] at hx; exact absurd h2 hx
        | cons y a =>
          simp only [List.cons_append, List.cons.injEq] at h1
          exact ⟨a, b, h1.2, h2, fun z hz => h3 z (by simp [hz])⟩

/-- What a PID listing command answers. -/
theorem listing_call (fl : ElmM.FloatFn) {g : OBDCommand} (hd : g.decode = .pid) (ms : List Message) :
    (∃ r, g.call fl ms = .ok r ∧ r.isNull = true ∧ ∀ m, ¬ FirstFor g ms m) ∨
    (∃ r m, g.call fl ms = .ok r ∧ r.isNull = false ∧ FirstFor g ms m ∧
      valueBits r.value = (BitArray.ofBytes ((fit g.bytes m.data).drop 2)).bits) := by
  rw [Props.call_eq]
  simp only
  cases hf : ms.filter (fun m => decide (Overlap g.ecu m.ecu)) with
  | nil =>
    left
    refine ⟨_, if_pos rfl, rfl, ?_⟩
    intro m hm
    rw [← first_iff, hf] at hm; cases hm
  | cons m rest =>
    right
    rw [if_neg (by simp), hd]
    refine ⟨_, m, rfl, rfl, ?_, rfl⟩
    rw [← first_iff, hf]; rfl

/-- Facts about the table. -/
def getterOk (g : OBDCommand) : Bool :=
  g.decode.isPid && g.header == engineHeader && !g.command.isEmpty &&
  match g.mode, g.pid with
  | .ok (some _), .ok (some _) => true
  | _, _ => false

/-- The command `g'` is not announced by `g`. -/
def notListed (g g' : OBDCommand) : Bool :=
  match g.mode, g.pid with
  | .ok (some md), .ok (some pd) => (List.range (if g.bytes = 0 then 512 else 8 * (g.bytes - 2))).all (fun i =>
      (match lookup md (pd + i + 1) with
        | some c => !c.eq g'
        | none => true) &&
      (md != 1 || match lookup 2 (pd + i + 1) with
        | some c => !c.eq g'
        | none => true))
  | _, _ => false

/-- Earlier commands are not announced by later ones, and no command is announced by itself. -/
def orderOk : List OBDCommand → Bool
  | [] => true
  | g :: rest => notListed g g && rest.all (fun g' => g'.command != g.command && notListed g' g) && orderOk rest

theorem getters_ok : pidGetters.all getterOk = true := by decide +kernel
theorem getters_order : orderOk pidGetters = true := by decide +kernel

theorem orderOk_split {a b : List OBDCommand} {g : OBDCommand} (h : orderOk (a ++ g :: b) = true) :
    notListed g g = true ∧ ∀ g' ∈ a, g.command ≠ g'.command ∧ notListed g g' = true := by
  induction a with
  | nil =>
    simp only [List.nil_append, orderOk, Bool.and_eq_true] at h
    exact ⟨h.1.1, by simp⟩
  | cons x a ih =>
    simp only [List.cons_append, orderOk, Bool.and_eq_true] at h
    obtain ⟨h1, h2⟩ := ih h.2
    refine ⟨h1, ?_⟩
    intro g' hg'
    rcases List.mem_cons.1 hg' with rfl | hg'
    · have := List.all_eq_true.1 h.1.2 g (by simp)
      simpa using this
    · exact h2 g' hg'

theorem notListed_offers {o : ProtoObj} {g g' : OBDCommand} {lines : List Str} (h : notListed g g' = true) : ¬ Offers o g lines g' := by
  rintro ⟨ms, m, i, md, pd, -, -, ⟨b, hb1, hb2, -⟩, h1, h2, h3⟩
  unfold notListed at h
  rw [h1, h2] at h
  simp only [List.all_eq_true, List.mem_range, Bool.and_eq_true, Bool.or_eq_true] at h
  have hi : i < if g.bytes = 0 then 512 else 8 * (g.bytes - 2) := by
    split
    · have key : ∀ m p, lookup m (p + 512) = none := by
        have hrows : modes.all (fun r => decide (r.length ≤ 512)) = true := by decide +kernel
        intro m p
        unfold lookup
        cases hm : modes[m]? with
        | none => rfl
        | some row =>
          have := List.all_eq_true.1 hrows row (List.mem_of_getElem? hm)
          simp only [decide_eq_true_eq] at this
          simp [List.getElem?_eq_none (l := row) (i := p + 512) (by omega)]
      apply Decidable.byContradiction
      intro hn
      have he : pd + i + 1 = (pd + i + 1 - 512) + 512 := by omega
      rw [he] at h3
      simp only [entry_iff, key] at h3
      simp at h3
    · omega
  have h := h i hi
  rcases h3 with h3 | ⟨h4, h3⟩ <;> obtain ⟨c, hc1, hc2⟩ := entry_iff.1 h3 <;> rw [hc1] at h
  · simp [hc2] at h
  · simp [hc2, h4] at h

/-- The state of the loop over the PID listing commands while connected. -/
structure Loading (o : ProtoObj) (h0 : History) (done : List OBDCommand) (log : List (OBDCommand × List Str)) (s : OW) : Prop where
  live : ∃ e, Live s e o ∧ e.lowPower = false
  hdr : s.lastHeader = engineHeader
  cnt : ∀ k, s.frameCounts.mem k = true → ∃ g ∈ done, g.key = k
  last : s.lastCommand = [] ∨ ∃ g ∈ done, s.lastCommand = g.command
  dial : ∃ evs, s.hist = h0 ++ evs ∧ Dialogue evs (log.map (fun x => (x.1.command, x.2)))
  sup : ∀ d, supports s d = true ↔ baseCommands.any (fun c => c.eq d) = true ∨ ∃ x ∈ log, Offers o x.1 x.2 d
  sub : (log.map Prod.fst).Sublist done
  asked : ∀ g ∈ log.map Prod.fst, supports s g = true ∧ Usable o g
  comp : ∀ g ∈ done, supports s g = true → Usable o g → g ∈ log.map Prod.fst

/-- The same once the connection is lost. -/
structure Lost (o : ProtoObj) (h0 : History) (log : List (OBDCommand × List Str)) (s : OW) : Prop where
  nc : status s = .notConnected
  dial : ∃ e1 e2 g, s.hist = h0 ++ e1 ++ e2 ∧ Dialogue e1 (log.map (fun x => (x.1.command, x.2))) ∧ g ∈ pidGetters ∧ Abort g.command e2
  iface : ∃ e, s.interface = some e ∧ e.protocol = some o
  sup : ∀ d, supports s d = true ↔ baseCommands.any (fun c => c.eq d) = true ∨ ∃ x ∈ log, Offers o x.1 x.2 d
  sub : (log.map Prod.fst).Sublist pidGetters
  asked : ∀ g ∈ log.map Prod.fst, supports s g = true ∧ Usable o g

theorem testCmd_live {s : OW} {e : Elm} {o : ProtoObj} (he : s.interface = some e) (ho : e.protocol = some o) {g : OBDCommand} {md : Option Nat}
    (hm : g.mode = .ok md) : ∃ b, testCmd s g = .ok b ∧ (b = true ↔ supports s g = true ∧ Usable o g) := by
  unfold testCmd Usable
  by_cases hs : supports s g = true
  · rw [if_neg (by simp [hs]), hm]
    by_cases h6 : md = some 6
    · subst h6
      simp only [bind, Except.bind, if_true, he, Elm.protocolId, ho]
      refine ⟨decide (o.cls.elmId ∈ canIds), rfl, ?_⟩
      simp [hs, canIds]
    · simp only [bind, Except.bind, if_neg h6]
      refine ⟨true, rfl, ?_⟩
      simp [hs]
      intro h; exact absurd h h6
  · rw [if_pos (by simpa using hs)]
    exact ⟨false, rfl, by simp [hs]⟩

theorem lost_loop {dev : Device} {fl : ElmM.FloatFn} {rest : List OBDCommand} {s s' : OW} (hst : status s = .notConnected)
    (h : loadLoop dev fl rest s = (.ok (), s')) : s' = s := by
  induction rest with
  | nil => cases h; rfl
  | cons g rest ih =>
    unfold loadLoop at h
    rw [PyM.bind_ok (show PyM.get s = (.ok s, s) from rfl)] at h
    replace h := bind_inv h
    obtain ⟨b, s1, h1, h⟩ := h
    have : s1 = s := by
      cases ht : testCmd s g <;> rw [ht] at h1 <;> cases h1
      rfl
    subst this
    split at h
    · exact ih h
    · replace h := bind_inv h
      obtain ⟨r, s2, h2, h⟩ := h
      rw [query_nc hst] at h2
      cases h2
      exact ih h

theorem abort_of_broken {cmd : Bytes} {evs : History} (h : Broken evs [cmd]) : Abort cmd evs := by
  obtain ⟨xs, c, suf, e1, e2, h1, rfl, h2, h3⟩ := h
  cases xs with
  | nil =>
    simp only [List.map_nil, List.nil_append, List.cons.injEq] at h1
    cases h2
    rw [h1.1]; exact h3
  | cons x xs => simp at h1

theorem dialogue_snoc {h0 evs evs' : History} {log : List (OBDCommand × List Str)} {g : OBDCommand} {l : List Str}
    (h1 : Dialogue evs (log.map (fun x => (x.1.command, x.2)))) (h2 : Dialogue evs' [(g.command, l)]) :
    Dialogue (evs ++ evs') ((log ++ [(g, l)]).map (fun x => (x.1.command, x.2))) := by
  rw [List.map_append]; exact Dialogue.append h1 h2

theorem loading_loop {dev : Device} {fl : ElmM.FloatFn} {o : ProtoObj} {h0 : History} {rest : List OBDCommand} {s' : OW} :
    ∀ (done : List OBDCommand) (log : List (OBDCommand × List Str)) (s : OW), done ++ rest = pidGetters → Loading o h0 done log s →
      loadLoop dev fl rest s = (.ok (), s') → (∃ log', Loading o h0 pidGetters log' s') ∨ ∃ log', Lost o h0 log' s' := by
  induction rest with
  | nil =>
    intro done log s hd hL h
    cases h
    rw [List.append_nil] at hd
    subst hd
    exact Or.inl ⟨log, hL⟩
  | cons g rest ih =>
    intro done log s hd hL h
    have hmem : g ∈ pidGetters := by rw [← hd]; simp
    have hg := List.all_eq_true.1 getters_ok g hmem
    unfold getterOk at hg
    simp only [Bool.and_eq_true, beq_iff_eq, Bool.not_eq_true', List.isEmpty_eq_false_iff] at hg
    obtain ⟨⟨⟨hpid, hhead⟩, hne⟩, hmp⟩ := hg
    have hord := getters_order
    rw [← hd] at hord
    obtain ⟨hself, hprev⟩ := orderOk_split hord
    obtain ⟨md, pd, hmd, hpd⟩ : ∃ md pd, g.mode = .ok (some md) ∧ g.pid = .ok (some pd) := by
      cases hm : g.mode with
      | error => rw [hm] at hmp; cases hmp
      | ok m =>
        cases m with
        | none => rw [hm] at hmp; cases hmp
        | some md =>
          cases hp : g.pid with
          | error => rw [hm, hp] at hmp; cases hmp
          | ok p =>
            cases p with
            | none => rw [hm, hp] at hmp; cases hmp
            | some pd => exact ⟨md, pd, rfl, rfl⟩
    have hdec : g.decode = .pid := by
      cases hdd : g.decode <;> rw [hdd] at hpid <;> first | rfl | cases hpid
    obtain ⟨e, hl, hlp⟩ := hL.live
    obtain ⟨b, hb, hbt⟩ := testCmd_live hl.iface hl.proto hmd
    unfold loadLoop at h
    rw [PyM.bind_ok (show PyM.get s = (.ok s, s) from rfl), hb] at h
    rw [PyM.bind_ok (show PyM.ofExcept (Except.ok b) s = (.ok b, s) from rfl)] at h
    cases b with
    | false =>
      rw [if_pos (by simp)] at h
      refine ih (done ++ [g]) log s (by simp [hd]) ?_ h
      refine ⟨hL.live, hL.hdr, ?_, ?_, hL.dial, hL.sup, ?_, hL.asked, ?_⟩
      · intro k hk; obtain ⟨g', h1, h2⟩ := hL.cnt k hk; exact ⟨g', by simp [h1], h2⟩
      · rcases hL.last with h1 | ⟨g', h1, h2⟩
        · exact Or.inl h1
        · exact Or.inr ⟨g', by simp [h1], h2⟩
      · exact hL.sub.trans (List.sublist_append_left _ _)
      · intro g' hg' h1 h2
        rcases List.mem_append.1 hg' with hg' | hg'
        · exact hL.comp g' hg' h1 h2
        · rw [List.mem_singleton] at hg'; subst hg'
          have := hbt.2 ⟨h1, h2⟩
          cases this
    | true =>
      rw [if_neg (by simp)] at h
      obtain ⟨hsup, hus⟩ := hbt.1 rfl
      have hst : status s ≠ .notConnected := by simpa [status, hl.iface] using hl.status
      -- the query
      have hq : query dev fl g false s = body dev fl g s := by
        rcases query_cases dev fl g false s with ⟨-, h1 | ⟨-, h1⟩⟩ | ⟨x, -, -, -, h1⟩ | ⟨h1, -, -⟩
        · exact absurd h1 hst
        · rw [hb] at h1; cases h1
        · rw [hb] at h1; cases h1
        · rw [h1, exchange_eq, PyM.bind_ok (setHeader_same (by rw [hhead, hL.hdr]))]
      have hnew : s.frameCounts.mem g.key = false := by
        cases hc : s.frameCounts.mem g.key with
        | false => rfl
        | true =>
          obtain ⟨g', h1, h2⟩ := hL.cnt _ hc
          exact absurd (congrArg Prod.fst h2).symm (hprev g' h1).1
      have hbuild : buildCommand s g = g.command := by
        have hw : withCount s g = g.command := by
          unfold withCount
          have : s.frameCounts.get? g.key = none := by
            unfold Dict.mem at hnew
            cases hgk : s.frameCounts.get? g.key with
            | none => rfl
            | some x => rw [hgk] at hnew; cases hnew
          rw [this]; split <;> rfl
        unfold buildCommand
        rw [hw, if_neg]
        intro hc
        simp only [Bool.and_eq_true, beq_iff_eq] at hc
        rcases hL.last with h1 | ⟨g', h1, h2⟩
        · exact hne (hc.2.trans h1)
        · exact (hprev g' h1).1 (hc.2.trans h2)
      obtain ⟨evs0, hh0, hdial⟩ := hL.dial
      rw [PyM.bind_apply] at h
      have hwake : wake e = [] := by simp [wake, hlp]
      rcases body_cases (dev := dev) (fl := fl) (c := g) hl with ⟨pre, l, evs, x, -, -, -, h4⟩ | ⟨pre, l, evs, ms, h1, h2, h3, h4⟩ | ⟨evs, h1, h4⟩
      · rw [hq, h4] at h; cases h
      · rw [hwake] at h1
        have hpre : pre = [] := by simpa using h1
        subst hpre
        rw [hbuild] at h2 h4
        -- the new state, apart from the supported commands
        have common : ∀ (sup : List OBDCommand), (∀ d, sup.any (fun c => c.eq d) = true ↔ supports s d = true ∨ Offers o g l d) →
            Loading o h0 (done ++ [g]) (log ++ [(g, l)]) { noted (woken s e evs) g g.command (countFrames ms) with supported := sup } := by
          intro sup hsu
          have hmono : ∀ d, supports s d = true → sup.any (fun c => c.eq d) = true := fun d hd => (hsu d).2 (Or.inl hd)
          refine ⟨⟨{ e with lowPower := false }, ⟨rfl, hl.status, hl.port, hl.proto⟩, rfl⟩, hL.hdr, ?_, ?_, ?_, ?_, ?_, ?_, ?_⟩
          · intro k hk
            simp only [noted, woken, hnew] at hk
            by_cases hkk : k = g.key
            · exact ⟨g, by simp, hkk.symm⟩
            · have : s.frameCounts.mem k = true := by
                unfold Dict.mem at hk ⊢
                simp only [Bool.false_eq_true, if_false] at hk
                rwa [Dict.get?_set, if_neg (fun h => hkk h.symm)] at hk
              obtain ⟨g', h1, h2⟩ := hL.cnt k this
              exact ⟨g', by simp [h1], h2⟩
          · right
            refine ⟨g, by simp, ?_⟩
            simp [noted, hne]
          · refine ⟨evs0 ++ evs, ?_, dialogue_snoc (h0 := h0) hdial h2⟩
            simp [noted, woken, hh0]
          · intro d
            show sup.any (fun c => c.eq d) = true ↔ _
            rw [hsu d, hL.sup d]
            simp only [List.mem_append, List.mem_singleton, or_assoc]
            constructor
            · rintro (h | ⟨x, h1, h2⟩ | h)
              · exact Or.inl h
              · exact Or.inr ⟨x, Or.inl h1, h2⟩
              · exact Or.inr ⟨(g, l), Or.inr rfl, h⟩
            · rintro (h | ⟨x, h1 | h1, h2⟩)
              · exact Or.inl h
              · exact Or.inr (Or.inl ⟨x, h1, h2⟩)
              · subst h1; exact Or.inr (Or.inr h2)
          · rw [List.map_append]
            exact List.Sublist.append hL.sub (List.Sublist.refl _)
          · intro g' hg'
            rw [List.map_append] at hg'
            rcases List.mem_append.1 hg' with hg' | hg'
            · exact ⟨hmono g' (hL.asked g' hg').1, (hL.asked g' hg').2⟩
            · simp only [List.map_cons, List.map_nil, List.mem_singleton] at hg'
              subst hg'; exact ⟨hmono _ hsup, hus⟩
          · intro g' hg' h1 h2
            rw [List.map_append]
            rcases List.mem_append.1 hg' with hg' | hg'
            · have h1' := (hsu g').1 h1
              rcases h1' with h1' | h1'
              · exact List.mem_append_left _ (hL.comp g' hg' h1' h2)
              · exact absurd h1' (notListed_offers (hprev g' hg').2)
            · rw [List.mem_singleton] at hg'; subst hg'; simp
        have hnull : ∀ (hno : ∀ m, ¬ FirstFor g ms m), Loading o h0 (done ++ [g]) (log ++ [(g, l)]) (noted (woken s e evs) g g.command (countFrames ms)) := by
          intro hno
          refine common s.supported ?_
          intro d
          constructor
          · exact Or.inl
          · rintro (h | ⟨ms', m, i, _, _, h5, h6, -⟩)
            · exact h
            · rw [h3] at h5; cases h5; exact absurd h6 (hno m)
        by_cases hms : ms = []
        · rw [hq, h4, if_pos hms] at h
          refine ih (done ++ [g]) _ _ (by simp [hd]) (hnull ?_) h
          rintro m ⟨a, b, h5, -⟩
          rw [hms] at h5; simp at h5
        · rw [hq, h4, if_neg hms] at h
          rcases listing_call fl hdec ms with ⟨r, h5, h6, h7⟩ | ⟨r, m, h5, h6, h7, h8⟩
          · rw [h5] at h
            simp only [h6, if_true] at h
            exact ih (done ++ [g]) _ _ (by simp [hd]) (hnull h7) h
          · rw [h5] at h
            simp only [h6, Bool.false_eq_true, if_false, hmd, hpd] at h
            refine ih (done ++ [g]) _ _ (by simp [hd]) (common (addSupported md pd (valueBits r.value) s.supported) ?_) h
            intro d
            rw [any_addSupported]
            apply or_congr Iff.rfl
            rw [h8]
            constructor
            · rintro ⟨i, hi, he⟩
              exact ⟨ms, m, i, md, pd, h3, h7, (listed_bits _ _).1 hi, hmd, hpd, he⟩
            · rintro ⟨ms', m', i, md', pd', k1, k2, k3, k4, k5, k6⟩
              rw [h3] at k1; cases k1
              rw [hmd] at k4; cases k4
              rw [hpd] at k5; cases k5
              rw [← first_iff] at k2 h7
              rw [h7] at k2; cases k2
              exact ⟨i, (listed_bits _ _).2 k3, k6⟩
      · rw [hwake, hbuild] at h1
        rw [hq, h4] at h
        have h := lost_loop (s := noted (dropped s e evs) g (buildCommand s g) 0) rfl h
        subst h
        right
        refine ⟨log, rfl, ⟨evs0, evs, g, ?_, hdial, hmem, abort_of_broken h1⟩, ⟨_, rfl, hl.proto⟩, hL.sup, ?_, hL.asked⟩
        · simp [noted, dropped, hh0]
        · refine hL.sub.trans ?_
          rw [← hd]; exact List.sublist_append_left _ _

theorem supported_on {α : Type} {m : ElmM α} {l : List OBDCommand} : Kept (fun s : OW => s.supported = l) (onInterface m) := by
  intro s hs
  unfold onInterface
  cases s.interface <;> exact hs

theorem supported_set {dev : Device} {hd : Bytes} {l : List OBDCommand} : Kept (fun s : OW => s.supported = l) (setHeader dev hd) := by
  unfold setHeader
  refine Kept.bind Kept.get ?_
  intro s
  split
  · exact Kept.pure _
  · refine Kept.bind supported_on ?_
    intro r
    split
    · exact Kept.pure _
    · split
      · exact Kept.pure _
      · split
        · exact Kept.pure _
        · exact Kept.modify (fun s hs => hs)

theorem close_supported (dev : Device) (s : OW) : (close dev s).2.supported = [] := by
  unfold close
  rw [PyM.bind_ok (show PyM.modify _ s = (.ok (), _) from rfl), PyM.bind_ok (show PyM.get _ = (.ok _, _) from rfl)]
  cases hi : s.interface with
  | none => rfl
  | some e =>
    simp only
    refine (?_ : Kept (fun s : OW => s.supported = []) _) _ rfl
    refine Kept.bind supported_set (fun _ => ?_)
    refine Kept.bind supported_on (fun _ => ?_)
    exact Kept.modify (fun s hs => hs)

theorem closeIfFailed_supported {dev : Device} {s s' : OW} (h : closeIfFailed dev s = (.ok (), s')) :
    s'.supported = s.supported ∨ s'.supported = [] := by
  unfold closeIfFailed at h
  rw [PyM.bind_ok (show PyM.get s = (.ok s, s) from rfl)] at h
  split at h
  · right
    have := close_supported dev s
    rw [h] at this; exact this
  · cases h; exact Or.inl rfl

theorem connect_supported {dev : Device} {fl : ElmM.FloatFn} {ports : List Str} {portstr : Option Str} {cfg : ElmM.Config} {s s' : OW}
    (h : connect dev fl ports portstr cfg s = (.ok (), s')) : s'.supported = s.supported ∨ s'.supported = [] := by
  unfold connect at h
  cases portstr with
  | none =>
    simp only at h
    split at h
    · cases h; exact Or.inl rfl
    · obtain ⟨_, s1, h1, h⟩ := bind_inv h
      have hs1 : s1.supported = s.supported := by
        rcases tryPorts_last ports h1 with rfl | ⟨port, -, t, -, -, h3, -, -, h4⟩
        · rfl
        · obtain ⟨w, -, rfl⟩ := openInterface_ok h4
          exact h3
      rw [← hs1]; exact closeIfFailed_supported h
  | some p =>
    obtain ⟨_, s1, h1, h⟩ := bind_inv h
    obtain ⟨w, -, rfl⟩ := openInterface_ok h1
    have := closeIfFailed_supported h
    exact this

end ObdM
end Model
