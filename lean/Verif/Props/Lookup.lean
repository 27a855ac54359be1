import Verif.Model.Lookup
import Verif.Props.Commands
/-!
# C66: looking up commands
-/
namespace Props
open Py Model Spec

def addAttr (d : Dict String Attr) (c : OBDCommand) : Dict String Attr := d.set c.name (.cmd c)

theorem foldl_some (l : List (Option OBDCommand)) (d : Dict String Attr) :
    l.foldl addEntry d = (l.filterMap id).foldl addAttr d := by
  induction l generalizing d with
  | nil => rfl
  | cons c l ih =>
    cases c with
    | none => simp only [List.foldl_cons, List.filterMap_cons, id]; exact ih d
    | some c => simp only [List.foldl_cons, List.filterMap_cons, id]; exact ih _

theorem foldl_modes (l : List (List (Option OBDCommand))) (d : Dict String Attr) :
    l.foldl (fun d m => m.foldl addEntry d) d = (l.flatten.filterMap id).foldl addAttr d := by
  induction l generalizing d with
  | nil => rfl
  | cons m l ih =>
    rw [List.foldl_cons, List.flatten_cons, List.filterMap_append, List.foldl_append, foldl_some]
    exact ih _

theorem commandsDict_eq : commandsDict = allCommands.foldl addAttr [("modes", .modes)] := by
  unfold commandsDict allCommands
  rw [List.filterMap_append, List.foldl_append, foldl_some, foldl_modes]

theorem get?_addAttr (l : List OBDCommand) (d : Dict String Attr) (hn : (l.map OBDCommand.name).Nodup) (s : String) :
    (∀ c ∈ l, c.name = s → (l.foldl addAttr d).get? s = some (.cmd c)) ∧
    ((∀ c ∈ l, c.name ≠ s) → (l.foldl addAttr d).get? s = d.get? s) := by
  induction l generalizing d with
  | nil => exact ⟨fun c hc _ => absurd hc List.not_mem_nil, fun _ => rfl⟩
  | cons a l ih =>
    rw [List.map_cons, List.nodup_cons] at hn
    obtain ⟨h1, h2⟩ := ih (addAttr d a) hn.2
    constructor
    · intro c hc hs
      rcases List.mem_cons.1 hc with rfl | hc
      · rw [List.foldl_cons, h2]
        · unfold addAttr; rw [Dict.get?_set, if_pos hs]
        · intro c' hc' he
          exact hn.1 (List.mem_map.2 ⟨c', hc', he.trans hs.symm⟩)
      · exact h1 c hc hs
    · intro hs
      rw [List.foldl_cons, h2 (fun c hc => hs c (List.mem_cons_of_mem _ hc))]
      unfold addAttr
      rw [Dict.get?_set, if_neg (hs a List.mem_cons_self)]

theorem names_upper : allCommands.all (fun c => isUpper c.name && decide (c.name ≠ "modes")) = true := by decide +kernel

/-- C66: `commands[name]` is the command of that name, if there is one; every other name raises
KeyError (but for "modes", the table itself). -/
theorem C66_getitem (s : String) :
    (∀ c, getName s = .ok (.cmd c) ↔ c ∈ allCommands ∧ c.name = s) ∧
    (getName s = .error .keyError ↔ s ≠ "modes" ∧ ∀ c ∈ allCommands, c.name ≠ s) := by
  have h := get?_addAttr allCommands [("modes", .modes)] C26_names s
  rw [← commandsDict_eq] at h
  have hm : ∀ c ∈ allCommands, c.name ≠ "modes" := by
    intro c hc
    have := List.all_eq_true.1 names_upper c hc
    rw [Bool.and_eq_true, decide_eq_true_eq] at this
    exact this.2
  unfold getName
  by_cases hx : ∃ c ∈ allCommands, c.name = s
  · obtain ⟨c, hc, hs⟩ := hx
    rw [h.1 c hc hs]
    refine ⟨fun c' => ⟨?_, ?_⟩, ?_, ?_⟩
    · intro he; injection he with he; injection he with he; subst he; exact ⟨hc, hs⟩
    · rintro ⟨hc', hs'⟩
      have h1 := C26_by_name c hc
      have h2 := C26_by_name c' hc'
      rw [hs] at h1; rw [hs', h1] at h2
      injection h2 with h2; rw [h2]
    · intro he; cases he
    · rintro ⟨_, h'⟩; exact absurd hs (h' c hc)
  · have hx' : ∀ c ∈ allCommands, c.name ≠ s := fun c hc hs => hx ⟨c, hc, hs⟩
    rw [h.2 hx']
    by_cases hs : "modes" = s
    · subst hs
      refine ⟨fun c' => ⟨?_, ?_⟩, ?_, ?_⟩
      · intro he; cases he
      · rintro ⟨hc', hs'⟩; exact absurd hs' (hx' c' hc')
      · intro he; cases he
      · rintro ⟨h', _⟩; exact absurd rfl h'
    · have : Dict.get? ([("modes", Attr.modes)] : Dict String Attr) s = none := by
        rw [Dict.get?_cons, if_neg hs]; rfl
      rw [this]
      refine ⟨fun c' => ⟨?_, ?_⟩, ?_, ?_⟩
      · intro he; cases he
      · rintro ⟨hc', hs'⟩; exact absurd hs' (hx' c' hc')
      · intro _; exact ⟨fun h => hs h.symm, hx'⟩
      · intro _; rfl

/-- C66: `has_name` (and `in`) holds exactly for the names of commands. -/
theorem C66_has_name (s : String) : hasName s = true ↔ ∃ c, getName s = .ok (.cmd c) := by
  have hg := C66_getitem s
  unfold hasName
  constructor
  · intro h
    rw [Bool.and_eq_true] at h
    obtain ⟨hu, hm⟩ := h
    unfold Dict.mem at hm
    obtain ⟨a, ha⟩ := Option.isSome_iff_exists.1 hm
    cases a with
    | cmd c => exact ⟨c, by unfold getName; rw [ha]⟩
    | modes =>
      exfalso
      have h1 : getName s = .ok .modes := by unfold getName; rw [ha]
      have hne : ∀ c ∈ allCommands, c.name ≠ s := by
        intro c hc hs
        have := (hg.1 c).2 ⟨hc, hs⟩
        rw [h1] at this; cases this
      by_cases hs : s = "modes"
      · subst hs; revert hu; decide
      · have := hg.2.2 ⟨hs, hne⟩
        rw [h1] at this; cases this
  · rintro ⟨c, hc⟩
    obtain ⟨h1, h2⟩ := (hg.1 c).1 hc
    have := List.all_eq_true.1 names_upper c h1
    rw [Bool.and_eq_true] at this
    rw [Bool.and_eq_true]
    refine ⟨h2 ▸ this.1, ?_⟩
    unfold Dict.mem
    unfold getName at hc
    cases hd : commandsDict.get? s with
    | none => rw [hd] at hc; cases hc
    | some a => rfl

theorem attrs_of (l : List OBDCommand) (d : Dict String Attr) (hn : (l.map OBDCommand.name).Nodup)
    (hd : ∀ c ∈ l, c.name ∉ Dict.keys d) : l.foldl addAttr d = d ++ l.map (fun c => (c.name, .cmd c)) := by
  have set_new : ∀ (d : Dict String Attr) (k : String) (v : Attr), k ∉ Dict.keys d → d.set k v = d ++ [(k, v)] := by
    intro d k v hk
    induction d with
    | nil => rfl
    | cons e d ih =>
      simp only [Dict.keys, List.map_cons, List.mem_cons, not_or] at hk
      simp only [Dict.set, if_neg (fun h => hk.1 (Eq.symm h)), List.cons_append]
      rw [ih hk.2]
  induction l generalizing d with
  | nil => simp
  | cons a l ih =>
    rw [List.map_cons, List.nodup_cons] at hn
    rw [List.foldl_cons, ih _ hn.2]
    · unfold addAttr
      rw [set_new _ _ _ (hd a List.mem_cons_self)]
      simp
    · intro c hc
      unfold addAttr
      rw [set_new _ _ _ (hd a List.mem_cons_self)]
      simp only [Dict.keys, List.map_append, List.map_cons, List.map_nil, List.mem_append, List.mem_singleton, not_or]
      exact ⟨hd c (List.mem_cons_of_mem _ hc), fun h => hn.1 (List.mem_map.2 ⟨c, hc, h⟩)⟩

/-- C66: `has_command(c)` holds exactly if a command of the tables sends the same bytes under the
same header. -/
theorem C66_has_command (c : OBDCommand) :
    hasCommand c = true ↔ ∃ d ∈ allCommands, d.command = c.command ∧ d.header = c.header := by
  unfold hasCommand
  rw [commandsDict_eq, attrs_of _ _ C26_names]
  · rw [List.any_eq_true]
    constructor
    · rintro ⟨e, he, h⟩
      rcases List.mem_append.1 he with he | he
      · rw [List.mem_singleton] at he; subst he; cases h
      · obtain ⟨d, hd, rfl⟩ := List.mem_map.1 he
        exact ⟨d, hd, (C24_eq d c).1 h⟩
    · rintro ⟨d, hd, h⟩
      exact ⟨(d.name, .cmd d), List.mem_append.2 (Or.inr (List.mem_map.2 ⟨d, hd, rfl⟩)), (C24_eq d c).2 h⟩
  · intro c hc
    have := List.all_eq_true.1 names_upper c hc
    rw [Bool.and_eq_true, decide_eq_true_eq] at this
    simpa [Dict.keys] using this.2

/-- C66: `commands[m][p]`, where it is a command, is the one with that mode and PID, and is found
under its name; negative integers count from the end, as in any Python list, and integers outside of the table raise
IndexError. -/
theorem C66_getitem_int (i : Int) :
    (0 ≤ i → getInt i = getMode i.toNat) ∧ (-10 ≤ i → i < 0 → getInt i = getMode (10 + i).toNat) ∧ (i < -10 ∨ 9 < i → getInt i = .error .indexError) ∧
    (∀ l (j : Nat) c, 0 ≤ i → getInt i = .ok l → l[j]? = some (some c) → c.mode = .ok (some i.toNat) ∧ getName c.name = .ok (.cmd c)) := by
  have h0 : 0 ≤ i → getInt i = getMode i.toNat := fun h => by unfold getInt getMode; rw [if_pos h]
  refine ⟨h0, ?_, ?_, ?_⟩
  · intro h1 h2
    unfold getInt getMode
    have hl : modes.length = 10 := rfl
    rw [if_neg (by omega), if_pos (by rw [hl]; omega), hl]
    congr 1
    omega
  · intro h
    unfold getInt
    have hl : modes.length = 10 := rfl
    rw [hl]
    by_cases hi : 0 ≤ i
    · rw [if_pos hi]
      unfold idx
      rw [List.getElem?_eq_none (by rw [hl]; omega)]
    · rw [if_neg hi, if_neg (by omega)]
  · intro l j c hi hl hc
    rw [h0 hi] at hl
    refine ⟨(C26_position _ j l c hl hc).1, ((C66_getitem c.name).1 c).2 ⟨?_, rfl⟩⟩
    have hl' : modes[i.toNat]? = some l := by
      unfold getMode idx at hl
      split at hl
      · next h => injection hl with hl; rw [h, hl]
      · simp at hl
    unfold allCommands
    rw [List.mem_filterMap]
    refine ⟨some c, List.mem_append.2 (Or.inl ?_), rfl⟩
    exact List.mem_flatten.2 ⟨l, List.mem_of_getElem? hl', List.mem_of_getElem? hc⟩

/-- C66: the commands assumed to be supported by every adapter exist, under these names. -/
theorem C66_base_commands : baseCommands.map OBDCommand.name =
    ["PIDS_A", "PIDS_9A", "MIDS_A", "GET_DTC", "CLEAR_DTC", "GET_CURRENT_DTC", "ELM_VERSION", "ELM_VOLTAGE"] ∧
    ∀ c ∈ baseCommands, c ∈ allCommands := by
  refine ⟨by decide +kernel, fun c hc => ?_⟩
  obtain ⟨n, _, hn⟩ := List.mem_filterMap.1 hc
  exact List.mem_reverse.1 (List.mem_of_find?_eq_some hn)

/-- C66: the number of commands. -/
def C66_len_full : Prop := commandsLen = allCommands.length

/-- It is not: reserved positions are counted, commands without a mode are not. -/
theorem C66_len_refuted : ¬ C66_len_full := by unfold C66_len_full; decide +kernel

/-- C66: what `len(commands)` is: the positions in the tables of the modes. -/
theorem C66_len_partial : commandsLen = (allCommands.length - misc.length) + modes.flatten.countP Option.isNone := by decide +kernel

-- cases
example : hasName "RPM" = true ∧ hasName "modes" = false ∧ hasName "rpm" = false ∧ hasName "PIDS_9A" = true := by decide +kernel
example : (byName "SPEED").any (fun c => hasCommand { c with name := "MINE", bytes := 0 }) = true := by decide +kernel
example : hasCommand (mkCmd "X" "" "0199" 0 .drop 1 false) = false := by decide +kernel
example : (getInt (-1)).toOption.map List.length = some 7 := by decide +kernel

end Props
