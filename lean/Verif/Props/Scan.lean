import Verif.Model.Scan
/-!
# C67: scanning for ports
-/
namespace Props
open Py Model

/-- The candidates, by operating system: on Linux the Bluetooth ports, then the USB ports; on
Windows COM0 to COM255; on a Mac the tty devices but for two that are never adapters. -/
inductive Candidates (glob : String → List Str) : Str → List Str → Prop
  | linux (s) : Candidates glob ("linux".toList ++ s) (glob "/dev/rfcomm[0-9]*" ++ glob "/dev/ttyUSB[0-9]*")
  | cygwin (s) : Candidates glob ("cygwin".toList ++ s) (glob "/dev/rfcomm[0-9]*" ++ glob "/dev/ttyUSB[0-9]*")
  | windows (s) : Candidates glob ("win".toList ++ s) ((List.range 256).map (fun i => ("\\\\.\\COM" ++ toString i).toList))
  | mac (s) : Candidates glob ("darwin".toList ++ s)
      ((glob "/dev/tty.*").filter (fun p => p ≠ "/dev/tty.Bluetooth-Incoming-Port".toList ∧ p ≠ "/dev/tty.Bluetooth-Modem".toList))

theorem prefix_iff (a b : Str) : a.isPrefixOf b = true ↔ ∃ s, b = a ++ s := by
  rw [List.isPrefixOf_iff_prefix]
  constructor
  · rintro ⟨s, h⟩; exact ⟨s, h.symm⟩
  · rintro ⟨s, h⟩; exact ⟨s, h.symm⟩

theorem candidates_eq {glob : String → List Str} {platform : Str} {l : List Str} (h : Candidates glob platform l) :
    possiblePorts platform glob = l := by
  cases h with
  | linux s =>
    unfold possiblePorts
    rw [if_pos]
    rw [Bool.or_eq_true]; exact Or.inl ((prefix_iff _ _).2 ⟨s, rfl⟩)
  | cygwin s =>
    unfold possiblePorts
    rw [if_pos]
    rw [Bool.or_eq_true]; exact Or.inr ((prefix_iff _ _).2 ⟨s, rfl⟩)
  | windows s =>
    have h1 : "linux".toList.isPrefixOf ("win".toList ++ s) = false := rfl
    have h2 : "cygwin".toList.isPrefixOf ("win".toList ++ s) = false := rfl
    unfold possiblePorts
    rw [h1, h2, if_neg (by decide), if_pos ((prefix_iff _ _).2 ⟨s, rfl⟩)]
    apply List.map_congr_left
    intro i _
    rw [String.toList_append]
    congr 1
    exact (Nat.toList_repr).symm
  | mac s =>
    have h1 : "linux".toList.isPrefixOf ("darwin".toList ++ s) = false := rfl
    have h2 : "cygwin".toList.isPrefixOf ("darwin".toList ++ s) = false := rfl
    have h3 : "win".toList.isPrefixOf ("darwin".toList ++ s) = false := rfl
    unfold possiblePorts
    rw [h1, h2, h3, if_neg (by decide), if_neg (by decide), if_pos ((prefix_iff _ _).2 ⟨s, rfl⟩)]
    apply List.filter_congr
    intro p _
    rw [decide_eq_decide]
    rw [List.mem_cons, List.mem_singleton, not_or]

/-- C67: the scan returns the candidates that can be opened, in their order. -/
def C67_full : Prop :=
  ∀ (platform : Str) (glob : String → List Str) (serial : Str → Opening) (l : List Str), Candidates glob platform l →
    scanSerial platform glob serial = .ok (l.filter (fun p => serial p = .opens))

/-- Opening the port fails with an OSError other than ENOENT. -/
def Denied (serial : Str → Opening) (p : Str) : Prop := ∃ n, serial p = .osError n ∧ n ≠ 2

theorem tryPort_eq (serial : Str → Opening) (p : Str) :
    (Denied serial p → tryPort serial p = .error .osError) ∧
    (¬ Denied serial p → tryPort serial p = .ok (decide (serial p = .opens))) := by
  unfold tryPort Denied
  cases hs : serial p with
  | opens => simp
  | serialException => simp
  | osError n =>
    by_cases hn : n = 2
    · subst hn; simp [enoent]
    · simp [enoent, hn]

theorem available_eq (serial : Str → Opening) (l : List Str) :
    ((∃ p ∈ l, Denied serial p) → available serial l = .error .osError) ∧
    ((∀ p ∈ l, ¬ Denied serial p) → available serial l = .ok (l.filter (fun p => serial p = .opens))) := by
  induction l with
  | nil => exact ⟨fun ⟨p, hp, _⟩ => absurd hp List.not_mem_nil, fun _ => rfl⟩
  | cons p ps ih =>
    have ht := tryPort_eq serial p
    unfold available
    simp only [bind, Except.bind]
    constructor
    · rintro ⟨q, hq, hd⟩
      by_cases hp : Denied serial p
      · rw [ht.1 hp]
      · rw [ht.2 hp]
        rcases List.mem_cons.1 hq with rfl | hq
        · exact absurd hd hp
        · rw [ih.1 ⟨q, hq, hd⟩]
    · intro h
      rw [ht.2 (h p List.mem_cons_self), ih.2 (fun q hq => h q (List.mem_cons_of_mem _ hq))]
      cases hs : decide (serial p = .opens) <;> simp [List.filter_cons, hs, pure, Except.pure]

/-- It raises instead if opening one of the candidates fails with an OSError other than ENOENT,
such as a missing permission. -/
theorem C67_refuted : ¬ C67_full := by
  intro h
  have := h "linux".toList (fun p => if p = "/dev/ttyUSB[0-9]*" then ["/dev/ttyUSB0".toList] else []) (fun _ => .osError 13) _
    (.linux [])
  revert this
  decide

/-- C67: and only then; otherwise it returns the openable candidates. -/
theorem C67_partial (platform : Str) (glob : String → List Str) (serial : Str → Opening) (l : List Str) (h : Candidates glob platform l) :
    ((∃ p ∈ l, Denied serial p) → scanSerial platform glob serial = .error .osError) ∧
    ((∀ p ∈ l, ¬ Denied serial p) → scanSerial platform glob serial = .ok (l.filter (fun p => serial p = .opens))) := by
  unfold scanSerial
  rw [candidates_eq h]
  exact available_eq serial l

/-- C67: on other systems nothing is found. -/
theorem C67_other (platform : Str) (glob : String → List Str) (serial : Str → Opening) (h : ∀ l, ¬ Candidates glob platform l) :
    scanSerial platform glob serial = .ok [] := by
  have no : ∀ a : String, (∀ s, ∃ l, Candidates glob (a.toList ++ s) l) → a.toList.isPrefixOf platform = false := by
    intro a ha
    cases hp : a.toList.isPrefixOf platform with
    | false => rfl
    | true =>
      obtain ⟨s, rfl⟩ := (prefix_iff _ _).1 hp
      obtain ⟨l, hl⟩ := ha s
      exact absurd hl (h l)
  unfold scanSerial possiblePorts
  rw [no "linux" (fun s => ⟨_, .linux s⟩), no "cygwin" (fun s => ⟨_, .cygwin s⟩), no "win" (fun s => ⟨_, .windows s⟩), no "darwin" (fun s => ⟨_, .mac s⟩)]
  rfl

-- two adapters, one of which is in use
example : scanSerial "linux".toList (fun p => if p = "/dev/ttyUSB[0-9]*" then ["/dev/ttyUSB0".toList, "/dev/ttyUSB1".toList] else ["/dev/rfcomm0".toList])
    (fun p => if p = "/dev/ttyUSB0".toList then .serialException else .opens) = .ok ["/dev/rfcomm0".toList, "/dev/ttyUSB1".toList] := by decide +kernel
example : ∃ l, Candidates (fun _ => []) "win32".toList l ∧ l.length = 256 := ⟨_, .windows "32".toList, by simp⟩

end Props
