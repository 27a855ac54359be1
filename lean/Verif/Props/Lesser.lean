import Verif.Lemmas.Refusal
import Verif.Props.Ports
import Verif.Props.Connect
/-!
# C109: what ELM_CONNECTED and OBD_CONNECTED tell
-/
namespace Props
open Py Model Spec ObdM

theorem constructed_lesser {dev : Device} {fl : Str → Option PyFloat} {a : Args} {s : OW} (hc : Constructed dev fl a s)
    (h0 : status s ≠ .notConnected) (h1 : status s ≠ .carConnected) :
    ∃ pre evs low, s.hist = pre ++ evs ∧ (a.portstr = some (portName s) ∧ pre = [] ∨ a.portstr = none ∧ portName s ∈ a.ports) ∧
      Reaches fl (portName s) a.cfg low evs ∧ status s = (if a.cfg.checkVoltage && !low then .obdConnected else .elmConnected) := by
  have hr : Reachable dev fl s := ⟨a, s, [], hc, rfl⟩
  obtain ⟨e, p, he, hep⟩ := C40_open dev fl s hr h0
  have hst : status s = e.status := by simp [status, he]
  have hc' := hc
  unfold Constructed construct at hc'
  obtain ⟨_, s1, h2, h3⟩ := bind_inv hc'
  have heq : s1 = s := by
    unfold loadCommands at h3
    obtain ⟨s2, s3, h4, h3⟩ := bind_inv h3
    cases h4
    split at h3
    · cases h3; rfl
    · next hn =>
      exfalso
      have hn' : status s1 = .carConnected := by simpa using hn
      -- loading the commands keeps the connection, or loses it
      obtain ⟨port, t, -, -, -, -, -, -, ho⟩ := connect_opened h2 rfl (by rw [hn']; simp)
      obtain ⟨w, hw, rfl⟩ := openInterface_ok ho
      have hk := kept_loadCommands (ostable_sameLine dev w.hist w.elm) fl _
        (show SameLine w.hist w.elm { t with interface := some w.elm, hist := w.hist } from
          ⟨Ext.refl _, _, rfl, rfl, rfl, Or.inl ⟨rfl, rfl⟩⟩)
      have h5 : loadCommands dev fl { t with interface := some w.elm, hist := w.hist } = (.ok (), s) := by
        unfold loadCommands
        rw [PyM.bind_ok (show PyM.get _ = (.ok _, _) from rfl), if_neg hn]
        exact h3
      rw [h5] at hk
      obtain ⟨-, e', he', -, -, hx⟩ := hk
      have he'' : s.interface = some e' := he'
      rw [he] at he''
      cases he''
      rcases hx with ⟨-, hx⟩ | ⟨hx, -⟩
      · exact h1 (by rw [hst, hx]; simpa [status] using hn')
      · rw [hep] at hx; cases hx
  subst heq
  obtain ⟨port, t, hport, -, -, -, -, -, ho⟩ := connect_opened h2 rfl h0
  obtain ⟨w, hw, rfl⟩ := openInterface_ok ho
  cases he
  have hst' : status { t with interface := some w.elm, hist := w.hist } = w.elm.status := rfl
  obtain ⟨evs, low, q, hh, hre, hq, hqn, hs⟩ := ElmM.construct_lesser hw (by rw [← hst']; exact h0) (by rw [← hst']; exact h1) (by rw [hep]; simp)
  have hn : portName { t with interface := some w.elm, hist := w.hist } = port := by simp [portName, Elm.portName, hq, hqn]
  rw [hn]
  refine ⟨t.hist, evs, low, hh, ?_, hre, hs⟩
  rcases hport with ⟨h5, h6⟩ | h5
  · exact Or.inl ⟨h5, by rw [h6]⟩
  · exact Or.inr h5

/-- The claim in full: if the constructor (with an existing protocol, or none given) returns an
object that is connected to the adapter but not to the car, then it is ELM_CONNECTED exactly if the
voltage was checked and low, or not checked; and the car has not answered: no line that was received
has a reply to `0100` in it. -/
def C109_full : Prop :=
  ∀ (dev : Device) (fl : Str → Option PyFloat) (a : Args) (s : OW), Constructed dev fl a s → (∀ id, a.cfg.protocol = some id → id ∈ knownIds) →
    status s ≠ .notConnected → status s ≠ .carConnected →
    (∃ pre evs low, s.hist = pre ++ evs ∧ Reaches fl (portName s) a.cfg low evs ∧
      (status s = .elmConnected ↔ (a.cfg.checkVoltage = true → low = true))) ∧
    ∀ b lines, .read (some b) ∈ s.hist → LinesOf b lines → ∀ l ∈ lines, ¬ Within "41 00".toList l

/-- What holds for OBD_CONNECTED: only with the voltage check. The adapter acknowledged the three settings,
the voltage was not low, and the negotiation of the protocol was in vain; this is the last that was
said on the port that `port_name()` names. -/
theorem C109_obd_partial (dev : Device) (fl : Str → Option PyFloat) (a : Args) (s : OW) (hc : Constructed dev fl a s)
    (hs : status s = .obdConnected) :
    a.cfg.checkVoltage = true ∧ ∃ pre evs, s.hist = pre ++ evs ∧
      (a.portstr = some (portName s) ∧ pre = [] ∨ a.portstr = none ∧ portName s ∈ a.ports) ∧ Reaches fl (portName s) a.cfg false evs := by
  obtain ⟨pre, evs, low, h1, h2, h3, h4⟩ := constructed_lesser hc (by rw [hs]; simp) (by rw [hs]; simp)
  rw [hs] at h4
  cases hv : a.cfg.checkVoltage with
  | false => simp [hv] at h4
  | true =>
    cases low with
    | true => simp [hv] at h4
    | false => exact ⟨rfl, pre, evs, h1, h2, h3⟩

/-- What holds for ELM_CONNECTED: with the voltage check, the adapter acknowledged the three settings
and the voltage was low, which is the last that was said; without it, the negotiation of the
protocol was in vain. -/
theorem C109_elm_partial (dev : Device) (fl : Str → Option PyFloat) (a : Args) (s : OW) (hc : Constructed dev fl a s)
    (hs : status s = .elmConnected) :
    ∃ pre evs, s.hist = pre ++ evs ∧
      (a.portstr = some (portName s) ∧ pre = [] ∨ a.portstr = none ∧ portName s ∈ a.ports) ∧
      Reaches fl (portName s) a.cfg a.cfg.checkVoltage evs := by
  obtain ⟨pre, evs, low, h1, h2, h3, h4⟩ := constructed_lesser hc (by rw [hs]; simp) (by rw [hs]; simp)
  rw [hs] at h4
  refine ⟨pre, evs, h1, h2, ?_⟩
  cases hv : a.cfg.checkVoltage with
  | false =>
    cases low with
    | false => exact h3
    | true =>
      obtain ⟨e1, e2, rate, r1, r2, xs, -, -, -, -, h5⟩ := h3
      rw [hv] at h5
      exact absurd h5.1 (by simp)
  | true =>
    cases low with
    | true => exact h3
    | false => simp [hv] at h4

theorem refused_last {pr : Option Str} {xs : List (Bytes × List Str)} (h : InVain pr xs) (hk : ∀ id, pr = some id → id ∈ knownIds) :
    (∃ r, xs.getLast? = some (ascii "0100", r) ∧ Unable r) ∨ (pr = none ∧ ∃ r, xs.getLast? = some (ascii "ATDPN", r) ∧ r.length ≠ 1) := by
  cases h with
  | unknown id hn => exact absurd (hk id rfl) hn
  | requested id r r' _ hu => exact Or.inl ⟨r', rfl, hu⟩
  | unreached r r' hu => exact Or.inl ⟨r', rfl, hu⟩
  | unannounced r r' r'' _ hl => exact Or.inr ⟨rfl, r'', rfl, hl⟩
  | tried l id' r r' xs _ _ _ ht =>
    have key : ∀ ids (xs : List (Bytes × List Str)), Tried ids xs → ids ≠ [] → ∃ r, xs.getLast? = some (ascii "0100", r) ∧ Unable r := by
      intro ids xs ht
      induction ht with
      | nil => intro h; exact absurd rfl h
      | @cons id ids xs r r' hu h ih =>
        intro _
        by_cases hi : ids = []
        · subst hi; cases h; exact ⟨r', rfl, hu⟩
        · obtain ⟨r2, h1, h2⟩ := ih hi
          refine ⟨r2, ?_, h2⟩
          cases xs with
          | nil => cases h1
          | cons x xs => simpa using h1
    obtain ⟨r2, h1, h2⟩ := key _ _ ht (by decide)
    refine Or.inl ⟨r2, ?_, h2⟩
    cases xs with
    | nil => cases h1
    | cons x xs => simpa using h1

/-- Hence, with an existing protocol or none given: the last that was said is a request of the car to which the adapter said
UNABLE TO CONNECT, a low voltage, or a number of the protocol that is not one line. -/
theorem C109_last_partial (dev : Device) (fl : Str → Option PyFloat) (a : Args) (s : OW) (hc : Constructed dev fl a s)
    (hk : ∀ id, a.cfg.protocol = some id → id ∈ knownIds) (h0 : status s ≠ .notConnected) (h1 : status s ≠ .carConnected) :
    ∃ evs xs cmd r, evs <:+ s.hist ∧ Dialogue evs xs ∧ xs.getLast? = some (cmd, r) ∧
      (cmd = ascii "0100" ∧ Unable r ∨ cmd = ascii "AT RV" ∧ VoltageLow fl r ∨ cmd = ascii "ATDPN" ∧ r.length ≠ 1) := by
  obtain ⟨pre, evs, low, h2, -, ⟨e1, e2, rate, r1, r2, xs, h3, -, h4, -, h5⟩, -⟩ := constructed_lesser hc h0 h1
  have hsuf : e2 <:+ s.hist := ⟨pre ++ .open_ (portName s) none :: ((if a.cfg.startLowPower then [.write (line (ascii " ")) true] else []) ++ e1), by
    rw [h2, h3]; simp⟩
  have lift : ∀ (y : Bytes × List Str), xs.getLast? = some y →
      ((ascii "ATZ", r1) :: (ascii "ATE0", r2) :: (ascii "ATH1", ["OK".toList]) :: (ascii "ATL0", ["OK".toList]) :: xs).getLast? = some y := by
    intro y hy
    cases xs with
    | nil => cases hy
    | cons x xs => simpa using hy
  have fin : ∀ ys, InVain a.cfg.protocol ys → (∀ y, ys.getLast? = some y → xs.getLast? = some y) → ∃ cmd r, xs.getLast? = some (cmd, r) ∧
      (cmd = ascii "0100" ∧ Unable r ∨ cmd = ascii "AT RV" ∧ VoltageLow fl r ∨ cmd = ascii "ATDPN" ∧ r.length ≠ 1) := by
    intro ys hr hl
    rcases refused_last hr hk with ⟨r, g1, g2⟩ | ⟨-, r, g1, g2⟩
    · exact ⟨_, r, hl _ g1, Or.inl ⟨rfl, g2⟩⟩
    · exact ⟨_, r, hl _ g1, Or.inr (Or.inr ⟨rfl, g2⟩)⟩
  have : ∃ cmd r, xs.getLast? = some (cmd, r) ∧
      (cmd = ascii "0100" ∧ Unable r ∨ cmd = ascii "AT RV" ∧ VoltageLow fl r ∨ cmd = ascii "ATDPN" ∧ r.length ≠ 1) := by
    unfold Stopped at h5
    cases hv : a.cfg.checkVoltage with
    | false =>
      simp only [hv, Bool.false_eq_true, if_false] at h5
      exact fin xs h5.2 (fun y h => h)
    | true =>
      simp only [hv, if_true] at h5
      obtain ⟨r, ys, rfl, h6⟩ := h5
      cases low with
      | true =>
        simp only [if_true] at h6
        obtain ⟨h6, rfl⟩ := h6
        exact ⟨_, r, rfl, Or.inr (Or.inl ⟨rfl, h6⟩)⟩
      | false =>
        simp only [Bool.false_eq_true, if_false] at h6
        refine fin ys h6.2 (fun y h => ?_)
        cases ys with
        | nil => cases h
        | cons x ys => simpa using h
  obtain ⟨cmd, r, g1, g2⟩ := this
  exact ⟨e2, _, cmd, r, hsuf, h4, lift _ g1, g2⟩

/-- The demo car behind an adapter that says its protocol twice. -/
def wordy : Device := demo (("ATDPN", "A6\rA6") :: table)

def wordyObd : OW := (ObdM.construct wordy fl0 [] (some "COM1".toList) true {}).2

theorem wordy_constructed : Constructed wordy fl0 { portstr := some "COM1".toList } wordyObd := constructed_of (by decide +kernel)

theorem wordy_status : status wordyObd = .obdConnected := by decide +kernel

/-- Some reply received answers `0100`. -/
def answered0100 (h : History) : Bool :=
  h.any (fun e => match e with | .read (some b) => (cleanLines b).any (fun l => isIn "41 00".toList l) | _ => false)

/-- C109 does not hold in full: the car has answered, yet the object is not connected to it. -/
theorem C109_refuted : ¬ C109_full := by
  intro h
  obtain ⟨-, h2⟩ := h wordy fl0 _ wordyObd wordy_constructed (by simp) (by rw [wordy_status]; simp) (by rw [wordy_status]; simp)
  have h3 : answered0100 wordyObd.hist = true := by decide +kernel
  obtain ⟨e, he, h4⟩ := List.any_eq_true.1 h3
  match e, h4 with
  | .read (some b), h4 =>
    obtain ⟨l, hl, h5⟩ := List.any_eq_true.1 h4
    exact h2 b _ he (cleanLines_spec b) l hl ((isIn_within _ _).1 h5)

/-- Three adapters: a low voltage, a car that cannot be reached, and the same without the voltage check. -/
def lowVolt : Device := demo (("AT RV", "3.0V") :: table)
def noCar : Device := demo (("0100", "UNABLE TO CONNECT") :: table)

/-- `float("12.5")`, `float("3.0")` -/
def fl3 (s : Str) : Option PyFloat := if s = "12.5".toList then some (.fin 12.5) else if s = "3.0".toList then some (.fin 3) else none

example : (∃ s, Constructed lowVolt fl3 { portstr := some "COM1".toList } s ∧ status s = .elmConnected) ∧
    (∃ s, Constructed noCar fl3 { portstr := some "COM1".toList } s ∧ status s = .obdConnected) ∧
    (∃ s, Constructed noCar fl3 { portstr := some "COM1".toList, cfg := { checkVoltage := false } } s ∧ status s = .elmConnected) :=
  ⟨⟨_, constructed_of (by decide +kernel), by decide +kernel⟩, ⟨_, constructed_of (by decide +kernel), by decide +kernel⟩,
    ⟨_, constructed_of (by decide +kernel), by decide +kernel⟩⟩

end Props
