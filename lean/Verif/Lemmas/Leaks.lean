import Verif.Lemmas.Hist
import Verif.Spec.Leaks
/-!
# Counting open ports
-/
namespace Model
open Py Spec

/-- The number of ports of an interface. -/
def ownPort (e : Elm) : Nat := if e.port = none then 0 else 1

/-- `k` ports are open besides that of the interface. -/
def Bal (k : Nat) (w : EW) : Prop := portsOpened w.hist = portsClosed w.hist + k + ownPort w.elm

theorem opened_append (a b : History) : portsOpened (a ++ b) = portsOpened a + portsOpened b := List.countP_append
theorem closed_append (a b : History) : portsClosed (a ++ b) = portsClosed a + portsClosed b := List.countP_append
theorem attempts_append (a b : History) : openAttempts (a ++ b) = openAttempts a + openAttempts b := List.countP_append

theorem opened_reads (bs : List Bytes) : portsOpened (reads bs) = 0 := by
  simp [portsOpened, reads, List.countP_eq_zero]
theorem closed_reads (bs : List Bytes) : portsClosed (reads bs) = 0 := by
  simp [portsClosed, reads, List.countP_eq_zero]

theorem bal_keep {k : Nat} {w w' : EW} (h : Bal k w) (evs : History) (h1 : w'.hist = w.hist ++ evs) (h2 : portsOpened evs = 0) (h3 : portsClosed evs = 0)
    (h4 : w'.elm.port = none ↔ w.elm.port = none) : Bal k w' := by
  unfold Bal ownPort at *
  rw [h1, opened_append, closed_append, h2, h3]
  simp only [h4]
  omega

theorem bal_lose {k : Nat} {w w' : EW} (h : Bal k w) (evs : History) (h1 : w'.hist = w.hist ++ evs) (h2 : portsOpened evs = 0) (h3 : portsClosed evs = 1)
    (h4 : w.elm.port ≠ none) (h5 : w'.elm.port = none) : Bal k w' := by
  unfold Bal ownPort at *
  rw [h1, opened_append, closed_append, h2, h3, if_pos h5]
  rw [if_neg h4] at h
  omega

namespace ElmM
variable {dev : Device} {k : Nat}

theorem bal_send (c : Bytes) (d : Bool) (m : Bytes) : Kept (Bal k) (send dev c d m) := by
  intro w hw
  rcases send_outcome dev c d m w with ⟨-, h⟩ | ⟨p, l, w', hp, h, hr⟩ <;> rw [h]
  · exact hw
  · cases hr with
    | replied bs b _ =>
      refine bal_keep hw _ rfl ?_ ?_ Iff.rfl
      · show portsOpened ([Event.write (line c) true] ++ (reads bs ++ [.read (some b)])) = 0
        rw [opened_append, opened_append, opened_reads]; rfl
      · show portsClosed ([Event.write (line c) true] ++ (reads bs ++ [.read (some b)])) = 0
        rw [closed_append, closed_append, closed_reads]; rfl
    | writeFailed => exact bal_lose hw _ rfl rfl rfl (by simp [hp]) rfl
    | readFailed bs _ =>
      refine bal_lose hw _ rfl ?_ ?_ (by simp [hp]) rfl
      · show portsOpened ([Event.write (line c) true] ++ (reads bs ++ [.read none, .close])) = 0
        rw [opened_append, opened_append, opened_reads]; rfl
      · show portsClosed ([Event.write (line c) true] ++ (reads bs ++ [.read none, .close])) = 1
        rw [closed_append, closed_append, closed_reads]; rfl

theorem bal_elm {f : Elm → Elm} (hf : ∀ e, (f e).port = none ↔ e.port = none) : Kept (Bal k) (modifyElm f) := by
  intro w hw
  exact bal_keep hw [] (by simp [modifyElm]) rfl rfl (hf _)

theorem bal_write (c : Bytes) : Kept (Bal k) (write dev c) := by
  intro w hw
  cases hp : w.elm.port with
  | none => simp only [write, EW.write, hp]; exact hw
  | some p =>
    simp only [write]
    rcases write_some dev c w p hp with h | h <;> rw [h]
    · exact bal_keep hw _ rfl rfl rfl Iff.rfl
    · exact bal_lose hw _ rfl rfl rfl (by simp [hp]) rfl

theorem bal_close : Kept (Bal k) (close dev) := by
  intro w hw
  unfold close
  rw [PyM.bind_ok (show modifyElm _ w = (.ok (), _) from rfl), PyM.bind_ok (show getElm _ = (.ok _, _) from rfl)]
  cases hp : w.elm.port with
  | none =>
    simp only
    exact bal_keep hw [] (by simp) rfl rfl (by simp [hp])
  | some p =>
    simp only
    rw [PyM.bind_ok (show write dev (ascii "ATZ") _ = (.ok (), _) from rfl), PyM.bind_ok (show getElm _ = (.ok _, _) from rfl)]
    rcases write_some dev (ascii "ATZ") { w with elm := { w.elm with port := some p, status := .notConnected, protocol := none } } p rfl with e | e
    · rw [e]
      exact bal_lose hw [.write (line (ascii "ATZ")) true, .close] (by simp) rfl rfl (by simp [hp]) rfl
    · rw [e]
      exact bal_lose hw [.write (line (ascii "ATZ")) false, .close] rfl rfl rfl (by simp [hp]) rfl

theorem bal_tryRates (t : Rat) (l : List Nat) : Kept (Bal k) (tryRates dev t l) := by
  have ht : Kept (Bal k) (setTimeout t) := bal_elm (by intro e; simp)
  induction l with
  | nil => exact Kept.bind ht (fun _ => Kept.pure _)
  | cons b l ih =>
    unfold tryRates
    refine Kept.bind (fun w hw => bal_keep hw _ rfl rfl rfl (by simp [probe])) (fun r => ?_)
    split
    · exact Kept.bind ht (fun _ => Kept.pure _)
    · exact ih

theorem bal_baud (b : Option Nat) : Kept (Bal k) (setBaudrate dev b) := by
  unfold setBaudrate
  refine Kept.bind Kept.getElm (fun e => ?_)
  split
  · split
    · exact Kept.pure _
    · unfold autoBaudrate
      refine Kept.bind Kept.getElm (fun e => ?_)
      split
      · exact Kept.throw _
      · exact Kept.bind (bal_elm (by intro e; simp)) (fun _ => bal_tryRates _ _)
  · split
    · exact Kept.throw _
    · intro w hw
      simp only
      split
      · exact bal_keep hw _ rfl rfl rfl Iff.rfl
      · exact bal_keep hw _ rfl rfl rfl (by simp)

theorem bal_stable : Stable dev (fun _ => True) (Bal k) where
  send := fun c d m _ => bal_send c d m
  proto := fun _ _ hw => bal_keep hw [] (by simp) rfl rfl Iff.rfl

theorem bal_steps (pr : Option Str) : Steps dev pr (Bal k) where
  send := fun _ _ d m => bal_send _ d m
  set := kept_setProtocol bal_stable pr (fun _ => trivial) trivial trivial trivial
  close := bal_close
  status := fun _ _ hw => bal_keep hw [] (by simp) rfl rfl Iff.rfl
  baud := bal_baud
  wake := bal_write _

theorem bal_construct {fl : FloatFn} {port : Str} {cfg : Config} {hist : History} (h : portsOpened hist = portsClosed hist + k) :
    Bal k (construct dev fl port cfg hist).2 := by
  have hS := bal_steps (dev := dev) (k := k) cfg.protocol
  have main : Kept (Bal k) (do
      if ¬ (← setBaudrate dev cfg.baudrate) then error dev
      else initAt dev fl cfg.protocol cfg.checkVoltage) := by
    refine Kept.bind (hS.baud _) (fun b => ?_)
    split
    · exact hS.close
    · exact kept_initAt hS fl _
  have h0 : ∀ x, Bal k ⟨fresh cfg.timeout, hist ++ [.open_ port (some x)]⟩ := by
    intro x
    unfold Bal
    rw [opened_append, closed_append, h]
    rfl
  unfold construct init
  simp only
  cases ho : dev.openPort hist port with
  | some x =>
    cases x with
    | serialException => exact hS.close _ (h0 _)
    | osError => exact hS.close _ (h0 _)
    | _ => exact h0 _
  | none =>
    simp only
    rw [PyM.bind_ok (show modifyElm _ _ = (.ok (), _) from rfl)]
    have h1 : ∀ e : Elm, e.port ≠ none → Bal k ⟨e, hist ++ [.open_ port none]⟩ := by
      intro e he
      unfold Bal ownPort
      simp only
      rw [opened_append, closed_append, h, if_neg he]
      show portsClosed hist + k + 1 = portsClosed hist + 0 + k + 1
      omega
    split
    · exact Kept.bind hS.wake (fun _ => main) _ (h1 _ (by simp))
    · exact main _ (h1 _ (by simp))

end ElmM

namespace ObdM
variable {dev : Device} {fl : ElmM.FloatFn}

/-- `k` ports are open besides that of the object. -/
def OBal (k : Nat) (s : OW) : Prop :=
  portsOpened s.hist = portsClosed s.hist + k + (match s.interface with
    | some e => ownPort e
    | none => 0)

theorem obal_on {α : Type} {m : ElmM α} {k : Nat} (hm : Kept (Bal k) m) : Kept (OBal k) (onInterface m) := by
  intro s h2
  unfold OBal at h2
  unfold onInterface
  cases hi : s.interface with
  | none => unfold OBal; simp only [hi]; simpa [hi] using h2
  | some e =>
    rw [hi] at h2
    exact hm ⟨e, s.hist⟩ h2

theorem obal_stable (k : Nat) : OStable dev (OBal k) where
  send := fun cmd _ => obal_on (ElmM.kept_sendAndParse (C := fun _ => True) (fun c d m _ => ElmM.bal_send c d m) cmd trivial trivial
    (fun _ hw => bal_keep hw [] (by simp) rfl rfl Iff.rfl))
  attrs := fun _ _ _ _ h => h
  sup := fun _ _ h => h

theorem obal_close (k : Nat) (s : OW) (hs : OSound s) (h : OBal k s) : OBal k (close dev s).2 := by
  unfold close
  rw [PyM.bind_ok (show PyM.modify _ s = (.ok (), _) from rfl), PyM.bind_ok (show PyM.get _ = (.ok _, _) from rfl)]
  cases hi : s.interface with
  | none => simp only; unfold OBal at *; simpa [hi] using h
  | some e =>
    simp only
    have h0 : OBal k { s with supported := [], interface := some e } := by unfold OBal at *; simpa [hi] using h
    have hs0 : OSound { s with supported := [], interface := some e } := ⟨hs.1, fun e' he' => hs.2 e' (by rw [hi]; exact he')⟩
    have h1 := kept_setHeader (obal_stable (dev := dev) k) engineHeader _ h0
    have hs1 := kept_setHeader (ostable_sound dev) engineHeader _ hs0
    rw [PyM.bind_apply]
    cases hm : setHeader dev engineHeader { s with supported := [], interface := some e } with
    | mk r s1 =>
      rw [hm] at h1 hs1
      cases r with
      | error x => exact h1
      | ok _ =>
        show OBal k ((onInterface (ElmM.close dev) >>= fun _ => PyM.modify (fun s => { s with interface := none })) s1).2
        have h2 := obal_on (ElmM.bal_close (dev := dev) (k := k)) s1 h1
        rw [PyM.bind_apply]
        cases hc : onInterface (ElmM.close dev) s1 with
        | mk r s2 =>
          rw [hc] at h2
          cases r with
          | error x => exact h2
          | ok _ =>
            show OBal k { s2 with interface := none }
            unfold OBal at h2 ⊢
            -- the port was closed
            unfold onInterface at hc
            cases hi1 : s1.interface with
            | none => rw [hi1] at hc; cases hc
            | some e1 =>
              rw [hi1] at hc
              have hp : (ElmM.close dev ⟨e1, s1.hist⟩).2.elm.port = none := by
                have := (ElmM.close_any dev ⟨e1, s1.hist⟩).2.1
                exact this
              simp only at hc
              have h3 := congrArg (fun x => x.2.interface) hc
              simp only at h3
              rw [← h3] at h2
              simp only [ownPort, hp, if_true] at h2
              exact h2

theorem obal_call (k : Nat) (c : Call) (s : OW) (hs : OSound s) (h : OBal k s) : OBal k (c.after dev fl s) := by
  cases c with
  | query c force => exact kept_query (obal_stable k) fl c force s h
  | lowPower =>
    refine Kept.bind (P := OBal k) Kept.get (fun s' => ?_) s h
    split
    · exact Kept.pure _
    · exact obal_on (ElmM.kept_lowPower (C := fun _ => True) (fun c d m _ => ElmM.bal_send c d m) trivial (fun _ hw => bal_keep hw [] (by simp) rfl rfl Iff.rfl))
  | normalPower =>
    refine Kept.bind (P := OBal k) Kept.get (fun s' => ?_) s h
    split
    · exact Kept.pure _
    · exact obal_on (ElmM.kept_normalPower (C := fun _ => True) (fun c d m _ => ElmM.bal_send c d m) trivial (fun _ hw => bal_keep hw [] (by simp) rfl rfl Iff.rfl))
  | close => exact obal_close k s hs h

theorem obal_session (k : Nat) (cs : List Call) (s : OW) (hs : OSound s) (h : OBal k s) : OBal k (session dev fl cs s) := by
  induction cs generalizing s with
  | nil => exact h
  | cons c cs ih => exact ih _ (osound_session dev fl [c] s hs) (obal_call k c s hs h)

theorem obal_open {port : Str} {cfg : ElmM.Config} {s s' : OW} {k : Nat} (h : openInterface dev fl port cfg s = (.ok (), s'))
    (hb : portsOpened s.hist = portsClosed s.hist + k) : OBal k s' := by
  obtain ⟨w, hw, rfl⟩ := openInterface_ok h
  have := ElmM.bal_construct (dev := dev) (fl := fl) (port := port) (cfg := cfg) hb
  rw [hw] at this
  exact this

theorem attempts_noOpen {evs : History} (h : NoOpen evs) : openAttempts evs = 0 := by
  unfold openAttempts
  rw [List.countP_eq_zero]
  intro e he
  cases e with
  | open_ p r => exact absurd rfl (h _ he p r)
  | _ => simp

theorem ext_stable (h0 : History) : HStable dev (fun _ => True) (fun h => Ext h0 h) where
  write_ok := fun h cmd hR _ _ => hR.more (by simp [NoOpen])
  write_fail := fun h cmd hR _ _ => hR.more (by simp [NoOpen])
  read_ok := fun h m b hR _ => hR.more (by simp [NoOpen])
  read_fail := fun h m hR _ => hR.more (by simp [NoOpen])
  close := fun h hR => hR.more (by simp [NoOpen])
  probe := fun h b hR => hR.more (by simp [NoOpen])
  setBaud := fun h b hR => hR.more (by simp [NoOpen])

theorem attempts_open {port : Str} {cfg : ElmM.Config} {s s' : OW} (h : openInterface dev fl port cfg s = (.ok (), s')) :
    openAttempts s'.hist = openAttempts s.hist + 1 := by
  obtain ⟨w, hw, rfl⟩ := openInterface_ok h
  have := (ext_stable (dev := dev) (s.hist ++ [.open_ port (dev.openPort s.hist port)])).elmConstruct (cfg := cfg) (by simp [HStable.Setup])
    (fun _ => trivial) fl port s.hist (Ext.refl _)
  rw [hw] at this
  obtain ⟨evs, h1, h2⟩ := this
  simp only at h1 ⊢
  rw [h1, attempts_append, attempts_append, attempts_noOpen h2]
  rfl

theorem obal_tryPorts {cfg : ElmM.Config} (ports : List Str) {s s' : OW} {k : Nat} (h : tryPorts dev fl cfg ports s = (.ok (), s'))
    (hne : ports ≠ []) (hb : portsOpened s.hist = portsClosed s.hist + k) :
    ∃ j, OBal j s' ∧ j + openAttempts s.hist + 1 = k + openAttempts s'.hist := by
  induction ports generalizing s k with
  | nil => exact absurd rfl hne
  | cons p ports ih =>
    unfold tryPorts at h
    obtain ⟨_, s1, h1, h⟩ := bind_inv h
    obtain ⟨s2, s3, h2, h⟩ := bind_inv h
    cases h2
    have hb1 := obal_open h1 hb
    have ha1 := attempts_open h1
    split at h
    · cases h
      exact ⟨k, hb1, by omega⟩
    · next hst =>
      obtain ⟨w, hw, rfl⟩ := openInterface_ok h1
      have hcar : w.elm.status = .carConnected := by
        cases hs : w.elm.status with
        | carConnected => rfl
        | _ => exact absurd (by simp only [status, hs]; decide) hst
      have hown : ownPort w.elm = 1 := by
        unfold ownPort
        rw [if_neg]
        intro hp
        have := (ElmM.construct_linked hw).2 hp
        rw [hcar] at this; cases this
      unfold OBal at hb1
      simp only [hown] at hb1
      by_cases hp : ports = []
      · subst hp
        cases h
        exact ⟨k, by unfold OBal; simp only [hown]; exact hb1, by omega⟩
      · obtain ⟨j, h3, h4⟩ := ih h hp (k := k + 1) (by simpa [Nat.add_assoc] using hb1)
        exact ⟨j, h3, by simp only at ha1 h4; omega⟩

theorem obal_closeIfFailed {k : Nat} {s : OW} (hs : OSound s) (h : OBal k s) : OBal k (closeIfFailed dev s).2 ∧ openAttempts (closeIfFailed dev s).2.hist = openAttempts s.hist := by
  unfold closeIfFailed
  rw [PyM.bind_ok (show PyM.get s = (.ok s, s) from rfl)]
  split
  · next hst =>
    refine ⟨obal_close k s hs h, ?_⟩
    rw [close_nc hs hst]
  · exact ⟨h, rfl⟩

theorem obal_construct {a : Args} {s : OW} (h : Constructed dev fl a s) :
    ∃ k, OBal k s ∧ k = openAttempts s.hist - 1 ∧ (a.portstr ≠ none → openAttempts s.hist = 1) := by
  unfold Constructed construct at h
  obtain ⟨_, s1, h1, h⟩ := bind_inv h
  have hload : ∀ k, OBal k s1 → OBal k s ∧ openAttempts s.hist = openAttempts s1.hist := by
    intro k hk
    have h2 := kept_loadCommands (obal_stable (dev := dev) k) fl s1 hk
    have h3 := kept_loadCommands (ostable_ext dev s1.hist) fl s1 (Ext.refl _)
    rw [h] at h2 h3
    refine ⟨h2, ?_⟩
    obtain ⟨evs, h4, h5⟩ := h3
    rw [h4, attempts_append, attempts_noOpen h5]; rfl
  have h0 : OSound { supported := baseCommands, fast := a.fast } := ⟨shape_nil, by simp⟩
  unfold connect at h1
  cases hp : a.portstr with
  | none =>
    rw [hp] at h1
    simp only at h1
    split at h1
    · cases h1
      obtain ⟨h3, h4⟩ := hload 0 rfl
      refine ⟨0, h3, ?_, by simp⟩
      rw [h4]; rfl
    · next hne =>
      obtain ⟨_, s2, h2, h3⟩ := bind_inv h1
      obtain ⟨j, h4, h5⟩ := obal_tryPorts a.ports h2 (by intro h; rw [h] at hne; exact hne rfl) (k := 0) rfl
      have h6 := obal_closeIfFailed (dev := dev) (tryPorts_sound a.ports h2 h0) h4
      rw [h3] at h6
      obtain ⟨h7, h8⟩ := hload j h6.1
      have h9 : openAttempts ([] : History) = 0 := rfl
      simp only [h9] at h5
      have h6' := h6.2
      simp only at h6'
      exact ⟨j, h7, by omega, by simp⟩
  | some p =>
    rw [hp] at h1
    obtain ⟨_, s2, h2, h3⟩ := bind_inv h1
    have h4 := obal_open h2 (k := 0) rfl
    have h5 := attempts_open h2
    have h6 := obal_closeIfFailed (dev := dev) (openInterface_sound h2 h0) h4
    rw [h3] at h6
    obtain ⟨h7, h8⟩ := hload 0 h6.1
    have h9 : openAttempts ([] : History) = 0 := rfl
    simp only [h9] at h5
    have h6' := h6.2
    simp only at h6'
    exact ⟨0, h7, by omega, fun _ => by omega⟩

theorem attempts_tryPorts {cfg : ElmM.Config} (ports : List Str) {s s' : OW} (h : tryPorts dev fl cfg ports s = (.ok (), s')) :
    openAttempts s'.hist ≤ openAttempts s.hist + ports.length := by
  induction ports generalizing s with
  | nil => cases h; exact Nat.le_refl _
  | cons p ports ih =>
    unfold tryPorts at h
    obtain ⟨_, s1, h1, h⟩ := bind_inv h
    obtain ⟨s2, s3, h2, h⟩ := bind_inv h
    cases h2
    have ha1 := attempts_open h1
    simp only [List.length_cons]
    split at h
    · cases h; omega
    · have := ih h; omega

theorem attempts_le {a : Args} {s : OW} (h : Constructed dev fl a s) (hp : a.portstr = none) : openAttempts s.hist ≤ a.ports.length := by
  unfold Constructed construct at h
  obtain ⟨_, s1, h1, h⟩ := bind_inv h
  have hload : openAttempts s.hist = openAttempts s1.hist := by
    have h3 := kept_loadCommands (ostable_ext dev s1.hist) fl s1 (Ext.refl _)
    rw [h] at h3
    obtain ⟨evs, h4, h5⟩ := h3
    rw [h4, attempts_append, attempts_noOpen h5]; rfl
  have h0 : OSound { supported := baseCommands, fast := a.fast } := ⟨shape_nil, by simp⟩
  rw [hload]
  unfold connect at h1
  rw [hp] at h1
  simp only at h1
  split at h1
  · cases h1; exact Nat.zero_le _
  · obtain ⟨_, s2, h2, h3⟩ := bind_inv h1
    have h4 := attempts_tryPorts a.ports h2
    have h9 : openAttempts ([] : History) = 0 := rfl
    simp only [h9] at h4
    have h6 : openAttempts (closeIfFailed dev s2).2.hist = openAttempts s2.hist := by
      unfold closeIfFailed
      rw [PyM.bind_ok (show PyM.get s2 = (.ok s2, s2) from rfl)]
      split
      · next hst => rw [close_nc (tryPorts_sound a.ports h2 h0) hst]
      · rfl
    rw [h3] at h6
    simp only at h6
    omega

theorem obal_inUse {k : Nat} {s : OW} (hs : OSound s) (h : OBal k s) : portsOpened s.hist = portsClosed s.hist + k + inUse s := by
  unfold OBal at h
  rw [h]
  congr 1
  unfold inUse
  cases hi : s.interface with
  | none => simp [status, hi]
  | some e =>
    have hl := (hs.2 e hi).2.1
    simp only [ownPort, status, hi]
    by_cases hp : e.port = none
    · rw [if_pos hp, if_pos (hl.2 hp)]
    · rw [if_neg hp, if_neg (fun h => hp (hl.1 h))]

end ObdM
end Model
