import Verif.Lemmas.Async
/-!
# A lost connection stays lost, and what the loop and `stop` do then
-/
namespace Model
open Py Spec
namespace ObdM

/-- The connection is not (or no longer) there. -/
def Gone (s : OW) : Prop := isConnected s = false

theorem gone_on {α : Type} {m : ElmM α} (h : Kept (fun w => w.elm.status ≠ .carConnected) m) : Kept Gone (onInterface m) := by
  intro s hs
  unfold onInterface
  cases hi : s.interface with
  | none => simpa [hi] using hs
  | some e =>
    have he : e.status ≠ .carConnected := by
      intro h2; simp [Gone, isConnected, status, hi, h2] at hs
    have := h ⟨e, s.hist⟩ he
    exact decide_eq_false this

theorem gone_send (dev : Device) (cmd : Bytes) (d : Bool) (m : Bytes) :
    Kept (fun w => w.elm.status ≠ .carConnected) (ElmM.send dev cmd d m) := by
  intro w hw
  rcases ElmM.send_outcome dev cmd d m w with ⟨-, he⟩ | ⟨p, l, w', hp, he, hr⟩ <;> simp only [he]
  · exact hw
  · cases hr with
    | replied bs b hb => exact hw
    | writeFailed => simp [lost]
    | readFailed bs hb => simp [lost]

theorem ostable_gone (dev : Device) : OStable dev Gone where
  send := fun cmd _ => gone_on (ElmM.kept_sendAndParse (C := fun _ => True) (fun c d m _ => gone_send dev c d m) cmd trivial trivial (fun _ h => h))
  attrs := fun _ _ _ _ h => h
  sup := fun _ _ h => h

theorem gone_close (dev : Device) : Kept Gone (close dev) := by
  unfold close
  refine Kept.bind (P := Gone) (Kept.modify (fun s hs => hs)) (fun _ => ?_)
  refine Kept.bind (P := Gone) Kept.get (fun s => ?_)
  split
  · exact Kept.pure _
  · refine Kept.bind (P := Gone) (kept_setHeader (ostable_gone dev) _) (fun _ => ?_)
    refine Kept.bind (P := Gone) (gone_on (fun w _ => by show (ElmM.close dev w).2.elm.status ≠ _; rw [(ElmM.close_any dev w).1]; simp)) (fun _ => ?_)
    exact Kept.modify (fun s hs => by simp [Gone, isConnected, status])

theorem gone_lowPower (dev : Device) : Kept Gone (lowPower dev) := by
  unfold lowPower
  refine Kept.bind (P := Gone) Kept.get (fun s => ?_)
  split
  · exact Kept.pure _
  · exact gone_on (ElmM.kept_lowPower (C := fun _ => True) (fun c d m _ => gone_send dev c d m) trivial (fun _ h => h))

theorem gone_normalPower (dev : Device) : Kept Gone (normalPower dev) := by
  unfold normalPower
  refine Kept.bind (P := Gone) Kept.get (fun s => ?_)
  split
  · exact Kept.pure _
  · exact gone_on (ElmM.kept_normalPower (C := fun _ => True) (fun c d m _ => gone_send dev c d m) trivial (fun _ h => h))

end ObdM

namespace AW
open ObdM

theorem gone_daemon {dev : Device} {fl : ElmM.FloatFn} {t : Nat} {pc : Pc} {s s' : AW} (h : s.daemonStep dev fl t pc = some s')
    (hg : Gone s.obd) : Gone s'.obd := by
  cases pc <;> simp only [daemonStep] at h
  case query it c =>
    have := kept_query (ostable_gone dev) fl c true s.obd hg
    cases hq : ObdM.query dev fl c true s.obd with
    | mk x o =>
      rw [hq] at h this
      cases x <;> simp only [Option.some.injEq] at h <;> subst h <;> exact this
  all_goals repeat' split at h
  all_goals first | (cases h; done) | (cases h; exact hg)

theorem gone_cb {dev : Device} {t : Nat} {op : AOp} {s s' : AW} (h : s.cbCall dev t op = some s') (hg : Gone s.obd) : Gone s'.obd := by
  have hstart : ∀ x : AW, x.cbStart.obd = x.obd := by
    intro x; unfold cbStart; split <;> rfl
  have hstop : ∀ x y : AW, x.cbStop t = some y → y.obd = x.obd := by
    intro x y hx; unfold cbStop at hx
    repeat' split at hx
    all_goals first | (cases hx; done) | (cases hx; rfl)
  have hm := (doModify_ctl op s).2.2.2.2.1
  unfold cbCall at h
  cases op <;> simp only at h
  case start => cases h; rw [hstart]; exact hg
  case stop => rw [hstop _ _ h]; exact hg
  case enter => rw [hstop _ _ h]; exact hg
  case exit => cases h; split
               · rw [hstart]; exact hg
               · exact hg
  case close =>
    split at h
    · cases h; exact gone_close dev s.obd hg
    · rw [hstop _ _ h]; exact hg
  case query => cases h; exact hg
  case lowPower => cases h; exact gone_lowPower dev s.obd hg
  case normalPower => cases h; exact gone_normalPower dev s.obd hg
  all_goals
    cases h
    split
    · exact hg
    · rw [hm]; exact hg

theorem gone_caller {dev : Device} {op : AOp} {pc : CPc} {s s' : AW} (h : s.callerStep dev op pc = some s') (hg : Gone s.obd) : Gone s'.obd := by
  have hafter : ∀ x : AW, (x.afterStop op).obd = x.obd := fun x => (afterStop_caller op x).2.2.2.2.1
  have hm := (doModify_ctl op s).2.2.2.2.1
  cases pc <;> simp only [callerStep] at h
  case closeObd =>
    have := gone_close dev s.obd hg
    cases hq : ObdM.close dev s.obd with
    | mk x o =>
      rw [hq] at h this
      cases x <;> simp only [Option.some.injEq] at h <;> subst h <;> exact this
  case modify =>
    cases hd : s.doModify op with
    | mk x s1 =>
      rw [hd] at hm h
      cases x <;> simp only [Option.some.injEq] at h <;> subst h
      all_goals (show Gone s1.obd; rw [hm]; exact hg)
  case power =>
    have h1 := gone_lowPower dev s.obd hg
    have h2 := gone_normalPower dev s.obd hg
    have h3 : Gone (powerCall dev op s.obd).2 := by
      unfold powerCall; split
      · exact h1
      · exact h2
    split at h
    · next e => cases h; rw [e] at h3; exact h3
    · next e => cases h; rw [e] at h3; exact h3
  case stopNone =>
    cases h; split
    · rw [hafter]; exact hg
    · exact hg
  case stopEnd => cases h; rw [hafter]; exact hg
  case ask => cases op <;> simp only [Option.some.injEq] at h <;> subst h <;> exact hg
  all_goals repeat' split at h
  all_goals first | (cases h; done) | (cases h; exact hg) | (cases h; split <;> exact hg)

theorem gone_step {dev : Device} {fl : ElmM.FloatFn} {s s' : AW} {a : Action} (h : s.step dev fl a = some s') (hg : Gone s.obd) : Gone s'.obd := by
  have hh := h
  unfold step at h
  cases a with
  | call op =>
    simp only at h
    cases hc : s.caller with
    | busy o p => rw [hc] at h; cases h
    | idle => rw [hc] at h; cases h; exact hg
  | caller =>
    simp only at h
    cases hc : s.caller with
    | idle => rw [hc] at h; cases h
    | busy o p => rw [hc] at h; exact gone_caller h hg
  | daemon t =>
    simp only at h
    cases hp : s.threads[t]? with
    | none => rw [hp] at h; cases h
    | some pc => rw [hp] at h; exact gone_daemon h hg
  | cb t op =>
    simp only at h
    split at h
    · exact gone_cb h hg
    · cases h
  | cbEnd t ok =>
    simp only at h
    split at h
    · split at h <;> cases h <;> exact hg
    · cases h
  | reorder t rest => obtain ⟨_, _, -, -, -, rfl, -⟩ := reorder_eq hh; exact hg

end AW
end Model
