import Verif.Lemmas.Repeat
import Verif.Lemmas.Protocol
import Mathlib.Data.List.Nodup
/-!
# The numbers of frames remembered by the library
-/
namespace Model
open Py Spec

theorem fromTx_sum (fs : List Frame) (ts : List (Option Nat)) (hn : ts.Nodup) :
    (ts.map (fun t => (fromTx fs t).length)).sum ≤ fs.length := by
  induction fs with
  | nil =>
    have : ∀ ts : List (Option Nat), (ts.map (fun t => (fromTx [] t).length)).sum = 0 := by
      intro ts; induction ts <;> simp_all [fromTx]
    rw [this]; exact Nat.zero_le _
  | cons f fs ih =>
    have h1 : ∀ ts : List (Option Nat), (ts.map (fun t => (fromTx (f :: fs) t).length)).sum =
        ts.count f.txId + (ts.map (fun t => (fromTx fs t).length)).sum := by
      intro ts
      induction ts with
      | nil => rfl
      | cons t ts ih =>
        simp only [List.map_cons, List.sum_cons, ih, List.count_cons]
        unfold fromTx
        by_cases h : f.txId = t
        · subst h; simp; omega
        · have h' : t ≠ f.txId := fun e => h e.symm
          simp [h, h']; omega
    rw [h1]
    have := List.nodup_iff_count_le_one.1 hn f.txId
    simp only [List.length_cons]; omega

theorem frames_le (p : Proto) (lines : List Str) : (framesOf p lines).length ≤ (obdLines lines).length := by
  unfold framesOf
  exact List.length_filterMap_le _ _

theorem lines_split (lines : List Str) : (obdLines lines).length + (nonObdLines lines).length = lines.length := by
  induction lines with
  | nil => rfl
  | cons l ls ih =>
    unfold obdLines nonObdLines at *
    by_cases h : isHex (noSpaces l) = true
    · simp [h]; omega
    · simp [h]; omega

/-- A reply has at most as many frames as lines. -/
theorem countFrames_le {o : ProtoObj} {lines : List Str} {ms : List Message} (h : o.call lines = .ok ms) :
    ObdM.countFrames ms ≤ lines.length := by
  obtain ⟨-, rfl⟩ := (call_ok_iff _ _ _ _).1 h
  have h1 : ObdM.countFrames (ecuMessages o.cls o.ecuMap (framesOf o.cls lines)) ≤ (framesOf o.cls lines).length := by
    refine Nat.le_trans ?_ (fromTx_sum _ _ ((sortBy_perm txKey _).nodup_iff.2 (groupFrames_nodup (framesOf o.cls lines))))
    unfold ecuMessages txs ObdM.countFrames
    generalize sortBy txKey (groupFrames (framesOf o.cls lines)).keys = ts
    generalize framesOf o.cls lines = fs
    induction ts with
    | nil => simp
    | cons t ts ih =>
      rw [List.filterMap_cons]
      simp only [List.map_cons, List.sum_cons]
      split
      · omega
      · rename_i m hm
        split at hm
        · cases hm
          simp only [List.map_cons, List.sum_cons]
          exact Nat.add_le_add_left ih _
        · cases hm
  have h2 : ∀ l : List Str, ((l.map chatter).map (fun m => m.frames.length)).sum = l.length := by
    intro l; induction l with
    | nil => rfl
    | cons a l ih => simp only [List.map_cons, List.sum_cons, ih]; simp [chatter]; omega
  have h3 := frames_le o.cls lines
  have h4 := lines_split lines
  have h5 := h2 (nonObdLines lines)
  unfold ObdM.countFrames at *
  rw [List.map_append, List.sum_append, h5]
  omega

namespace ObdM

/-- The counts come from replies. -/
def Counts (s : OW) : Prop := ∀ e o, s.interface = some e → e.status ≠ .notConnected → e.protocol = some o →
  ∀ k n, s.frameCounts.get? k = some n → ∃ str lines ms, Replied s.hist str lines ∧ (str = [] ∨ str = k.1) ∧
    o.call lines = .ok ms ∧ n = countFrames ms

theorem counts_append {s s' : OW} {e e' : Elm} {o : ProtoObj} {evs : History} (hl : Live s e o) (h : Counts s)
    (h0 : s'.interface = some e') (hp : e'.protocol = some o) (h1 : s'.hist = s.hist ++ evs)
    (h2 : s'.frameCounts = s.frameCounts) : Counts s' := by
  intro e1 o1 h3 h4 h5 k n h6
  rw [h0] at h3; cases h3
  rw [hp] at h5; cases h5
  rw [h2] at h6
  obtain ⟨str, lines, ms, g1, g2, g3, g4⟩ := h e o hl.iface hl.status hl.proto k n h6
  exact ⟨str, lines, ms, h1 ▸ replied_append g1, g2, g3, g4⟩

theorem counts_nc {s : OW} (h : status s = .notConnected) : Counts s := by
  intro e o h1 h2
  simp only [status, h1] at h
  exact absurd h h2

theorem counts_set {dev : Device} {hd : Bytes} {s : OW} {e : Elm} {o : ProtoObj} (hl : Live s e o) (h : Counts s) :
    Counts (setHeader dev hd s).2 := by
  by_cases hh : hd = s.lastHeader
  · rw [setHeader_same hh]; exact h
  · rcases setHeader_cases (dev := dev) hl hh with ⟨pre, l, evs, x, h1, h2, h3, h4⟩ | ⟨pre, l, evs, ms, h1, h2, h3, h4⟩ | ⟨evs, h1, h4⟩ <;> rw [h4]
    · exact counts_append hl h rfl hl.proto rfl rfl
    · exact counts_append hl h rfl hl.proto rfl rfl
    · exact counts_nc rfl

theorem build_new {s : OW} {c : OBDCommand} (h : s.frameCounts.get? c.key = none) : buildCommand s c = [] ∨ buildCommand s c = c.command := by
  have : withCount s c = c.command := by
    unfold withCount; rw [h]; split <;> rfl
  unfold buildCommand
  rw [this]
  split
  · exact Or.inl rfl
  · exact Or.inr rfl

theorem counts_body {dev : Device} {fl : ElmM.FloatFn} {c : OBDCommand} {s : OW} {e : Elm} {o : ProtoObj} (hl : Live s e o)
    (h : Counts s) : Counts (body dev fl c s).2 := by
  rcases body_cases (dev := dev) (fl := fl) (c := c) hl with ⟨pre, l, evs, x, h1, h2, h3, h4⟩ | ⟨pre, l, evs, ms, h1, h2, h3, h4⟩ | ⟨evs, h1, h4⟩ <;> rw [h4]
  · exact counts_append hl h rfl hl.proto rfl rfl
  · by_cases hm : s.frameCounts.mem c.key = true
    · refine counts_append hl h rfl hl.proto rfl ?_
      simp [noted, woken, hm]
    · have hbase : Counts (woken s e evs) := counts_append hl h rfl hl.proto rfl rfl
      intro e1 o1 g1 g2 g3 k n g4
      cases g1
      have g4 : (s.frameCounts.set c.key (countFrames ms)).get? k = some n := by
        simpa [noted, woken, hm] using g4
      rw [Dict.get?_set] at g4
      by_cases hk : c.key = k
      · subst hk
        have hn : countFrames ms = n := by simpa using g4
        have ho : o1 = o := by rw [hl.proto] at g3; cases g3; rfl
        subst ho
        refine ⟨buildCommand s c, l, ms, dialogue_replied h2, ?_, h3, hn.symm⟩
        refine build_new ?_
        cases hg : s.frameCounts.get? c.key with
        | none => rfl
        | some v => exact absurd (by simp [Dict.mem, hg]) hm
      · have g4 : s.frameCounts.get? k = some n := by simpa [hk, Ne.symm hk] using g4
        exact hbase _ o1 rfl g2 g3 k n g4
  · exact counts_nc rfl

theorem body_status_nc {dev : Device} {fl : ElmM.FloatFn} {c : OBDCommand} {s : OW} (h : status s = .notConnected) :
    status (body dev fl c s).2 = .notConnected := by
  cases hi : s.interface with
  | none =>
    have : body dev fl c s = (.error .attributeError, s) := by
      unfold body
      rw [PyM.bind_ok (show PyM.get s = (.ok s, s) from rfl), PyM.bind_apply]
      have : onInterface (ElmM.sendAndParse dev (buildCommand s c)) s = (.error .attributeError, s) := by
        unfold onInterface; rw [hi]
      rw [this]
    rw [this]; exact h
  | some e =>
    have he : e.status = .notConnected := by simpa [status, hi] using h
    rw [body_nc hi he]
    simpa [status] using h

theorem counts_query {dev : Device} {fl : ElmM.FloatFn} {c : OBDCommand} {force : Bool} {s : OW}
    (hs : OSound s) (h : Counts s) : Counts (query dev fl c force s).2 := by
  rcases query_cases dev fl c force s with ⟨h1, -⟩ | ⟨x, h1, -⟩ | ⟨h1, hst, -⟩ <;> rw [h1]
  · exact h
  · exact h
  · obtain ⟨e, o, hl⟩ := live_of_sound hs hst
    rw [exchange_eq]
    have h2 := counts_set (dev := dev) (hd := c.header) hl h
    have h3 := live_set (dev := dev) (hd := c.header) hs
    rw [PyM.bind_apply]
    cases h4 : setHeader dev c.header s with
    | mk r s1 =>
      rw [h4] at h2 h3
      cases r with
      | error x => exact h2
      | ok u =>
        simp only
        by_cases hst1 : status s1 = .notConnected
        · exact counts_nc (body_status_nc hst1)
        · obtain ⟨e1, o1, hl1⟩ := live_of_sound h3 hst1
          exact counts_body hl1 h2

theorem counts_onSend {α : Type} {m : ElmM α} {s : OW} {e : Elm} {o : ProtoObj} (hl : Live s e o) (h : Counts s)
    (hm : ∃ evs, (m ⟨e, s.hist⟩).2.hist = s.hist ++ evs ∧ (m ⟨e, s.hist⟩).2.elm.protocol = some o) :
    Counts (onInterface m s).2 := by
  obtain ⟨evs, h1, h2⟩ := hm
  unfold onInterface
  rw [hl.iface]
  exact counts_append hl h rfl h2 h1 rfl

theorem counts_lowPower (dev : Device) (s : OW) (hs : OSound s) (h : Counts s) : Counts (lowPower dev s).2 := by
  by_cases hst : status s = .notConnected
  · rw [lowPower_nc hst]; exact h
  · obtain ⟨e, o, hl⟩ := live_of_sound hs hst
    unfold lowPower
    rw [PyM.bind_ok (show PyM.get s = (.ok s, s) from rfl), hl.iface]
    refine counts_onSend hl h ?_
    unfold ElmM.lowPower
    rw [PyM.bind_ok (show ElmM.getElm _ = (.ok e, _) from rfl), if_neg hl.status]
    rcases send_cases dev (ascii "ATLP") true elmLpActive ⟨e, s.hist⟩ hl.port with ⟨l, evs, g1, g⟩ | ⟨evs, g1, g⟩
    · rw [PyM.bind_ok g]
      exact ⟨evs, by split <;> rfl, by split <;> exact hl.proto⟩
    · rw [PyM.bind_ok g]
      exact ⟨evs, by split <;> rfl, by split <;> exact hl.proto⟩

theorem counts_normalPower (dev : Device) (s : OW) (hs : OSound s) (h : Counts s) : Counts (normalPower dev s).2 := by
  by_cases hst : status s = .notConnected
  · rw [normalPower_nc hst]; exact h
  · obtain ⟨e, o, hl⟩ := live_of_sound hs hst
    unfold normalPower
    rw [PyM.bind_ok (show PyM.get s = (.ok s, s) from rfl), hl.iface]
    refine counts_onSend hl h ?_
    unfold ElmM.normalPower
    rw [PyM.bind_ok (show ElmM.getElm _ = (.ok e, _) from rfl), if_neg hl.status]
    rcases send_cases dev (ascii " ") false elmPrompt ⟨e, s.hist⟩ hl.port with ⟨l, evs, g1, g⟩ | ⟨evs, g1, g⟩
    · rw [PyM.bind_ok g]; exact ⟨evs, rfl, hl.proto⟩
    · rw [PyM.bind_ok g]; exact ⟨evs, rfl, hl.proto⟩

theorem counts_close (dev : Device) (s : OW) (hs : OSound s) (h : Counts s) : Counts (close dev s).2 := by
  rcases close_status dev s hs with h1 | ⟨x, h1, h2⟩
  · exact counts_nc h1
  · rw [h2]
    by_cases hst : status s = .notConnected
    · exfalso
      rw [close_nc hs hst] at h2; cases h2
    · obtain ⟨e, o, hl⟩ := live_of_sound hs hst
      exact counts_set (dev := dev) (hd := engineHeader) (s := { s with supported := [] }) ⟨hl.iface, hl.status, hl.port, hl.proto⟩ h

theorem counts_call (dev : Device) (fl : ElmM.FloatFn) (c : Call) (s : OW) (hs : OSound s) (h : Counts s) : Counts (c.after dev fl s) := by
  cases c with
  | query c force => exact counts_query hs h
  | lowPower => exact counts_lowPower dev s hs h
  | normalPower => exact counts_normalPower dev s hs h
  | close => exact counts_close dev s hs h

theorem counts_session (dev : Device) (fl : ElmM.FloatFn) (cs : List Call) (s : OW) (hs : OSound s) (h : Counts s) :
    Counts (session dev fl cs s) := by
  induction cs generalizing s with
  | nil => exact h
  | cons c cs ih => exact ih _ (osound_call dev fl c s hs) (counts_call dev fl c s hs h)

theorem constructed_counts {dev : Device} {fl : ElmM.FloatFn} {a : Args} {s : OW} (h : Constructed dev fl a s) : OSound s ∧ Counts s := by
  unfold Constructed construct at h
  obtain ⟨_, s1, h1, h⟩ := bind_inv h
  have hk : OSound s1 ∧ Counts s1 := by
    refine ⟨connect_sound h1 ⟨shape_nil, by simp⟩, ?_⟩
    rcases connect_attrs h1 with h2 | ⟨-, -, h2, -⟩
    · exact counts_nc h2
    · intro e o _ _ _ k n h6
      rw [h2] at h6; cases h6
  have := loadCommands_of (dev := dev) (fl := fl) (P := fun s => OSound s ∧ Counts s)
    (fun c hc s hs => ⟨kept_query (ostable_sound dev) fl c false s hs.1, counts_query hs.1 hs.2⟩) (fun _ _ h => h) s1 hk
  rw [h] at this; exact this

/-! ## once recorded, a count stays -/

theorem count_body {dev : Device} {fl : ElmM.FloatFn} {c : OBDCommand} {k : CmdKey} {n : Nat} {s : OW} (hs : OSound s)
    (h : s.frameCounts.get? k = some n) : (body dev fl c s).2.frameCounts.get? k = some n := by
  have hn : ∀ (s : OW) (str : Bytes) (m : Nat), s.frameCounts.get? k = some n → (noted s c str m).frameCounts.get? k = some n := by
    intro s str m h
    unfold noted
    by_cases hm : s.frameCounts.mem c.key = true
    · simp only [hm, if_true]; exact h
    · simp only [hm]
      show (s.frameCounts.set c.key m).get? k = some n
      rw [Dict.get?_set]
      by_cases hk : c.key = k
      · exfalso; subst hk; exact hm (by simp [Dict.mem, h])
      · simpa [hk, Ne.symm hk] using h
  by_cases hst : status s = .notConnected
  · cases hi : s.interface with
    | none =>
      have : body dev fl c s = (.error .attributeError, s) := by
        unfold body
        rw [PyM.bind_ok (show PyM.get s = (.ok s, s) from rfl), PyM.bind_apply]
        have : onInterface (ElmM.sendAndParse dev (buildCommand s c)) s = (.error .attributeError, s) := by
          unfold onInterface; rw [hi]
        rw [this]
      rw [this]; exact h
    | some e =>
      have he : e.status = .notConnected := by simpa [status, hi] using hst
      rw [body_nc hi he]; exact h
  · obtain ⟨e, o, hl⟩ := live_of_sound hs hst
    rcases body_cases (dev := dev) (fl := fl) (c := c) hl with ⟨pre, l, evs, x, h1, h2, h3, h4⟩ | ⟨pre, l, evs, ms, h1, h2, h3, h4⟩ | ⟨evs, h1, h4⟩ <;> rw [h4]
    · exact h
    · exact hn _ _ _ h
    · exact hn _ _ _ h

theorem count_on {α : Type} {m : ElmM α} {k : CmdKey} {n : Nat} : Kept (fun s : OW => s.frameCounts.get? k = some n) (onInterface m) := by
  intro s h
  unfold onInterface
  cases s.interface <;> exact h

theorem count_set {dev : Device} {hd : Bytes} {k : CmdKey} {n : Nat} : Kept (fun s : OW => s.frameCounts.get? k = some n) (setHeader dev hd) := by
  unfold setHeader
  refine Kept.bind (P := fun s : OW => s.frameCounts.get? k = some n) Kept.get (fun s => ?_)
  split
  · exact Kept.pure _
  · refine Kept.bind (P := fun s : OW => s.frameCounts.get? k = some n) count_on (fun r => ?_)
    cases r with
    | none => exact Kept.pure _
    | some ms =>
      simp only
      split
      · exact Kept.pure _
      · split
        · exact Kept.pure _
        · exact Kept.modify (fun s hs => hs)

theorem count_query {dev : Device} {fl : ElmM.FloatFn} {c : OBDCommand} {force : Bool} {k : CmdKey} {n : Nat} {s : OW} (hs : OSound s)
    (h : s.frameCounts.get? k = some n) : (query dev fl c force s).2.frameCounts.get? k = some n := by
  rcases query_cases dev fl c force s with ⟨h1, -⟩ | ⟨x, h1, -⟩ | ⟨h1, hst, -⟩ <;> rw [h1]
  · exact h
  · exact h
  · rw [exchange_eq, PyM.bind_apply]
    have h2 := count_set (dev := dev) (hd := c.header) s h
    have h3 := live_set (dev := dev) (hd := c.header) hs
    cases h4 : setHeader dev c.header s with
    | mk r s1 =>
      rw [h4] at h2 h3
      cases r with
      | error x => exact h2
      | ok u => exact count_body h3 h2

theorem count_call {dev : Device} {fl : ElmM.FloatFn} {k : CmdKey} {n : Nat} (c : Call) {s : OW} (hs : OSound s)
    (h : s.frameCounts.get? k = some n) : (c.after dev fl s).frameCounts.get? k = some n := by
  cases c with
  | query c force => exact count_query hs h
  | lowPower =>
    refine Kept.bind (P := fun s : OW => s.frameCounts.get? k = some n) Kept.get (fun s' => ?_) s h
    split
    · exact Kept.pure _
    · exact count_on
  | normalPower =>
    refine Kept.bind (P := fun s : OW => s.frameCounts.get? k = some n) Kept.get (fun s' => ?_) s h
    split
    · exact Kept.pure _
    · exact count_on
  | close =>
    refine (?_ : Kept (fun s : OW => s.frameCounts.get? k = some n) (close dev)) s h
    unfold close
    refine Kept.bind (P := fun s : OW => s.frameCounts.get? k = some n) (Kept.modify (fun s hs => hs)) (fun _ => ?_)
    refine Kept.bind (P := fun s : OW => s.frameCounts.get? k = some n) Kept.get (fun s => ?_)
    split
    · exact Kept.pure _
    · refine Kept.bind (P := fun s : OW => s.frameCounts.get? k = some n) count_set (fun _ => ?_)
      refine Kept.bind (P := fun s : OW => s.frameCounts.get? k = some n) count_on (fun _ => ?_)
      exact Kept.modify (fun s hs => hs)

theorem count_session {dev : Device} {fl : ElmM.FloatFn} {k : CmdKey} {n : Nat} (cs : List Call) {s : OW} (hs : OSound s)
    (h : s.frameCounts.get? k = some n) : (session dev fl cs s).frameCounts.get? k = some n := by
  induction cs generalizing s with
  | nil => exact h
  | cons c cs ih => exact ih (osound_call dev fl c s hs) (count_call c hs h)

end ObdM
end Model
