import Verif.Lemmas.Supported
import Verif.Props.Query
/-!
# The supported commands (C50)
-/
namespace Props
open Py Model Spec ObdM

/-- The listing commands are asked in the documented order, and the base commands are these. -/
theorem C50_names : pidGetters.map (·.name) = listingNames ∧ baseCommands.map (·.name) = baseNames := by decide +kernel

/-- A connection to the car: the set-up is followed by the listing commands, each answered,
recorded with its reply in `log`.  A listing command is asked iff it is supported (and may be
used under the protocol), in order and once; the supported commands are the base commands and
those announced by one of these replies, nothing else. -/
theorem C50_supported (dev : Device) (fl : Str → Option PyFloat) (a : Args) (s : OW) (hc : Constructed dev fl a s)
    (hs : status s = .carConnected) :
    ∃ (pre evs lst : History) (port : Str) (rate : Nat) (xs : List (Bytes × List Str)) (id : Str) (r : List Str) (obj : ProtoObj) (e : Elm)
      (log : List (OBDCommand × List Str)), s.hist = pre ++ evs ++ lst ∧ Connects fl port a.cfg evs rate xs id r ∧
      s.interface = some e ∧ e.protocol = some obj ∧ obj.cls.elmId = id ∧ obj.cls.init r = .ok obj ∧
      Dialogue lst (log.map (fun x => (x.1.command, x.2))) ∧
      (log.map Prod.fst).Sublist pidGetters ∧
      (∀ g ∈ pidGetters, g ∈ log.map Prod.fst ↔ supports s g = true ∧ Usable obj g) ∧
      ∀ d, supports s d = true ↔ (∃ c ∈ baseCommands, c.eq d = true) ∨ ∃ x ∈ log, Offers obj x.1 x.2 d := by
  unfold Constructed construct at hc
  obtain ⟨_, s1, h1, h2⟩ := bind_inv hc
  have hs1 : status s1 = .carConnected := by
    unfold loadCommands at h2
    obtain ⟨s2, s3, h3, h2⟩ := bind_inv h2
    cases h3
    split at h2
    · cases h2; exact hs
    · next hn => simpa using hn
  obtain ⟨port, t, hport, -, -, -, -, -, ho⟩ := connect_opened h1 rfl (by rw [hs1]; simp)
  rcases connect_attrs h1 with hx | ⟨g1, g2, g3, g4, e1, g5, g6⟩
  · rw [hs1] at hx; cases hx
  obtain ⟨w, hw, rfl⟩ := openInterface_ok ho
  have hst : w.elm.status = .carConnected := by simpa [status] using hs1
  obtain ⟨evs, rate, xs, id, r, obj, hh, hcon, hpo, hlp, hpr, hid, hinit⟩ := ElmM.construct_car hw hst
  simp only at g1 g2 g3 g4 g5
  cases g5
  unfold loadCommands at h2
  rw [PyM.bind_ok (show PyM.get _ = (.ok _, _) from rfl), if_neg (by rw [hs1]; simp)] at h2
  have hL : Loading obj w.hist [] [] { t with interface := some w.elm, hist := w.hist } := by
    refine ⟨⟨w.elm, ⟨rfl, by rw [hst]; simp, by rw [hpo]; simp, hpr⟩, g6⟩, g1, ?_, Or.inl g2, ⟨[], by simp, .nil⟩, ?_, by simp, by simp, by simp⟩
    · intro k hk; simp [g3, Dict.mem, Dict.get?] at hk
    · intro d; simp only [supports, g4]; simp
  rcases loading_loop [] [] _ rfl hL h2 with ⟨log, hF⟩ | ⟨log, hF⟩
  · obtain ⟨e, hl, -⟩ := hF.live
    obtain ⟨lst, hl1, hl2⟩ := hF.dial
    refine ⟨t.hist, evs, lst, port, rate, xs, id, r, obj, e, log, ?_, hcon, hl.iface, hl.proto, hid, hinit, hl2, hF.sub, ?_, ?_⟩
    · rw [hl1, hh]
    · intro g hg
      exact ⟨hF.asked g, fun h => hF.comp g hg h.1 h.2⟩
    · intro d
      rw [hF.sup d, List.any_eq_true]
  · rw [hF.nc] at hs; cases hs

/-- Whatever happens while connecting: everything in the supported commands is a base command
or was announced. -/
theorem C50_sound (dev : Device) (fl : Str → Option PyFloat) (a : Args) (s : OW) (hc : Constructed dev fl a s) (d : OBDCommand)
    (hd : supports s d = true) :
    (∃ c ∈ baseCommands, c.eq d = true) ∨
    ∃ g lines e obj, g ∈ pidGetters ∧ s.interface = some e ∧ e.protocol = some obj ∧ supports s g = true ∧ Usable obj g ∧
      Replied s.hist g.command lines ∧ Offers obj g lines d := by
  unfold Constructed construct at hc
  obtain ⟨_, s1, h1, h2⟩ := bind_inv hc
  unfold loadCommands at h2
  rw [PyM.bind_ok (show PyM.get _ = (.ok _, _) from rfl)] at h2
  by_cases hs1 : status s1 = .carConnected
  · rw [if_neg (by simp [hs1])] at h2
    obtain ⟨port, t, hport, -, -, -, -, -, ho⟩ := connect_opened h1 rfl (by rw [hs1]; simp)
    rcases connect_attrs h1 with hx | ⟨g1, g2, g3, g4, e1, g5, g6⟩
    · rw [hs1] at hx; cases hx
    obtain ⟨w, hw, rfl⟩ := openInterface_ok ho
    have hst : w.elm.status = .carConnected := by simpa [status] using hs1
    obtain ⟨evs, rate, xs, id, r, obj, hh, hcon, hpo, hlp, hpr, hid, hinit⟩ := ElmM.construct_car hw hst
    simp only at g1 g2 g3 g4 g5
    cases g5
    have hL : Loading obj w.hist [] [] { t with interface := some w.elm, hist := w.hist } := by
      refine ⟨⟨w.elm, ⟨rfl, by rw [hst]; simp, by rw [hpo]; simp, hpr⟩, g6⟩, g1, ?_, Or.inl g2, ⟨[], by simp, .nil⟩, ?_, by simp, by simp, by simp⟩
      · intro k hk; simp [g3, Dict.mem, Dict.get?] at hk
      · intro d; simp only [supports, g4]; simp
    -- a reply in the log is a reply in the history
    have hrep : ∀ {log : List (OBDCommand × List Str)} {h0 e1 e2 : History} {x : OBDCommand × List Str},
        Dialogue e1 (log.map (fun x => (x.1.command, x.2))) → x ∈ log → Replied (h0 ++ e1 ++ e2) x.1.command x.2 := by
      intro log h0 e1 e2 x hdial hx
      induction log generalizing h0 e1 with
      | nil => cases hx
      | cons y log ih =>
        rw [List.map_cons] at hdial
        cases hdial with
        | @cons _ _ bs b evs _ hl hbs hdial =>
          rcases List.mem_cons.1 hx with rfl | hx
          · exact ⟨h0, bs, b, evs ++ e2, by simp, hl, hbs⟩
          · have := ih (h0 := h0 ++ .write (line y.1.command) true :: (bs.map (fun b => Event.read (some b)) ++ [.read (some b)])) hdial hx
            simpa using this
    rcases loading_loop [] [] _ rfl hL h2 with ⟨log, hF⟩ | ⟨log, hF⟩
    · obtain ⟨e, hl, -⟩ := hF.live
      obtain ⟨lst, hl1, hl2⟩ := hF.dial
      rcases (hF.sup d).1 hd with h | ⟨x, hx, hof⟩
      · exact Or.inl (List.any_eq_true.1 h)
      · right
        have hxm : x.1 ∈ log.map Prod.fst := List.mem_map.2 ⟨x, hx, rfl⟩
        refine ⟨x.1, x.2, e, obj, hF.sub.subset hxm, hl.iface, hl.proto, (hF.asked _ hxm).1, (hF.asked _ hxm).2, ?_, hof⟩
        have := hrep (h0 := w.hist) (e2 := []) hl2 hx
        rw [hl1]; simpa using this
    · obtain ⟨e, hl1, hl2⟩ := hF.iface
      obtain ⟨ev1, ev2, g, hh1, hh2, -, -⟩ := hF.dial
      rcases (hF.sup d).1 hd with h | ⟨x, hx, hof⟩
      · exact Or.inl (List.any_eq_true.1 h)
      · right
        have hxm : x.1 ∈ log.map Prod.fst := List.mem_map.2 ⟨x, hx, rfl⟩
        refine ⟨x.1, x.2, e, obj, hF.sub.subset hxm, hl1, hl2, (hF.asked _ hxm).1, (hF.asked _ hxm).2, ?_, hof⟩
        rw [hh1]; exact hrep hh2 hx
  · rw [if_pos hs1] at h2
    cases h2
    left
    have := connect_supported h1
    rcases this with h | h
    · unfold supports at hd; rw [h] at hd; exact List.any_eq_true.1 hd
    · unfold supports at hd; rw [h] at hd; cases hd

/-- The demo car announces the engine speed. -/
example : status (demoObd true) = .carConnected ∧ supports (demoObd true) rpmCommand = true := by decide +kernel

end Props
