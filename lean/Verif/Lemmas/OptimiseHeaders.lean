import Verif.Spec.AdapterHeaders
import Verif.Lemmas.Optimise
/-!
# A fast and a plain session on the same adapter, under several headers
-/
namespace Model
open Py Spec

theorem under_append (h evs : History) : underHeader (h ++ evs) =
    ((((written h).filter isHeaderLine) ++ ((written evs).filter isHeaderLine)).getLast?).getD [] := by
  unfold underHeader
  rw [show written (h ++ evs) = written h ++ written evs by simp [written], List.filter_append]

theorem under_quiet (h evs : History) (he : (written evs).filter isHeaderLine = []) : underHeader (h ++ evs) = underHeader h := by
  rw [under_append, he, List.append_nil]; rfl

theorem under_set (h evs : History) (b : Bytes) (he : written evs = [b]) (hb : isHeaderLine b = true) : underHeader (h ++ evs) = b := by
  rw [under_append, he]
  simp [hb]

theorem headerLine_is (hd : Bytes) : isHeaderLine (line (headerLine hd)) = true := by
  have h : line (headerLine hd) = ascii "AT SH " ++ (hd ++ ascii " " ++ [0x0D]) := by simp [line, headerLine]
  have h6 : (ascii "AT SH ").length = 6 := by decide
  unfold isHeaderLine
  rw [h, List.take_left' h6]
  simp

theorem isHeaderLine_ex {b : Bytes} (h : isHeaderLine b = true) : ∃ t, b = ascii "AT SH " ++ t := by
  refine ⟨b.drop 6, ?_⟩
  unfold isHeaderLine at h
  rw [beq_iff_eq] at h
  rw [← h, List.take_append_drop]

/-- A line is a header line only if the command is one. -/
theorem isHeaderLine_line {cmd : Bytes} (h : isHeaderLine (line cmd) = true) : isHeaderLine cmd = true := by
  obtain ⟨t, ht⟩ := isHeaderLine_ex h
  unfold line at ht
  rcases t.eq_nil_or_concat with rfl | ⟨t', a, rfl⟩
  · rw [List.append_nil] at ht
    have := congrArg List.getLast? ht
    rw [List.getLast?_concat] at this
    have e : (ascii "AT SH ").getLast? = some 32 := by decide
    rw [e] at this
    exact absurd this (by decide)
  · rw [List.concat_eq_append, ← List.append_assoc] at ht
    have h1 : cmd = ascii "AT SH " ++ t' := (List.append_inj' ht rfl).1
    have h6 : (ascii "AT SH ").length = 6 := by decide
    unfold isHeaderLine
    rw [h1, List.take_left' h6]
    simp

/-- Requests are no header lines, with a response limit or without. -/
theorem request_noHeader {c x : Bytes} (h : IsRequest c) : isHeaderLine (c ++ x) = false := by
  cases hh : isHeaderLine (c ++ x) with
  | false => rfl
  | true =>
    obtain ⟨t, ht⟩ := isHeaderLine_ex hh
    obtain ⟨h1, h2, h3⟩ := h
    match c, h1, h2, h3, ht with
    | [a], _, h2, _, _ => simp at h2
    | a :: b :: c, _, _, h3, ht =>
      have hb : b = 0x54 := by
        have := congrArg (fun l => l[1]?) ht
        simpa [ascii] using this
      have := h3 b (by simp)
      rw [hb] at this
      revert this; decide

namespace ObdM

/-- The commands that a fast and a plain session may both be asked for. -/
structure AllowedH (env : HAnswers) (o : ProtoObj) (c : OBDCommand) : Prop where
  nonempty : c.command ≠ []
  req : c.fast = true → IsRequest c.command
  tidy : isHeaderLine c.command = false
  steady : SteadyH env o c
  acks : Acks env c

/-- The counts of a fast session. -/
def CountsH (env : HAnswers) (cs : List OBDCommand) (s : OW) : Prop :=
  ∀ d ∈ cs, d.fast = true → ∀ n, s.frameCounts.get? d.key = some n → 1 ≤ n ∧ n ≤ 9 ∧
    ∀ k u lines, Under d u → env k u (line d.command) = some lines → lines.length = n

/-- What a fast object `s` and a plain object `t` have in common at all times. -/
structure Common (s t : OW) : Prop where
  iface : s.interface = t.interface
  sup : s.supported = t.supported
  fast : s.fast = true
  plain : t.fast = false
  time : s.hist.length = t.hist.length
  counts : s.frameCounts = t.frameCounts

/-- A fast object `s` and a plain object `t` that have done the same so far. -/
structure TwinsH (env : HAnswers) (o : ProtoObj) (cs : List OBDCommand) (s t : OW) : Prop extends Common s t where
  live : status s ≠ .notConnected → (∃ e, Live s e o ∧ e.lowPower = false) ∧ s.lastHeader = t.lastHeader ∧
    underHeader s.hist = underHeader t.hist ∧
    (underHeader s.hist = line (headerLine s.lastHeader) ∨ s.lastHeader = ascii "7E0" ∧ underHeader s.hist = []) ∧
    (s.lastCommand ≠ [] → request s.hist = line s.lastCommand ∧
      ∃ d ∈ cs, ∃ x : Bytes, x.length ≤ 1 ∧ d.header = s.lastHeader ∧ s.lastCommand = d.command ++ x) ∧
    CountsH env cs s

/-- The same after the header of `c` was set. -/
structure Ready (env : HAnswers) (o : ProtoObj) (cs : List OBDCommand) (c : OBDCommand) (s t : OW) : Prop extends Common s t where
  live : ∃ e, Live s e o ∧ e.lowPower = false
  hs : s.lastHeader = c.header
  ht : t.lastHeader = c.header
  under : underHeader s.hist = underHeader t.hist
  is : Under c (underHeader s.hist)
  again : withCount s c = s.lastCommand → request s.hist = line s.lastCommand
  cnt : CountsH env cs s

/-- The command and perhaps a digit. -/
theorem withCount_shape {env : HAnswers} {cs : List OBDCommand} {s : OW} (h : CountsH env cs s) {c : OBDCommand} (hc : c ∈ cs) :
    ∃ x : Bytes, x.length ≤ 1 ∧ withCount s c = c.command ++ x ∧ (c.fast = false → x = []) := by
  unfold withCount
  split
  · rename_i hf
    rw [Bool.and_eq_true] at hf
    cases hg : s.frameCounts.get? c.key with
    | none => exact ⟨[], by simp, by simp, fun _ => rfl⟩
    | some n =>
      obtain ⟨-, h2, -⟩ := h c hc hf.2 n hg
      exact ⟨decBytes n, by rw [decBytes_digit h2]; simp, rfl, fun h0 => by rw [h0] at hf; cases hf.2⟩
  · exact ⟨[], by simp, by simp, fun _ => rfl⟩

theorem setHeader_delivers {dev : Device} {hd : Bytes} {s : OW} {e : Elm} {o : ProtoObj} (h : Live s e o) (hlp : e.lowPower = false)
    (hne : hd ≠ s.lastHeader) {r : Option (List Str)} (ha : ∀ h b, dev.write h b = true)
    (hdl : Delivers (dev.read (s.hist ++ [.write (line (headerLine hd)) true])) r) (hr : ∀ ls, r = some ls → ls = ["OK".toList]) :
    (∃ ls b, r = some ls ∧ setHeader dev hd s =
      (.ok (), { s with interface := some e, hist := s.hist ++ [.write (line (headerLine hd)) true, .read (some b)], lastHeader := hd })) ∨
    (r = none ∧ setHeader dev hd s =
      (.ok (), { s with interface := some (lost e), hist := s.hist ++ [.write (line (headerLine hd)) true, .read none, .close] })) := by
  have hn : r ≠ some [] := by intro h0; have := hr _ h0; cases this
  have hset : ∀ ms s', onInterface (ElmM.sendAndParse dev (headerLine hd)) s = (.ok (some ms), s') →
      setHeader dev hd s = (.ok (), if ackd ms then { s' with lastHeader := hd } else s') := by
    intro ms s' hon
    unfold setHeader
    rw [PyM.bind_ok (show PyM.get s = (.ok s, s) from rfl), if_neg hne, PyM.bind_ok (show onInterface (ElmM.sendAndParse dev (ascii "AT SH " ++ hd ++ ascii " ")) s = _ from hon)]
    unfold ackd
    simp only
    cases ms with
    | nil => rfl
    | cons m ms =>
      by_cases hj : ['\n'].intercalate ((m :: ms).map Message.raw) = "OK".toList
      · rw [if_neg (by simp), if_neg (by simpa using hj)]
        simp only [hj]
        rfl
      · rw [if_neg (by simp), if_pos hj]
        simp only [hj]
        rfl
  rcases onSend_delivers h hlp ha hdl hn with ⟨lines, b, h1, h2⟩ | ⟨h1, h2⟩
  · left
    have := hr _ h1
    subst this
    obtain ⟨ms, hms, hack⟩ := call_ok o
    rw [hms] at h2
    refine ⟨_, b, h1, ?_⟩
    rw [hset ms _ h2, hack]
    rfl
  · right
    refine ⟨h1, ?_⟩
    rw [hset [] _ h2]
    rfl

theorem set_ready {dev : Device} {env : HAnswers} (hf : FaithfulH dev env) {o : ProtoObj} {cs : List OBDCommand} {s t : OW} (h : TwinsH env o cs s t)
    (hst : status s ≠ .notConnected) {c : OBDCommand} (hc : c ∈ cs) (hac : AllowedH env o c) (hap : ∀ d ∈ cs, Apart c d) :
    ∃ s1 t1, setHeader dev c.header s = (.ok (), s1) ∧ setHeader dev c.header t = (.ok (), t1) ∧
      (Ready env o cs c s1 t1 ∨ (Common s1 t1 ∧ status s1 = .notConnected ∧ ∃ e, s1.interface = some e)) := by
  obtain ⟨⟨e, hlive, hlp⟩, hh, hu, hin, hlast, hcount⟩ := h.live hst
  have hlive' : Live t e o := ⟨h.iface ▸ hlive.iface, hlive.status, hlive.port, hlive.proto⟩
  by_cases hsame : c.header = s.lastHeader
  · refine ⟨s, t, setHeader_same hsame, setHeader_same (hsame.trans hh), Or.inl ?_⟩
    refine ⟨h.toCommon, ⟨e, hlive, hlp⟩, hsame.symm, (hsame.trans hh).symm, hu, ?_, ?_, hcount⟩
    · unfold Under; rw [hsame]; exact hin
    · intro hw
      obtain ⟨x, -, hx, -⟩ := withCount_shape hcount hc
      refine (hlast ?_).1
      rw [← hw, hx]
      simp [hac.nonempty]
  · have hnet : c.header ≠ t.lastHeader := fun h0 => hsame (h0.trans hh.symm)
    have hreq : ∀ z : OW, request (z.hist ++ [.write (line (headerLine c.header)) true]) = line (headerLine c.header) := by
      intro z
      rw [request_write, if_neg]
      unfold headerLine
      simp [ascii]
    have hund : ∀ z : OW, underHeader (z.hist ++ [.write (line (headerLine c.header)) true]) = line (headerLine c.header) := fun z =>
      under_set _ _ _ rfl (headerLine_is _)
    have hd1 := hf.answers (s.hist ++ [.write (line (headerLine c.header)) true])
    have hd2 := hf.answers (t.hist ++ [.write (line (headerLine c.header)) true])
    rw [hreq, hund, List.length_append, List.length_singleton] at hd1 hd2
    rw [h.time] at hd1
    generalize hr : env (t.hist.length + 1) (line (headerLine c.header)) (line (headerLine c.header)) = r at hd1 hd2
    have hok : ∀ ls, r = some ls → ls = ["OK".toList] := fun ls hls => hac.acks _ _ _ (hr.trans hls)
    rcases setHeader_delivers hlive hlp hsame hf.accepts hd1 hok with ⟨l1, b1, e1, g1⟩ | ⟨e1, g1⟩
    · rcases setHeader_delivers hlive' hlp hnet hf.accepts hd2 hok with ⟨l2, b2, e2, g2⟩ | ⟨e2, g2⟩
      · refine ⟨_, _, g1, g2, Or.inl ?_⟩
        refine ⟨⟨rfl, h.sup, h.fast, h.plain, ?_, h.counts⟩, ⟨e, ⟨rfl, hlive.status, hlive.port, hlive.proto⟩, hlp⟩, rfl, rfl, ?_, ?_, ?_, hcount⟩
        · show (s.hist ++ _).length = (t.hist ++ _).length
          simp [h.time]
        · show underHeader (s.hist ++ _) = underHeader (t.hist ++ _)
          rw [under_set s.hist _ _ rfl (headerLine_is _), under_set t.hist _ _ rfl (headerLine_is _)]
        · exact Or.inl (under_set s.hist _ _ rfl (headerLine_is _))
        · intro hw
          exfalso
          obtain ⟨x, hx1, hx, -⟩ := withCount_shape hcount hc
          have hwc : withCount s c = s.lastCommand := hw
          have hne : s.lastCommand ≠ [] := by rw [← hwc, hx]; simp [hac.nonempty]
          obtain ⟨-, d, hd, y, hy1, hy2, hy3⟩ := hlast hne
          rcases hap d hd with h0 | h0
          · exact hsame (h0.trans hy2)
          · exact h0 x y hx1 hy1 (by rw [← hx, hwc, hy3])
      · rw [e1] at e2; cases e2
    · rcases setHeader_delivers hlive' hlp hnet hf.accepts hd2 hok with ⟨l2, b2, e2, g2⟩ | ⟨e2, g2⟩
      · rw [e1] at e2; cases e2
      · refine ⟨_, _, g1, g2, Or.inr ⟨⟨rfl, h.sup, h.fast, h.plain, ?_, h.counts⟩, rfl, _, rfl⟩⟩
        show (s.hist ++ _).length = (t.hist ++ _).length
        simp [h.time]

theorem ready_body {dev : Device} {env : HAnswers} (hf : FaithfulH dev env) (hl : LimitsH env) (fl : ElmM.FloatFn) {o : ProtoObj} {cs : List OBDCommand}
    {s t : OW} {c : OBDCommand} (h : Ready env o cs c s t) (hc : c ∈ cs) (hall : ∀ d ∈ cs, AllowedH env o d) :
    (body dev fl c s).1 = (body dev fl c t).1 ∧ TwinsH env o cs (body dev fl c s).2 (body dev fl c t).2 := by
  have hac := hall c hc
  obtain ⟨e, hlive, hlp⟩ := h.live
  have hlive' : Live t e o := ⟨h.iface ▸ hlive.iface, hlive.status, hlive.port, hlive.proto⟩
  obtain ⟨x, hx1, hx, hxf⟩ := withCount_shape h.cnt hc
  have hwne : withCount s c ≠ [] := by rw [hx]; simp [hac.nonempty]
  have hnoh : isHeaderLine (line (withCount s c)) = false := by
    cases hh : isHeaderLine (line (withCount s c)) with
    | false => rfl
    | true =>
      have h1 := isHeaderLine_line hh
      rw [hx] at h1
      cases hcf : c.fast with
      | true => rw [request_noHeader (hac.req hcf)] at h1; cases h1
      | false => rw [hxf hcf, List.append_nil, hac.tidy] at h1; cases h1
  have hnoh2 : isHeaderLine (line c.command) = false := by
    cases hh : isHeaderLine (line c.command) with
    | false => rfl
    | true => have h1 := isHeaderLine_line hh; rw [hac.tidy] at h1; cases h1
  -- what the fast object sends
  have hb : (buildCommand s c = [] ∧ withCount s c = s.lastCommand) ∨ buildCommand s c = withCount s c := by
    unfold buildCommand
    rw [h.fast, Bool.true_and]
    by_cases he : withCount s c = s.lastCommand
    · left; simp [he]
    · right
      have : (withCount s c == s.lastCommand) = false := by simpa using he
      simp [this]
  have hreq1 : request (s.hist ++ [.write (line (buildCommand s c)) true]) = line (withCount s c) := by
    rw [request_write]
    rcases hb with ⟨hb1, hb2⟩ | hb1
    · rw [if_pos hb1, h.again hb2, hb2]
    · rw [hb1, if_neg hwne]
  have hund1 : ∀ post, written post = [] → underHeader (s.hist ++ Event.write (line (buildCommand s c)) true :: post) = underHeader s.hist := by
    intro post hp
    apply under_quiet
    have : written (Event.write (line (buildCommand s c)) true :: post) = line (buildCommand s c) :: written post := rfl
    rw [this, hp]
    rcases hb with ⟨hb1, -⟩ | hb1
    · rw [hb1]; rfl
    · rw [hb1]; simp [hnoh]
  have hlastc : (if (buildCommand s c).isEmpty then s.lastCommand else buildCommand s c) = withCount s c := by
    rcases hb with ⟨hb1, hb2⟩ | hb1
    · rw [hb1, hb2]; rfl
    · rw [hb1, if_neg (by simpa using hwne)]
  -- and the plain one
  have hbt := build_plain h.plain c
  have hreq2 : request (t.hist ++ [.write (line (buildCommand t c)) true]) = line c.command := by
    rw [hbt, request_write, if_neg hac.nonempty]
  have hund2 : ∀ post, written post = [] → underHeader (t.hist ++ Event.write (line (buildCommand t c)) true :: post) = underHeader t.hist := by
    intro post hp
    apply under_quiet
    have : written (Event.write (line (buildCommand t c)) true :: post) = line (buildCommand t c) :: written post := rfl
    rw [this, hp, hbt]
    simp [hnoh2]
  obtain ⟨n, hn⟩ := hac.steady
  generalize hr : env (t.hist.length + 1) (underHeader s.hist) (line c.command) = r
  have hne : r ≠ some [] := by
    intro h0
    subst h0
    exact (hn _ _ _ h.is hr).1 rfl
  have henv : ∀ k, env k (underHeader s.hist) (line (withCount s c)) = env k (underHeader s.hist) (line c.command) := by
    intro k
    unfold withCount
    split
    · rename_i hfast
      rw [h.fast, Bool.true_and] at hfast
      cases hg : s.frameCounts.get? c.key with
      | none => rfl
      | some m =>
        obtain ⟨h1, h2, h3⟩ := h.cnt c hc hfast m hg
        simp only
        have hl' : env k (underHeader s.hist) (line (c.command ++ [UInt8.ofNat (0x30 + m)]))
            = (env k (underHeader s.hist) (line c.command)).map (List.take m) :=
          hl (underHeader s.hist) k c.command m (hac.req hfast) h1 h2
        rw [decBytes_digit h2, hl']
        cases hr' : env k (underHeader s.hist) (line c.command) with
        | some lines => simp [← h3 k _ lines h.is hr']
        | none => rfl
    · rfl
  have hd1 := hf.answers (s.hist ++ [.write (line (buildCommand s c)) true])
  rw [hreq1, hund1 [] rfl, List.length_append, List.length_singleton, henv, h.time, hr] at hd1
  have hd2 := hf.answers (t.hist ++ [.write (line (buildCommand t c)) true])
  rw [hreq2, hund2 [] rfl, List.length_append, List.length_singleton, ← h.under, hr] at hd2
  rcases onSend_delivers hlive hlp hf.accepts hd1 hne with ⟨lines, b1, e1, g1⟩ | ⟨e1, g1⟩
  · rcases onSend_delivers hlive' hlp hf.accepts hd2 hne with ⟨lines', b2, e2, g2⟩ | ⟨e2, g2⟩
    · rw [e1] at e2
      cases e2
      rw [e1] at hr
      obtain ⟨-, ms, hms, hmsn⟩ := hn _ _ _ h.is hr
      rw [hms] at g1 g2
      rw [body_of g1, body_of g2]
      refine ⟨rfl, ⟨rfl, h.sup, h.fast, h.plain, ?_, ?_⟩, ?_⟩
      · show (s.hist ++ _).length = (t.hist ++ _).length
        simp [h.time]
      · show (if s.frameCounts.mem c.key then s.frameCounts else s.frameCounts.set c.key _) = (if t.frameCounts.mem c.key then t.frameCounts else t.frameCounts.set c.key _)
        rw [h.counts]
      · intro _
        refine ⟨⟨e, ⟨rfl, hlive.status, hlive.port, hlive.proto⟩, hlp⟩, h.hs.trans h.ht.symm, ?_, ?_, ?_, ?_⟩
        · show underHeader (s.hist ++ _) = underHeader (t.hist ++ _)
          rw [hund1 _ rfl, hund2 _ rfl, h.under]
        · show underHeader (s.hist ++ _) = line (headerLine s.lastHeader) ∨ s.lastHeader = _ ∧ underHeader (s.hist ++ _) = []
          rw [hund1 _ rfl, h.hs]
          exact h.is
        · intro _
          show request (s.hist ++ _) = line (if (buildCommand s c).isEmpty then s.lastCommand else buildCommand s c) ∧ ∃ d ∈ cs, ∃ x : Bytes,
            x.length ≤ 1 ∧ d.header = s.lastHeader ∧ (if (buildCommand s c).isEmpty then s.lastCommand else buildCommand s c) = d.command ++ x
          rw [hlastc]
          refine ⟨?_, c, hc, x, hx1, h.hs.symm, hx⟩
          have := request_quiet (s.hist ++ [.write (line (buildCommand s c)) true]) [.read (some b1)] rfl
          rw [List.append_assoc] at this
          exact this.trans hreq1
        · intro d hd hdf m hm
          by_cases hmem : s.frameCounts.mem c.key = true
          · refine h.cnt d hd hdf m ?_
            simp only [noted, hmem, if_true] at hm
            exact hm
          · simp only [noted, hmem] at hm
            by_cases hk : d.key = c.key
            · have hdc : d.command = c.command := congrArg Prod.fst hk
              have hdh : d.header = c.header := congrArg Prod.snd hk
              obtain ⟨n', hn'⟩ := (hall d hd).steady
              have hr' := hr
              rw [← hdc] at hr'
              obtain ⟨-, ms', hms', hcnt⟩ := hn' _ _ _ (show Under d (underHeader s.hist) by unfold Under; rw [hdh]; exact h.is) hr'
              rw [hms] at hms'
              cases hms'
              obtain ⟨a1, a2, a3, a4⟩ := hcnt hdf
              have hmn : m = n' := by
                rw [hk] at hm
                rw [if_neg (by simp), Dict.get?_set, if_pos rfl] at hm
                injection hm with hm
                rw [← hm, ← a4]; rfl
              subst hmn
              refine ⟨a1, a2, ?_⟩
              intro k u l hu hkl
              obtain ⟨-, ms2, -, hc2⟩ := hn' k u l hu hkl
              exact (hc2 hdf).2.2.1
            · refine h.cnt d hd hdf m ?_
              rw [if_neg (by simp), Dict.get?_set, if_neg (fun e => hk e.symm)] at hm
              exact hm
    · rw [e1] at e2; cases e2
  · rcases onSend_delivers hlive' hlp hf.accepts hd2 hne with ⟨lines', b2, e2, g2⟩ | ⟨e2, g2⟩
    · rw [e1] at e2; cases e2
    · rw [body_of g1, body_of g2]
      refine ⟨rfl, ⟨rfl, h.sup, h.fast, h.plain, ?_, ?_⟩, ?_⟩
      · show (s.hist ++ _).length = (t.hist ++ _).length
        simp [h.time]
      · show (if s.frameCounts.mem c.key then s.frameCounts else s.frameCounts.set c.key _) = (if t.frameCounts.mem c.key then t.frameCounts else t.frameCounts.set c.key _)
        rw [h.counts]
      · intro hcon
        exact absurd rfl hcon

theorem twinsH_query {dev : Device} {env : HAnswers} (hf : FaithfulH dev env) (hl : LimitsH env) (fl : ElmM.FloatFn) {o : ProtoObj} {cs : List OBDCommand}
    {s t : OW} (h : TwinsH env o cs s t) {c : OBDCommand} (hc : c ∈ cs) (hall : status s ≠ .notConnected → ∀ d ∈ cs, AllowedH env o d)
    (hap : ∀ d ∈ cs, Apart c d) (force : Bool) :
    (query dev fl c force s).1 = (query dev fl c force t).1 ∧ TwinsH env o cs (query dev fl c force s).2 (query dev fl c force t).2 := by
  have hstat : status s = status t := by unfold status; rw [h.iface]
  have htest : testCmd s c = testCmd t c := by unfold testCmd supports; rw [h.iface, h.sup]
  unfold query
  rw [PyM.bind_ok (show PyM.get s = (.ok s, s) from rfl), PyM.bind_ok (show PyM.get t = (.ok t, t) from rfl), ← hstat, ← htest]
  by_cases hst : status s = .notConnected
  · rw [if_pos hst]; exact ⟨rfl, h⟩
  rw [if_neg hst]
  replace hall := hall hst
  have main : (exchange dev fl c s).1 = (exchange dev fl c t).1 ∧ TwinsH env o cs (exchange dev fl c s).2 (exchange dev fl c t).2 := by
    obtain ⟨s1, t1, h1, h2, h3⟩ := set_ready hf h hst hc (hall c hc) hap
    rw [exchange_eq, PyM.bind_ok h1, PyM.bind_ok h2]
    rcases h3 with h3 | ⟨h3, h4, e, h5⟩
    · exact ready_body hf hl fl h3 hc hall
    · have hes : e.status = .notConnected := by simpa [status, h5] using h4
      rw [body_nc h5 hes, body_nc (h3.iface ▸ h5) hes]
      refine ⟨?_, ⟨h3.iface, h3.sup, h3.fast, h3.plain, h3.time, h3.counts⟩, fun hx => absurd h4 hx⟩
      show (if s1.frameCounts.mem c.key then _ else _) = (if t1.frameCounts.mem c.key then _ else _)
      rw [h3.counts]
  cases force with
  | true => exact main
  | false =>
    rw [if_neg (by simp)]
    cases testCmd s c with
    | error x => exact ⟨rfl, h⟩
    | ok b =>
      cases b with
      | true => exact main
      | false => exact ⟨rfl, h⟩

theorem twinsH_outcomes {dev : Device} {env : HAnswers} (hf : FaithfulH dev env) (hl : LimitsH env) (fl : ElmM.FloatFn) {o : ProtoObj} {cs : List OBDCommand}
    (hap : ∀ c ∈ cs, ∀ d ∈ cs, Apart c d) (qs : List (OBDCommand × Bool)) (hq : ∀ q ∈ qs, q.1 ∈ cs) : ∀ s t, TwinsH env o cs s t →
    (status s ≠ .notConnected → ∀ c ∈ cs, AllowedH env o c) → outcomes dev fl qs s = outcomes dev fl qs t := by
  induction qs with
  | nil => intro s t _ _; rfl
  | cons q qs ih =>
    intro s t h hc
    obtain ⟨h1, h2⟩ := twinsH_query hf hl fl h (c := q.1) (hq q (by simp)) hc (hap _ (hq q (by simp))) q.2
    show _ :: _ = _ :: _
    rw [h1, ih (fun q hx => hq q (by simp [hx])) _ _ h2 ?_]
    intro hs
    refine hc (fun hn => hs ?_)
    rw [query_nc hn]
    exact hn

theorem twinsH_load {dev : Device} {env : HAnswers} (hf : FaithfulH dev env) (hl : LimitsH env) (fl : ElmM.FloatFn) {o : ProtoObj} {cs : List OBDCommand}
    (hap : ∀ c ∈ cs, ∀ d ∈ cs, Apart c d) (gs : List OBDCommand) (hg : ∀ g ∈ gs, g ∈ cs) : ∀ s t, TwinsH env o cs s t →
    (status s ≠ .notConnected → ∀ c ∈ cs, AllowedH env o c) →
    (loadLoop dev fl gs s).1 = (loadLoop dev fl gs t).1 ∧ TwinsH env o cs (loadLoop dev fl gs s).2 (loadLoop dev fl gs t).2 := by
  induction gs with
  | nil => intro s t h _; exact ⟨rfl, h⟩
  | cons g gs ih =>
    intro s t h hc
    replace ih := ih (fun g hx => hg g (by simp [hx]))
    have htest : testCmd s g = testCmd t g := by unfold testCmd supports; rw [h.iface, h.sup]
    obtain ⟨h1, h2⟩ := twinsH_query hf hl fl h (c := g) (hg g (by simp)) hc (hap _ (hg g (by simp))) false
    have hc2 : status (query dev fl g false s).2 ≠ .notConnected → ∀ c ∈ cs, AllowedH env o c := by
      intro hs
      refine hc (fun hn => hs ?_)
      rw [query_nc hn]
      exact hn
    unfold loadLoop
    rw [PyM.bind_ok (show PyM.get s = (.ok s, s) from rfl), PyM.bind_ok (show PyM.get t = (.ok t, t) from rfl), ← htest]
    cases testCmd s g with
    | error x => exact ⟨rfl, h⟩
    | ok b =>
      rw [PyM.bind_ok (show PyM.ofExcept (.ok b) s = (.ok b, s) from rfl), PyM.bind_ok (show PyM.ofExcept (.ok b) t = (.ok b, t) from rfl)]
      cases b with
      | false =>
        rw [if_pos (by simp)]
        exact ih s t h hc
      | true =>
        rw [if_neg (by simp)]
        cases hs : query dev fl g false s with
        | mk r s1 =>
        cases ht : query dev fl g false t with
        | mk r' t1 =>
        rw [hs] at h1 h2 hc2
        rw [ht] at h1 h2
        simp only at h1 h2 hc2
        subst h1
        cases r with
        | error x => rw [PyM.bind_error hs, PyM.bind_error ht]; exact ⟨rfl, h2⟩
        | ok r =>
          rw [PyM.bind_ok hs, PyM.bind_ok ht]
          by_cases hn : r.isNull = true
          · rw [if_pos hn]
            exact ih _ _ h2 hc2
          · rw [if_neg hn]
            cases g.mode with
            | error x => exact ⟨rfl, h2⟩
            | ok md =>
              rw [PyM.bind_ok (show PyM.ofExcept (.ok md) s1 = (.ok md, s1) from rfl), PyM.bind_ok (show PyM.ofExcept (.ok md) t1 = (.ok md, t1) from rfl)]
              cases g.pid with
              | error x => exact ⟨rfl, h2⟩
              | ok pd =>
                rw [PyM.bind_ok (show PyM.ofExcept (.ok pd) s1 = (.ok pd, s1) from rfl), PyM.bind_ok (show PyM.ofExcept (.ok pd) t1 = (.ok pd, t1) from rfl)]
                refine ih _ _ ?_ hc2
                refine ⟨⟨h2.iface, ?_, h2.fast, h2.plain, h2.time, h2.counts⟩, ?_⟩
                · show addSupported _ _ _ s1.supported = addSupported _ _ _ t1.supported
                  rw [h2.sup]
                · intro hs
                  obtain ⟨⟨e, he, hlp⟩, rest⟩ := h2.live hs
                  exact ⟨⟨e, ⟨he.iface, he.status, he.port, he.proto⟩, hlp⟩, rest⟩

/-- While connecting, no header is set. -/
theorem connect_noHeader {dev : Device} {fl : ElmM.FloatFn} {ports : List Str} {portstr : Option Str} {cfg : ElmM.Config} {s s' : OW}
    (h : connect dev fl ports portstr cfg s = (.ok (), s')) (hs : OSound s) (h0 : s.hist = []) : underHeader s'.hist = [] := by
  have hno : ∀ c : Bytes, (∀ t, line c ≠ ascii "AT SH " ++ t) → ¬ isHeaderLine (line c) = true := by
    intro c h2 h3
    obtain ⟨t, ht⟩ := isHeaderLine_ex h3
    exact h2 t ht
  have hw := connect_hist (R := Writes (fun b => ¬ isHeaderLine b = true)) (dev := dev) (fl := fl) (cfg := cfg) (fun port hist hh =>
      ElmM.kept_construct (steps_writes dev cfg.protocol (by
          intro c hc
          apply hno
          intro t ht
          simp only [List.mem_cons, List.not_mem_nil, or_false] at hc
          rcases hc with rfl | rfl | rfl | rfl | rfl | rfl <;> simp [ascii, line] at ht)
        (ElmM.kept_setProtocol (stable_writes dev _) cfg.protocol (by
          intro id
          apply hno
          intro t ht
          simp [ascii, line] at ht) (by
          apply hno
          intro t ht
          simp [ascii, line] at ht) (by
          apply hno
          intro t ht
          simp [ascii, line] at ht) (by
          apply hno
          intro t ht
          simp [ascii, line] at ht))) fl port hist
        (fun e err => writes_append hh (by intro b ok h; simp at h))) h hs (by rw [h0]; intro b ok h; simp at h)
  unfold underHeader
  have : (written s'.hist).filter isHeaderLine = [] := by
    rw [List.filter_eq_nil_iff]
    intro b hb
    unfold written at hb
    obtain ⟨ev, h1, h2⟩ := List.mem_filterMap.1 hb
    split at h2
    · next b' => injection h2 with h2; subst h2; exact hw _ true h1
    · cases h2
  rw [this]; rfl

end ObdM
end Model
