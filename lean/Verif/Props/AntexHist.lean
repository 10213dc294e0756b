import Verif.Props.AntexSat
/-!
# C36, C50, C51, C52: histories of queries, status codes, satellite information, opening
-/
namespace Ggnss

/-! ## C36 -/

/-- A query on an `Antex` object. -/
inductive AtxQuery where
  | receiver (ant : List Char) (k : AntCtor) (ss : List (List Char)) (must : Bool)
  | satPco (prn : Int) (ss : SatSys) (eph : DateTime)
  | satInfo (prn : Int) (ss : SatSys) (eph : DateTime)

/-- The antenna asked for is an antenna object. -/
def AtxQuery.OK : AtxQuery → Prop
  | .receiver ant k ss _ => AntReach ant k ss
  | _ => True

/-- What the caller sees of a satellite, apart from the COSPAR id. -/
def AtxSat.seen (s : AtxSat) : SatSys × Int × Int × List Char := (s.sys, s.prn, s.svn, s.ant)

/-- Run a query: status, offsets, satellite, and the object afterwards. -/
def AtxQuery.run (strptime : List Char → Res DateTime) (J : AtxJunk) (cospar : List Char) (fuel : Nat) (f : AtxFile) :
    AtxQuery → Res ((Int × List (SatSys × Int × Rat × Rat × Rat) × Option (SatSys × Int × Int × List Char)) × AtxFile)
  | .receiver ant _ _ must => do
      let r ← atxPcoReceiver J fuel f ant must
      pure ((r.1, r.2.1.map Pco.flat, none), r.2.2)
  | .satPco prn ss eph => do
      let r ← atxPcoSatellite strptime J cospar fuel f prn ss eph
      pure ((r.1, r.2.1.map Pco.flat, r.2.2.1.map AtxSat.seen), r.2.2.2)
  | .satInfo prn ss eph => do
      let r ← atxSatInfo strptime J cospar fuel f prn ss eph
      pure ((r.1, [], r.2.1.map AtxSat.seen), r.2.2)

theorem FirstIdx.unique {bs : List AtxBlock} {P : AtxBlock → Prop} {i j : Nat} {b c : AtxBlock} (h : FirstIdx bs P i b)
    (h' : FirstIdx bs P j c) : i = j ∧ b = c := by
  have hij : i = j := by
    rcases Nat.lt_trichotomy i j with hl | he | hl
    · exact absurd h.2.1 (h'.2.2 i hl b h.1)
    · exact he
    · exact absurd h'.2.1 (h.2.2 j hl c h'.1)
  subst hij
  have := h.1
  rw [h'.1] at this
  exact ⟨rfl, (Option.some.inj this).symm⟩

theorem LastIdx.unique {bs : List AtxBlock} {P : AtxBlock → Prop} {i j : Nat} {b c : AtxBlock} (h : LastIdx bs P i b)
    (h' : LastIdx bs P j c) : i = j ∧ b = c := by
  have hij : i = j := by
    rcases Nat.lt_trichotomy i j with hl | he | hl
    · exact absurd h'.2.1 (h.2.2 j hl c h'.1)
    · exact he
    · exact absurd h.2.1 (h'.2.2 i hl b h.1)
  subst hij
  have := h.1
  rw [h'.1] at this
  exact ⟨rfl, (Option.some.inj this).symm⟩

theorem FirstIdx.mem {bs : List AtxBlock} {P : AtxBlock → Prop} {i : Nat} {b : AtxBlock} (h : FirstIdx bs P i b) : b ∈ bs :=
  List.mem_of_getElem? h.1
theorem LastIdx.mem {bs : List AtxBlock} {P : AtxBlock → Prop} {i : Nat} {b : AtxBlock} (h : LastIdx bs P i b) : b ∈ bs :=
  List.mem_of_getElem? h.1

theorem ReceiverAnswer.unique {bs : List AtxBlock} {k : AntCtor} {ss : List (List Char)} {must : Bool} {st st' : Int}
    {o o' : List (SatSys × Int × Rat × Rat × Rat)} (h : ReceiverAnswer bs k ss must st o) (h' : ReceiverAnswer bs k ss must st' o') :
    st = st' ∧ o = o' := by
  rcases h with ⟨i, b, x, rfl, rfl⟩ | ⟨hn, hm, i, b, x, rfl, rfl⟩ | ⟨hn, hm, rfl, rfl⟩ | ⟨hn, hc, hm, rfl, rfl⟩ <;>
    rcases h' with ⟨i', b', x', rfl, rfl⟩ | ⟨gn, gm, i', b', x', rfl, rfl⟩ | ⟨gn, gm, rfl, rfl⟩ | ⟨gn, gc, gm, rfl, rfl⟩
  all_goals first
    | exact ⟨rfl, rfl⟩
    | exact ⟨rfl, by rw [(x.unique x').2]⟩
    | exact absurd x.2.1 (by first | exact gn _ x.mem | exact gc _ x.mem)
    | exact absurd x'.2.1 (by first | exact hn _ x'.mem | exact hc _ x'.mem)
    | (rw [hm] at gm; cases gm)

/-- What is common to all queries: the answer is a function of the antennas in the file and of the
query, and the object stays usable. -/
theorem query_answer {strptime : List Char → Res DateTime} {bs : List AtxBlock} (hne : bs ≠ []) (hw : ∀ b ∈ bs, b.WF strptime)
    (q : AtxQuery) (hq : q.OK) (content : List Char) (h1 : FirstLineOK content) {fuel : Nat} (hfuel : content.length < fuel) :
    ∃ a, ∀ (J : AtxJunk) (cospar : List Char) (f : AtxFile), J.WF → (∀ p, NUL ∈ (J.head p).drop 60) → AtxOn bs f →
      f.strm.content = content → ∃ f', q.run strptime J cospar fuel f = .ok (a, f') ∧ AtxOn bs f' ∧ f'.strm.content = content := by
  classical
  cases q with
  | receiver ant k ss must =>
    by_cases hex : ∃ st o, ReceiverAnswer bs k ss must st o
    · obtain ⟨st, o, hans⟩ := hex
      refine ⟨(st, o, none), ?_⟩
      intro J cospar f hJ _ hf hc
      obtain ⟨st', l, f', e1, e2, e3, e4⟩ := C35_receiver hJ hne hw hf (by rw [hc]; exact h1) hq must (fuel := fuel) (by rw [hc]; exact hfuel)
      obtain ⟨rfl, rfl⟩ := e2.unique hans
      exact ⟨f', by simp only [AtxQuery.run, e1, Res.bind_ok, Res.pure_eq], e3, e4.trans hc⟩
    · refine ⟨(0, [], none), ?_⟩
      intro J cospar f hJ _ hf hc
      obtain ⟨st', l, f', e1, e2, e3, e4⟩ := C35_receiver hJ hne hw hf (by rw [hc]; exact h1) hq must (fuel := fuel) (by rw [hc]; exact hfuel)
      exact absurd ⟨_, _, e2⟩ hex
  | satPco prn ss eph =>
    by_cases hex : ∃ i b, FirstIdx bs (AtxBlock.For prn ss eph) i b
    · obtain ⟨i, b, hib⟩ := hex
      refine ⟨(0, b.offsets, some (ss, prn, lastSvn (-1) (bs.take (i + 1)), b.model ++ [NUL])), ?_⟩
      intro J cospar f hJ hn hf hc
      obtain ⟨m, e1, e2, e3, e4⟩ := findSat_ok hJ hne hw hf hn cospar prn ss eph (fuel := fuel) (by rw [hc]; exact hfuel)
      obtain ⟨p, hp1, hp2⟩ := hf.head
      rcases e4 with ⟨i', b', q, more, x1, x2, x3, x4, x5⟩ | ⟨x1, x2⟩
      · obtain ⟨rfl, rfl⟩ := x1.unique hib
        obtain ⟨g1, g2, g3, g4⟩ := seekg_good e3 q
        obtain ⟨l, s', i1, i2, i3, i4⟩ := collectPco_block (J := J) (fuel := fuel) (hw b' x1.mem) g1 (by rw [g4, e2, x4])
          (by rw [g4, e2, hc]; simp; omega)
        have hcc : s'.content = f.strm.content := by rw [i4, g2, e2]
        refine ⟨{ f with strm := s' }, ?_, ⟨⟨p, hp1, by show s'.content.drop p = _; rw [hcc]; exact hp2⟩, i3⟩, hcc.trans hc⟩
        simp only [AtxQuery.run, atxPcoSatellite, e1, Res.bind_ok]
        rw [if_neg (by omega), x3]
        simp only [atxSeek, i1, Res.bind_ok, Res.pure_eq, i2, Option.map_some, x5, AtxSat.seen]
      · exact absurd hib.2.1 (x1 b hib.mem)
    · refine ⟨(10, [], none), ?_⟩
      intro J cospar f hJ hn hf hc
      obtain ⟨m, e1, e2, e3, e4⟩ := findSat_ok hJ hne hw hf hn cospar prn ss eph (fuel := fuel) (by rw [hc]; exact hfuel)
      obtain ⟨p, hp1, hp2⟩ := hf.head
      rcases e4 with ⟨i', b', q, more, x1, x2, x3, x4, x5⟩ | ⟨x1, x2⟩
      · exact absurd ⟨i', b', x1⟩ hex
      · refine ⟨{ f with strm := m.strm }, ?_, ⟨⟨p, hp1, by show m.strm.content.drop p = _; rw [e2]; exact hp2⟩, e3⟩, e2.trans hc⟩
        simp only [AtxQuery.run, atxPcoSatellite, e1, Res.bind_ok]
        rw [if_pos (by omega), x2]
        rfl
  | satInfo prn ss eph =>
    by_cases hex : ∃ i b, FirstIdx bs (AtxBlock.For prn ss eph) i b
    · obtain ⟨i, b, hib⟩ := hex
      refine ⟨(0, [], some (ss, prn, lastSvn (-1) (bs.take (i + 1)), b.model ++ [NUL])), ?_⟩
      intro J cospar f hJ hn hf hc
      obtain ⟨m, e1, e2, e3, e4⟩ := findSat_ok hJ hne hw hf hn cospar prn ss eph (fuel := fuel) (by rw [hc]; exact hfuel)
      obtain ⟨p, hp1, hp2⟩ := hf.head
      rcases e4 with ⟨i', b', q, more, x1, x2, x3, x4, x5⟩ | ⟨x1, x2⟩
      · obtain ⟨rfl, rfl⟩ := x1.unique hib
        refine ⟨{ f with strm := m.strm }, ?_, ⟨⟨p, hp1, by show m.strm.content.drop p = _; rw [e2]; exact hp2⟩, e3⟩, e2.trans hc⟩
        simp only [AtxQuery.run, atxSatInfo, e1, Res.bind_ok, Res.pure_eq, x2, if_true, Option.map_some, x5, AtxSat.seen]
      · exact absurd hib.2.1 (x1 b hib.mem)
    · refine ⟨(10, [], none), ?_⟩
      intro J cospar f hJ hn hf hc
      obtain ⟨m, e1, e2, e3, e4⟩ := findSat_ok hJ hne hw hf hn cospar prn ss eph (fuel := fuel) (by rw [hc]; exact hfuel)
      obtain ⟨p, hp1, hp2⟩ := hf.head
      rcases e4 with ⟨i', b', q, more, x1, x2, x3, x4, x5⟩ | ⟨x1, x2⟩
      · exact absurd ⟨i', b', x1⟩ hex
      · refine ⟨{ f with strm := m.strm }, ?_, ⟨⟨p, hp1, by show m.strm.content.drop p = _; rw [e2]; exact hp2⟩, e3⟩, e2.trans hc⟩
        simp only [AtxQuery.run, atxSatInfo, e1, Res.bind_ok, Res.pure_eq, x2]
        rfl

/-- A query with the uninitialised memory it happens to meet. -/
structure AtxCall where
  q : AtxQuery
  J : AtxJunk
  cospar : List Char

structure AtxCall.OK (c : AtxCall) : Prop where
  q : c.q.OK
  J : c.J.WF
  nul : ∀ p, NUL ∈ (c.J.head p).drop 60

/-- A history of queries; the answers are thrown away. -/
def atxHistory (strptime : List Char → Res DateTime) (fuel : Nat) : List AtxCall → AtxFile → Res AtxFile
  | [], f => .ok f
  | c :: cs, f => do
      let r ← c.q.run strptime c.J c.cospar fuel f
      atxHistory strptime fuel cs r.2

/-- **C36**.  On a well-formed file, any query gives after any history of queries the same answer
(status, offsets, satellite) as on the object just opened, whatever was in the uninitialised memory
in either case. -/
theorem C36_history_partial {strptime : List Char → Res DateTime} {bs : List AtxBlock} (hne : bs ≠ []) (hw : ∀ b ∈ bs, b.WF strptime)
    {f : AtxFile} (hf : AtxOn bs f) (h1 : FirstLineOK f.strm.content) {fuel : Nat} (hfuel : f.strm.content.length < fuel)
    (history : List AtxCall) (hh : ∀ c ∈ history, c.OK) (c c' : AtxCall) (hc : c.OK) (hc' : c'.OK) (hq : c.q = c'.q) :
    ∃ f1 f2 f3 a, atxHistory strptime fuel history f = .ok f1 ∧ c.q.run strptime c.J c.cospar fuel f1 = .ok (a, f2) ∧
      c'.q.run strptime c'.J c'.cospar fuel f = .ok (a, f3) := by
  have key : ∀ (history : List AtxCall) (g : AtxFile), (∀ c ∈ history, c.OK) → AtxOn bs g → g.strm.content = f.strm.content →
      ∃ f1, atxHistory strptime fuel history g = .ok f1 ∧ AtxOn bs f1 ∧ f1.strm.content = f.strm.content := by
    intro history
    induction history with
    | nil => intro g _ hg hgc; exact ⟨g, rfl, hg, hgc⟩
    | cons d ds ih =>
      intro g hd hg hgc
      have hdk := hd d (by simp)
      obtain ⟨a, ha⟩ := query_answer hne hw d.q hdk.q f.strm.content h1 hfuel
      obtain ⟨g', e1, e2, e3⟩ := ha d.J d.cospar g hdk.J hdk.nul hg hgc
      obtain ⟨f1, i1, i2, i3⟩ := ih g' (fun x hx => hd x (by simp [hx])) e2 e3
      exact ⟨f1, by unfold atxHistory; rw [e1, Res.bind_ok, i1], i2, i3⟩
  obtain ⟨f1, e1, e2, e3⟩ := key history f hh hf rfl
  obtain ⟨a, ha⟩ := query_answer hne hw c.q hc.q f.strm.content h1 hfuel
  obtain ⟨f2, i1, _, _⟩ := ha c.J c.cospar f1 hc.J hc.nul e2 e3
  obtain ⟨f3, j1, _, _⟩ := ha c'.J c'.cospar f hc'.J hc'.nul hf rfl
  exact ⟨f1, f2, f3, a, e1, i1, by rw [← hq]; exact j1⟩

/-- A stream with failbit stays where it is: every receiver query reports 1. -/
theorem spoilt_object {J : AtxJunk} (hJ : J.WF) {f : AtxFile} (hf : f.strm.fail = true) {fuel : Nat} (ant : List Char) (must : Bool) :
    ∃ f', atxPcoReceiver J (fuel + 1) f ant must = .ok (1, [], f') := by
  have hs : (atxSeek f.strm f.endOfHead).good = false ∧ (atxSeek f.strm f.endOfHead).eof = false := by
    cases f.endOfHead with
    | none => simp [atxSeek, Stream.good]
    | some p => simp [atxSeek, Stream.seekg, hf, Stream.good]
  unfold atxPcoReceiver atxFindMatch
  simp only [antInit_eq _ (hJ.ant _), Res.bind_ok]
  unfold atxMatchLoop atxReadType atxExpect
  simp only [Stream.getline_bad hs.1, hs.2, if_true, Res.bind_ok, Res.pure_eq, Bool.false_eq_true, if_false, atxMatchEnd, ne_eq,
    reduceCtorEq, not_false_eq_true]
  exact ⟨_, rfl⟩

/-- **C36, why partial.**  A line of more than 84 chars behind the first antenna: a query that does
not find its antenna before that line spoils the object.  A fresh object answers the query for the
first antenna with status 0; after the other query the answer is 1. -/
theorem C36_long_line_spoils {strptime : List Char → Res DateTime} {J : AtxJunk} (hJ : J.WF) {b : AtxBlock} (hb : b.WF strptime)
    {long more : List Char} (hl : '\n' ∉ long) (hlen : 84 < long.length) {f : AtxFile} {p : Nat} (hp : f.endOfHead = some p)
    (hc : f.strm.content.drop p = linesText b.lines ++ (long ++ '\n' :: more)) (hf : f.strm.fail = false)
    {ant ant' : List Char} {k k' : AntCtor} {ss ss' : List (List Char)} (ha : AntReach ant k ss) (ha' : AntReach ant' k' ss')
    (hx : b.Exact k ss) (hn : ¬ b.Exact k' ss') {fuel : Nat} (hfuel : f.strm.content.length < fuel) (must must' : Bool) :
    (∃ l f', atxPcoReceiver J fuel f ant must = .ok (0, l, f') ∧ l.map Pco.flat = b.offsets) ∧
    ∃ f1 f2, atxPcoReceiver J fuel f ant' must' = .ok (1, [], f1) ∧ atxPcoReceiver J fuel f1 ant must = .ok (1, [], f2) := by
  obtain ⟨fuel, rfl⟩ : ∃ k, fuel = k + 2 := ⟨fuel - 2, by
    have : 2 ≤ f.strm.content.length := by
      have h1 : (f.strm.content.drop p).length ≤ f.strm.content.length := by simp
      rw [hc] at h1; simp at h1; omega
    omega⟩
  obtain ⟨hg, hcc, hpos, hr⟩ := seekg_good hf p
  rw [hc] at hr
  obtain ⟨an, he, hreach⟩ := readType_block hJ hb.named (cur := List.replicate 20 ' ' ++ NUL :: (J.ant p).drop 21) (c := J.head (f.strm.seekg p).pos)
    (by rw [hJ.head]; decide) hg hr
  have hr2 : ((f.strm.seekg p).past [b.start, b.type]).rest = linesText b.body ++ (long ++ '\n' :: more) := by
    apply Stream.past_rest
    rw [hr]
    show linesText ([b.start, b.type] ++ b.body) ++ _ = _
    rw [linesText_append]; simp
  have hg2 : ((f.strm.seekg p).past [b.start, b.type]).good = true := hg
  constructor
  · obtain ⟨r, hs1, hs2⟩ := same_iff hb.named hreach ha
    obtain ⟨g1, g2, g3, g4⟩ := seekg_good (s := (f.strm.seekg p).past [b.start, b.type]) (((Stream.good_iff _).1 hg2).2)
      ((f.strm.seekg p).past [b.start, b.type]).pos
    obtain ⟨l, s', i1, i2, i3, i4⟩ := collectPco_block (J := J) (fuel := fuel + 2) hb g1
      (by rw [g4]; exact hr2) (by rw [g4, Stream.past_content, hcc]; simp; omega)
    refine ⟨l, { f with strm := s' }, ?_, i2⟩
    unfold atxPcoReceiver atxFindMatch
    simp only [hp, atxSeek, hpos, antInit_eq (J.ant p) (hJ.ant p), Res.bind_ok]
    rw [hpos] at he
    unfold atxMatchLoop
    simp only [hpos, he, Res.bind_ok, ne_eq, not_true_eq_false, if_false, hs1, hs2.2 hx, if_true, tellg_good hg2, Res.pure_eq,
      Res.noexcept_ok, atxSeek, i1]
    rfl
  · obtain ⟨r, hs1, hs2⟩ := same_iff hb.named hreach ha'
    have hrf : r = false := by cases r with
      | false => rfl
      | true => exact absurd (hs2.1 rfl) hn
    subst hrf
    have hcm := C13_compare_model hreach ha'
    obtain ⟨_, _, _, hs, hh1, hh2⟩ := hreach.shape
    have hskip := skip_block hb [] b.inside rfl (J := J) hg2 (by rw [hr2, AtxBlock.body_eq])
    have hr3 : (((f.strm.seekg p).past [b.start, b.type]).past b.body).rest = long ++ '\n' :: more := Stream.past_rest hr2
    have hgl := Stream.getline_long (n := ATX_HEADER_CHARS) (s := ((f.strm.seekg p).past [b.start, b.type]).past b.body) hg hr3 hl
      (by unfold ATX_HEADER_CHARS; omega)
    have hsk : ∃ s1, s1.fail = true ∧ atxPcoReceiver J (fuel + 2) f ant' must' = .ok (1, [], { f with strm := s1 }) := by
      unfold atxPcoReceiver atxFindMatch
      simp only [hp, atxSeek, hpos, antInit_eq (J.ant p) (hJ.ant p), Res.bind_ok]
      rw [hpos] at he
      unfold atxMatchLoop
      have hres : (if decide (specModel (AntCtor.fromCStr b.type) = specModel k') = true then antHasSerial an else pure true) =
          Res.ok (if decide (specModel (AntCtor.fromCStr b.type) = specModel k') = true then hs else true) := by
        split
        · exact hh1
        · rfl
      simp only [hpos, he, Res.bind_ok, ne_eq, not_true_eq_false, if_false, hs1, Bool.false_eq_true, hcm, hres]
      have hb2 : ∀ (c : Bool) (x : List Char), (if c = true then (x, ((f.strm.seekg p).past [b.start, b.type]).tellg)
          else (List.replicate 20 ' ' ++ NUL :: (J.ant p).drop 21, (some 0, (f.strm.seekg p).past [b.start, b.type]))).2.2 =
          (f.strm.seekg p).past [b.start, b.type] := by
        intro c x
        rw [tellg_good hg2]
        cases c <;> rfl
      simp only [hb2, hskip, Res.bind_ok, not_true_eq_false, if_false]
      unfold atxMatchLoop atxReadType atxExpect
      rw [show b.inside ++ [b.last] = b.body from rfl]
      simp only [hgl, if_true, Res.pure_eq, Res.bind_ok]
      have heof : (((f.strm.seekg p).past [b.start, b.type]).past b.body).eof = false := ((Stream.good_iff _).1 hg2).1
      simp only [heof, Bool.false_eq_true, if_false, ne_eq, reduceCtorEq, not_false_eq_true, if_true, atxMatchEnd]
      exact ⟨_, rfl, rfl⟩
    obtain ⟨s1, hf1, h1⟩ := hsk
    obtain ⟨f2, h2⟩ := spoilt_object hJ (f := { f with strm := s1 }) hf1 (fuel := fuel + 1) ant must
    exact ⟨_, f2, h1, h2⟩

/-! ## C50 -/

/-- **C50**.  With `must_match_serial`: status 0 exactly when a record agrees in model, radome and
serial; otherwise the status is 10. -/
theorem C50_must_match_partial {strptime : List Char → Res DateTime} {J : AtxJunk} (hJ : J.WF) {bs : List AtxBlock} (hne : bs ≠ [])
    (hw : ∀ b ∈ bs, b.WF strptime) {f : AtxFile} (hf : AtxOn bs f) (h1 : FirstLineOK f.strm.content) {antIn : List Char} {k : AntCtor}
    {ss : List (List Char)} (hi : AntReach antIn k ss) {fuel : Nat} (hfuel : f.strm.content.length < fuel) :
    ∃ st l f', atxPcoReceiver J fuel f antIn true = .ok (st, l, f') ∧ (st = 0 ↔ ∃ b ∈ bs, b.Exact k ss) ∧ (st = 0 ∨ st = 10) := by
  obtain ⟨st, l, f', e1, e2, _, _⟩ := C35_receiver hJ hne hw hf h1 hi true hfuel
  refine ⟨st, l, f', e1, ?_⟩
  rcases e2 with ⟨i, b, x, rfl, _⟩ | ⟨_, hm, _⟩ | ⟨hn, _, rfl, _⟩ | ⟨_, _, hm, _⟩
  · exact ⟨⟨fun _ => ⟨b, x.mem, x.2.1⟩, fun _ => rfl⟩, Or.inl rfl⟩
  · cases hm
  · refine ⟨⟨fun h => absurd h (by decide), ?_⟩, Or.inr rfl⟩
    rintro ⟨b, hb, hx⟩; exact absurd hx (hn b hb)
  · cases hm

/-- **C50, why partial.**  Status 10 is documented as "model + radome found, but the serial did not
match"; it is also returned when no record of the file has the model and radome. -/
theorem C50_status_10_without_model {strptime : List Char → Res DateTime} {J : AtxJunk} (hJ : J.WF) {bs : List AtxBlock} (hne : bs ≠ [])
    (hw : ∀ b ∈ bs, b.WF strptime) {f : AtxFile} (hf : AtxOn bs f) (h1 : FirstLineOK f.strm.content) {antIn : List Char} {k : AntCtor}
    {ss : List (List Char)} (hi : AntReach antIn k ss) {fuel : Nat} (hfuel : f.strm.content.length < fuel)
    (hno : ∀ b ∈ bs, b.model ≠ specModel k) :
    ∃ l f', atxPcoReceiver J fuel f antIn true = .ok (10, l, f') := by
  obtain ⟨st, l, f', e1, e2, e3⟩ := C50_must_match_partial hJ hne hw hf h1 hi hfuel
  rcases e3 with rfl | rfl
  · obtain ⟨b, hb, hx⟩ := e2.1 rfl
    exact absurd hx.1 (hno b hb)
  · exact ⟨l, f', e1⟩

/-! ## C51 -/

/-- **C51**.  The satellite returned by `get_satellite_info` carries the SVN and COSPAR id of the
record found, when that record gives them. -/
theorem C51_satellite_own_partial {strptime : List Char → Res DateTime} {J : AtxJunk} (hJ : J.WF) {bs : List AtxBlock} (hne : bs ≠ [])
    (hw : ∀ b ∈ bs, b.WF strptime) {f : AtxFile} (hf : AtxOn bs f) (hnul : ∀ p, NUL ∈ (J.head p).drop 60) (cospar : List Char)
    (prn : Int) (ss : SatSys) (eph : DateTime) {fuel : Nat} (hfuel : f.strm.content.length < fuel) {i : Nat} {b : AtxBlock}
    (hi : FirstIdx bs (AtxBlock.For prn ss eph) i b) {id : AtxSatId} (hid : b.sat = some id) :
    ∃ sv f', atxSatInfo strptime J cospar fuel f prn ss eph = .ok (0, some sv, f') ∧ (∀ n, id.svn = some n → sv.svn = n) ∧
      (∀ c, id.cospar = some c → cstrOf sv.cospar = .ok c) := by
  obtain ⟨m, e1, e2, e3, e4⟩ := findSat_ok hJ hne hw hf hnul cospar prn ss eph hfuel
  have htake : bs.take (i + 1) = bs.take i ++ [b] := by
    rw [List.take_add_one, hi.1]; rfl
  rcases e4 with ⟨i', b', q, more, x1, x2, x3, x4, x5⟩ | ⟨x1, x2⟩
  · obtain ⟨rfl, rfl⟩ := x1.unique hi
    refine ⟨m.sat, { f with strm := m.strm }, ?_, ?_, ?_⟩
    · unfold atxSatInfo
      rw [e1, Res.bind_ok, x2]; rfl
    · intro n hn
      rw [x5, htake]
      simp only [lastSvn, List.foldl_append, List.foldl_cons, List.foldl_nil, hid, Option.bind_some, hn]
    · intro c hc
      rw [x5, htake]
      simp only [lastCospar, List.foldl_append, List.foldl_cons, List.foldl_nil, hid, Option.bind_some, hc]
      apply cstrOf_append
      have hs := (hw b' x1.mem).sat
      rw [hid] at hs
      have h4 := hs.2.2.2
      rw [hc] at h4
      rw [h4.2]
      exact IsCStr.take (IsCStr.drop (hw b' x1.mem).type.1.2.1 50) 8
  · exact absurd hi.2.1 (x1 b hi.mem)

/-- **C51, why partial.**  When the record found gives no SVN, the SVN reported is the last one given
by an *earlier* record of the file, i.e. that of another satellite (-1 only if there is none). -/
theorem C51_svn_of_another_satellite {strptime : List Char → Res DateTime} {J : AtxJunk} (hJ : J.WF) {b0 b1 : AtxBlock}
    {bs : List AtxBlock} (hw : ∀ b ∈ b0 :: b1 :: bs, b.WF strptime) {f : AtxFile} (hf : AtxOn (b0 :: b1 :: bs) f)
    (hnul : ∀ p, NUL ∈ (J.head p).drop 60) (cospar : List Char) (prn : Int) (ss : SatSys) (eph : DateTime) {fuel : Nat}
    (hfuel : f.strm.content.length < fuel) {i0 i1 : AtxSatId} (h0 : b0.sat = some i0) (h1 : b1.sat = some i1) {n : Nat}
    (hn : i0.svn = some n) (hn1 : i1.svn = none) (hno : ¬ b0.For prn ss eph) (hyes : b1.For prn ss eph) :
    ∃ sv f', atxSatInfo strptime J cospar fuel f prn ss eph = .ok (0, some sv, f') ∧ sv.prn = prn ∧ sv.svn = n := by
  obtain ⟨m, e1, e2, e3, e4⟩ := findSat_ok hJ (by simp) hw hf hnul cospar prn ss eph hfuel
  have hi : FirstIdx (b0 :: b1 :: bs) (AtxBlock.For prn ss eph) 1 b1 := (FirstIdx.cons_zero hyes).cons_succ hno
  rcases e4 with ⟨i', b', q, more, x1, x2, x3, x4, x5⟩ | ⟨x1, x2⟩
  · obtain ⟨rfl, rfl⟩ := x1.unique hi
    refine ⟨m.sat, { f with strm := m.strm }, ?_, by rw [x5], ?_⟩
    · unfold atxSatInfo
      rw [e1, Res.bind_ok, x2]; rfl
    · rw [x5]
      simp [lastSvn, h0, h1, hn, hn1]
  · exact absurd hi.2.1 (x1 _ hi.mem)

/-! ## Uninitialised memory, endless loops, aborts -/

/-- **C35/C36**: a file without antennas: the search reads a status variable that was never set. -/
theorem C35_no_antenna_undefined {J : AtxJunk} (hJ : J.WF) {f : AtxFile} (hf : AtxOn [] f) (ant : List Char) (must : Bool) {fuel : Nat} :
    atxPcoReceiver J (fuel + 1) f ant must = .ub := by
  obtain ⟨p, hp1, hp2⟩ := hf.head
  obtain ⟨hg, hc, hpos, hr⟩ := seekg_good hf.fail p
  obtain ⟨s', he, _, _⟩ := readType_eof (J := J) (cur := List.replicate 20 ' ' ++ NUL :: (J.ant p).drop 21)
    (c := J.head (f.strm.seekg p).pos) hg (by rw [hr, hp2]; rfl)
  unfold atxPcoReceiver atxFindMatch
  simp only [hp1, atxSeek, hpos, antInit_eq (J.ant p) (hJ.ant p), Res.bind_ok]
  rw [hpos] at he
  unfold atxMatchLoop
  simp only [hpos, he, Res.bind_ok]
  rfl

/-- **C37**: without a terminator among the uninitialised bytes 60-84 of the line array, the search
for a satellite is undefined as soon as the file has an antenna. -/
theorem C37_uninitialised_read {strptime : List Char → Res DateTime} {J : AtxJunk} (hJ : J.WF) {b : AtxBlock} {bs : List AtxBlock}
    (hb : b.WF strptime) {f : AtxFile} (hf : AtxOn (b :: bs) f) {p : Nat} (hp : f.endOfHead = some p) (hnul : NUL ∉ (J.head p).drop 60)
    (cospar : List Char) (prn : Int) (ss : SatSys) (eph : DateTime) {fuel : Nat} :
    atxSatInfo strptime J cospar (fuel + 1) f prn ss eph = .ub := by
  obtain ⟨p', hp1, hp2⟩ := hf.head
  rw [hp] at hp1; cases hp1
  obtain ⟨hg, hc, hpos, hr⟩ := seekg_good hf.fail p
  rw [hp2, atxBlocksText_cons] at hr
  obtain ⟨an, he, _⟩ := readType_block hJ hb.named (cur := List.replicate 20 ' ' ++ NUL :: (J.ant p).drop 21) (c := J.head p)
    (by rw [hJ.head]; decide) hg hr
  have hn : cstrOf (b.type.take 60 ++ (J.head p).drop 60) = .ub := by
    rcases cstrOf_total (b.type.take 60 ++ (J.head p).drop 60) with ⟨s, hs⟩ | ⟨h, _⟩
    · obtain ⟨rest, h1, _⟩ := cstrOf_ok hs
      have hm : NUL ∈ b.type.take 60 ++ (J.head p).drop 60 := by rw [h1]; simp
      simp only [List.mem_append] at hm
      rcases hm with hm | hm
      · exact absurd (List.mem_of_mem_take hm) hb.type.1.2.1
      · exact absurd hm hnul
    · exact h
  unfold atxSatInfo atxFindSat
  simp only [hp, atxSeek, hpos, antInit_eq (J.ant p) (hJ.ant p), Res.bind_ok]
  unfold atxSatLoop
  simp only [he, Res.bind_ok, ne_eq, not_true_eq_false, if_false]
  unfold atxSatTest atxResolve
  rw [hn]
  rfl

theorem cti_eof {strptime : List Char → Res DateTime} {eph : DateTime} {l : List Char} (hl : NUL ∉ l) (h60 : 60 ≤ l.length)
    (h1 : ¬ HasLabel l c!"VALID FROM") (h2 : ¬ HasLabel l c!"VALID UNTIL") (h3 : ¬ HasLabel l c!"START OF FREQUENCY") :
    ∀ (fuel : Nat) (buf : List Char), buf.drop 60 = l.drop 60 ++ NUL :: buf.drop (l.length + 1) →
      ∀ s : Stream, (s.good = false ∨ s.rest = []) → ∀ fr un, (fr.isSome && un.isSome) = false →
      ctiLoop strptime eph fuel buf fr un s = .diverge := by
  intro fuel
  induction fuel with
  | zero => intros; rfl
  | succ fuel ih =>
    intro buf hb s hs fr un hne
    have hgl : ∃ s', s.getline ATX_GRID_CHARS = ([], s') ∧ (s'.good = false ∨ s'.rest = []) := by
      by_cases hg : s.good = true
      · rcases hs with h | h
        · rw [hg] at h; cases h
        · exact ⟨_, Stream.getline_last hg h (by simp) (by simp), Or.inl (by simp [Stream.good])⟩
      · exact ⟨_, Stream.getline_bad (by simpa using hg), Or.inl (by simp [Stream.good])⟩
    obtain ⟨s', e1, e2⟩ := hgl
    have hf : fillLine buf [] = NUL :: buf.drop 1 := by simp [fillLine]
    have hd : (fillLine buf []).drop 60 = l.drop 60 ++ NUL :: (fillLine buf []).drop (l.length + 1) := by
      rw [hf]
      simp only [show (60 : Nat) = 59 + 1 from rfl, List.drop_succ_cons, List.drop_drop]
      rw [show 1 + 59 = 60 from rfl, hb, show 1 + l.length = l.length + 1 by omega]
    have hlab : ∀ pat : List Char, IsCStr pat → atxLabel (fillLine buf []) pat = .ok (decide (HasLabel l pat)) := by
      intro pat hp
      have := atxLabel_line (buf := []) hl h60 hp
      unfold atxLabel at this ⊢
      rw [hd]
      unfold cArr
      rw [strncmpEq_cstr pat.length (l.drop 60) pat _ [] (IsCStr.drop hl 60) hp, List.take_length]
      congr 1
      apply decide_eq_decide.2
      unfold HasLabel
      rw [List.prefix_iff_eq_take]
      exact ⟨fun h => h.symm, fun h => h.symm⟩
    unfold ctiLoop ctiLine
    simp only [e1, hlab _ (by decide : IsCStr c!"VALID FROM"), hlab _ (by decide : IsCStr c!"VALID UNTIL"),
      hlab _ (by decide : IsCStr c!"START OF FREQUENCY"), decide_eq_false h1, decide_eq_false h2, decide_eq_false h3, Res.bind_ok,
      Bool.false_eq_true, if_false, Res.pure_eq, hne]
    exact ih _ hd s' e2 fr un hne

/-- **C37, why partial.**  A file that ends inside a record, after the `METH / BY / # / DATE` line and
one more line but before the first frequency: the validity test never ends. -/
theorem C37_truncated_record_hangs {strptime : List Char → Res DateTime} {J : AtxJunk} {meth l : List Char}
    (hm : Labelled meth c!"METH / BY / # / DATE") (hl : (AtxOpt.other l).WF strptime) (eph : DateTime) {s : Stream} (hg : s.good = true)
    (hr : s.rest = linesText [meth, l]) : ∀ fuel, checkTimeInterval strptime J fuel eph s = .diverge := by
  intro fuel
  unfold checkTimeInterval
  have hr' : s.rest = linesText (meth :: [l]) ++ [] := by rw [hr]; simp
  rw [expect_line (n := ATX_GRID_CHARS) hg hr' (GridLine.of_labelled hm (by decide)).1 (Nat.le_of_lt (hm.2.long (by decide))) (by decide),
    decide_eq_true hm.2, Res.bind_ok]
  simp only [Bool.true_eq_false, if_false]
  have hr1 := rest_cons hr'
  have hr2 := rest_cons (s := s.past [meth]) (ls := []) hr1
  obtain ⟨h1, h2, h3, h4, h5, h6⟩ := hl
  cases fuel with
  | zero => rfl
  | succ fuel =>
    have hgl := getline_past (n := ATX_GRID_CHARS) (s := s.past [meth]) hg hr1 h1.1 (by have := h1.2.2; unfold ATX_GRID_CHARS; omega)
    unfold ctiLoop
    simp only [hgl]
    have hcl := ctiLine_opt (strptime := strptime) (o := .other l) ⟨h1, h2, h3, h4, h5, h6⟩ (fillLine (J.grid s.pos) meth) none none
    rw [show (AtxOpt.other l).line = l from rfl] at hcl
    rw [hcl, Res.bind_ok]
    simp only [AtxOpt.from?, AtxOpt.until?, Option.or_none, Option.isSome_none, Bool.and_self, Bool.false_eq_true, if_false,
      atxLabel_line h1.2.1 h2 (by decide : IsCStr c!"START OF FREQUENCY"), decide_eq_false h5, Res.bind_ok]
    rw [cti_eof h1.2.1 h2 h3 h4 h5 fuel (fillLine (fillLine (J.grid s.pos) meth) l) ?_ _ (Or.inr hr2) none none rfl]
    · rfl
    · generalize fillLine (J.grid s.pos) meth = g
      unfold fillLine
      rw [drop_line h2]
      congr 2
      rw [List.drop_append]
      simp

end Ggnss
