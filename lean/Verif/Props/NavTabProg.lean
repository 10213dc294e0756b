import Verif.Props.NavTab
import Verif.Props.NavAny
import Verif.Lemmas.Columns
/-!
# C87: the orbit table program from the command line on
-/
namespace Ggnss
open NavItem

/-- Assumptions about memory, as for `PpWorld.OK`: arrays have their sizes, and the uninitialised line array of the ANTEX search has a
terminator in its last 25 bytes (without it: `C37_uninitialised_read`). -/
structure TabWorld.OK (W : TabWorld) : Prop where
  J : W.J.WF
  nul : ∀ p, NUL ∈ (W.J.head p).drop 60
  fresh : W.fresh.data.length = 31

/-- The navigation and ANTEX files that the program is given, and enough steps for its loops: no message of the satellite is more than
`K` minutes before the end of the table. -/
structure TabFiles (W : TabWorld) (a1 a3 : List Char) (sys : SatSys) (prn : Int) (q : NavItem) (rs : List NavItem) (bs : List AtxBlock)
    (K : Nat) : Prop where
  nav : ∃ nh : NavHeader, nh.WF ∧ W.files a1 = some (linesText nh.lines ++ fileText rs)
  recs : NavFileOK W.navDate rs
  first : ∃ ms, messagesOf sys prn rs = q :: ms
  tame : Tame rs sys prn
  atx : ∃ ah : AtxHeader, ah.WF ∧ W.files a3 = some (atxText ah bs) ∧ (atxText ah bs).length < W.fuel
  ants : bs ≠ [] ∧ ∀ b ∈ bs, b.WF W.atxDate
  late : ∀ r ∈ rs, r.Of sys prn → q.toc.total + 86400 - r.toc.total ≤ 60 * K
  fuel : (rs.length + 1) * (K + 1) < W.fuel

theorem satArg_strtol {a : List Char} {sys : SatSys} {prn : Int} (h : SatArg a sys prn) :
    charToSatsys (a.headD NUL) = .ok sys ∧ ∃ r, strtolA (a.drop 1 ++ [NUL]) = .ok (some (prn, r, false)) ∧ toInt32 prn = prn := by
  obtain ⟨⟨ds, rfl, h2, h3, h4⟩, h5, h6⟩ := h
  refine ⟨by simpa using charToSatsys_toChar sys, ?_⟩
  obtain ⟨r, hr⟩ := strtol_nat (tail := []) (l := ds) (off := 0) (v := Nat.ofDigitChars 10 ds 0)
    ⟨Nat.zero_le _, 0, ds, [], by simp, h2, h3, by simp, rfl, by omega⟩
  rw [h4] at hr
  exact ⟨r, by simpa using hr, toInt32_small (by omega) h6⟩

theorem messagesOf_mem {sys : SatSys} {prn : Int} {rs : List NavItem} {q : NavItem} :
    q ∈ messagesOf sys prn rs ↔ q ∈ rs ∧ q.Of sys prn := by
  unfold messagesOf NavItem.Of
  rw [List.mem_filter]; simp

/-- The program up to its loop. -/
theorem tabMain_start (W : TabWorld) (hW : W.OK) (o : StateClock) {a0 a1 a2 a3 : List Char} {more : List (List Char)} {sys : SatSys} {prn : Int}
    (ha : SatArg a2 sys prn) (hh : Handled sys) {q : NavItem} {rs : List NavItem} {bs : List AtxBlock} {K : Nat}
    (hF : TabFiles W a1 a3 sys prn q rs bs K) :
    (∃ b ∈ bs, b.For prn sys q.toc) ∧ (∃ post f' s', (∃ pre, rs = pre ++ q :: post) ∧ messagesOf sys prn rs = q :: messagesOf sys prn post ∧
        Carries f' q ∧ s'.good = true ∧ s'.rest = fileText post ∧
        tabMain W o (a0 :: a1 :: a2 :: a3 :: more) =
          Res.noexcept (tabLoop W sys prn (1000 * q.toc.total + 86400000) W.fuel f' s' 0 (1000 * q.toc.total) o)) ∨
      (∀ b ∈ bs, ¬ b.For prn sys q.toc) ∧ tabMain W o (a0 :: a1 :: a2 :: a3 :: more) = .ok (5, []) := by
  obtain ⟨h1, r, h2, h3⟩ := satArg_strtol ha
  obtain ⟨nh, n1, n2⟩ := hF.nav
  obtain ⟨ah, b1, b2, b3⟩ := hF.atx
  obtain ⟨atx, x1, _, x3, x4, _⟩ := C52_open W.J b1 bs
  obtain ⟨nav, e, g1, _, _, _, g5, g6, g7, _⟩ := C56_open W.junkNav n1 (fileText rs)
  have hlen : rs.length < W.fuel := by
    have := hF.fuel
    rw [Nat.add_mul] at this
    have := Nat.le_mul_of_pos_right rs.length (Nat.succ_pos K)
    have e : K.succ = K + 1 := rfl
    rw [e] at this
    omega
  rcases next_message hF.recs hh ha.range.1 W.navJunk hlen hW.fresh g6 g7 with ⟨m1, _⟩ | ⟨q', post, f', s', m1, m2, m3, m4, m5, m6, m7, m8⟩
  · obtain ⟨ms, hms⟩ := hF.first
    rw [m1] at hms
    cases hms
  · obtain ⟨ms, hms⟩ := hF.first
    have hqq : q' = q := by rw [m1] at hms; exact (List.cons.inj hms).1
    subst hqq
    obtain ⟨st, sv, atx', y1, _, _, y4⟩ := C37_satellite_partial hW.J hF.ants.1 hF.ants.2 x4 hW.nul W.cospar prn sys q'.toc
      (fuel := W.fuel) (by rw [x3]; exact b3)
    have key : tabMain W o (a0 :: a1 :: a2 :: a3 :: more) = Res.noexcept (if st ≠ 0 then .ok (5, []) else
        tabLoop W sys prn (1000 * q'.toc.total + 86400000) W.fuel f' s' 0 (1000 * q'.toc.total) o) := by
      unfold tabMain
      simp only [h1, h2, Res.bind_ok, strtolVal, strtolErr, h3, List.head?_cons, tabAntex, tabFile, b2, x1, n2, g1, Bool.false_eq_true, if_false,
        m5, ne_eq, not_true_eq_false, m6.toc, y1, Res.pure_eq]
    rcases y4 with ⟨i, b, _, z1, rfl, _⟩ | ⟨z1, rfl, _⟩
    · left
      exact ⟨⟨b, z1.mem, z1.2.1⟩, post, f', s', m4, m1, m6, m7, m8, by rw [key]; simp⟩
    · right
      exact ⟨z1, by rw [key]; rfl⟩

/-- **C87**, for messages of GPS, Galileo and BeiDou of any health: the program ends with code 0 and its lines show, each for an epoch
before the end of the day that starts with the first message, what a healthy, not expired message of the satellite broadcasts for the
epoch of the line. -/
theorem C87_lines_partial (W : TabWorld) (hW : W.OK) (o : StateClock) {a0 a1 a2 a3 : List Char} {more : List (List Char)} {sys : SatSys} {prn : Int}
    (ha : SatArg a2 sys prn) (hh : Handled sys) (hk : sys ≠ .glonass) {q : NavItem} {rs : List NavItem} {bs : List AtxBlock} {K : Nat}
    (hF : TabFiles W a1 a3 sys prn q rs bs K) (hatx : ∃ b ∈ bs, b.For prn sys q.toc) :
    ∃ lines, tabMain W o (a0 :: a1 :: a2 :: a3 :: more) = .ok (0, lines) ∧
      (∃ ms, messagesOf sys prn rs = q :: ms ∧ TabRun (1000 * q.toc.total + 86400000) q ms (1000 * q.toc.total) (lines.map TabLine.row)) ∧
      ∀ l ∈ lines, l.t < 1000 * (q.toc.total + 86400) ∧
        ∃ r ∈ rs, r.Of sys prn ∧ r.HealthIs 0 ∧ ¬ r.Expired l.t ∧ KeplerSays r l.t l.pos l.clock := by
  rcases tabMain_start W hW o (a0 := a0) (more := more) ha hh hF with ⟨_, post, f', s', ⟨pre, m4⟩, m1, m6, m7, m8, key⟩ | ⟨h, _⟩
  · have hpost : ∀ r ∈ post, r ∈ rs := fun r hr => by rw [m4]; simp [hr]
    have hq : q ∈ rs ∧ q.Of sys prn := messagesOf_mem.1 (by rw [m1]; simp)
    have hlen : rs.length = pre.length + post.length + 1 := by rw [m4]; simp; omega
    have hmul : (post.length + 2) * (K + 1) ≤ (rs.length + 1) * (K + 1) := Nat.mul_le_mul_right _ (by omega)
    have hfu := hF.fuel
    have hex : (post.length + 2) * (K + 1) = post.length * (K + 1) + 2 * (K + 1) := Nat.add_mul _ _ _
    have hbig : post.length ≤ post.length * (K + 1) := Nat.le_mul_of_pos_right _ (Nat.succ_pos K)
    obtain ⟨lines, g1, _, g3⟩ := tabLoop_run W hh hk ha.range.1 (1000 * q.toc.total + 86400000) K W.fuel post q f' s' (1000 * q.toc.total) K o
      ⟨fun r h => hF.recs.handled r (hpost r h), fun r h => hF.recs.block r (hpost r h)⟩ (by omega)
      (by
        intro hg r hr
        rcases List.mem_cons.1 hr with rfl | hr
        · exact hF.tame hg _ hq.1
        · exact hF.tame hg r (hpost r hr))
      hq.2 (hF.recs.handled q hq.1 (by rw [hq.2.1]; exact hh)) m6 m7 m8
      (fun r hr hof => by have := hF.late r (hpost r hr) hof; omega)
      (by have := hF.late q hq.1 hq.2; omega) (by omega)
    refine ⟨lines, by rw [key, g1]; rfl, ⟨_, m1, g3⟩, ?_⟩
    intro l hl
    obtain ⟨h1, r, h2, h3, h4, h5⟩ := g3.lines l.row (List.mem_map_of_mem (f := TabLine.row) hl)
    have hm : r ∈ messagesOf sys prn rs := by rw [m1]; exact h2
    exact ⟨by have : l.t < 1000 * q.toc.total + 86400000 := h1
              omega, r, (messagesOf_mem.1 hm).1, (messagesOf_mem.1 hm).2, h3, h4, h5⟩
  · obtain ⟨b, hb, hbf⟩ := hatx
    exact absurd hbf (h b hb)

/-- **C87**, the table for a satellite of GPS, Galileo or BeiDou with healthy messages: exit code 0, one line per minute from the time of clock of the first
message on, each showing what the first message that has not expired broadcasts, up to a day later or until all messages have expired. -/
theorem C87_table_partial (W : TabWorld) (hW : W.OK) (o : StateClock) {a0 a1 a2 a3 : List Char} {more : List (List Char)} {sys : SatSys} {prn : Int}
    (ha : SatArg a2 sys prn) (hh : Handled sys) (hk : sys ≠ .glonass) {q : NavItem} {rs : List NavItem} {bs : List AtxBlock} {K : Nat}
    (hF : TabFiles W a1 a3 sys prn q rs bs K) (hatx : ∃ b ∈ bs, b.For prn sys q.toc) (hz : ∀ r ∈ rs, r.Of sys prn → r.HealthIs 0) :
    ∃ lines, tabMain W o (a0 :: a1 :: a2 :: a3 :: more) = .ok (0, lines) ∧
      TableOf (messagesOf sys prn rs) (1000 * q.toc.total) (1000 * q.toc.total + 86400000) (lines.map TabLine.row) := by
  obtain ⟨lines, h1, ⟨ms, h2, h3⟩, _⟩ := C87_lines_partial W hW o (a0 := a0) (more := more) ha hh hk hF hatx
  refine ⟨lines, h1, ?_⟩
  rw [h2]
  refine h3.table fun r hr => ?_
  have hm : r ∈ messagesOf sys prn rs := by rw [h2]; exact hr
  exact hz r (messagesOf_mem.1 hm).1 (messagesOf_mem.1 hm).2

/-- **C87**, messages in force: when moreover every message comes into force before the one in front of it expires, every line shows what a
message in force at its epoch broadcasts. -/
theorem C87_in_force_partial (W : TabWorld) (hW : W.OK) (o : StateClock) {a0 a1 a2 a3 : List Char} {more : List (List Char)} {sys : SatSys} {prn : Int}
    (ha : SatArg a2 sys prn) (hh : Handled sys) (hk : sys ≠ .glonass) {q : NavItem} {rs : List NavItem} {bs : List AtxBlock} {K : Nat}
    (hF : TabFiles W a1 a3 sys prn q rs bs K) (hatx : ∃ b ∈ bs, b.For prn sys q.toc) (hz : ∀ r ∈ rs, r.Of sys prn → r.HealthIs 0)
    (hgap : Gapless (messagesOf sys prn rs)) :
    ∃ lines, tabMain W o (a0 :: a1 :: a2 :: a3 :: more) = .ok (0, lines) ∧
      ∀ (k : Nat) (l : TabLine), lines[k]? = some l → l.t = 1000 * q.toc.total + 60000 * k ∧ SatAt rs (sys, prn) l.t l.pos l.clock := by
  obtain ⟨lines, h1, h2⟩ := C87_table_partial W hW o (a0 := a0) (more := more) ha hh hk hF hatx hz
  refine ⟨lines, h1, ?_⟩
  intro k l hl
  obtain ⟨g1, _, r, g3, g4⟩ := h2.line k l.row (by rw [List.getElem?_map, hl]; rfl)
  obtain ⟨ms, hms⟩ := hF.first
  have hall : ∀ r ∈ q :: ms, r ∈ rs ∧ r.Of sys prn := fun r hr => messagesOf_mem.1 (by rw [hms]; exact hr)
  have g1' : l.t = 1000 * q.toc.total + 60000 * (k : Int) := g1
  rw [hms] at g3 hgap
  have hm : r ∈ q :: ms := by obtain ⟨a, b, e, _⟩ := g3; rw [e]; simp
  have hv := FirstAlive.valid (dateOf := W.navDate) (by omega) hgap (fun r hr => hz r (hall r hr).1 (hall r hr).2)
    (fun r hr => hF.recs.handled r (hall r hr).1 (by rw [(hall r hr).2.1]; exact hh)) (fun r hr => by rw [(hall r hr).2.1]; exact hk) g3
  exact ⟨g1', r, (hall r hm).1, (hall r hm).2, hv, Or.inr ⟨by rw [(hall r hm).2.1]; exact hk, g4⟩⟩

/-- **C87**: a satellite that the ANTEX file does not have at the time of its first message: exit code 5 and no table. -/
theorem C87_not_in_antex (W : TabWorld) (hW : W.OK) (o : StateClock) {a0 a1 a2 a3 : List Char} {more : List (List Char)} {sys : SatSys} {prn : Int}
    (ha : SatArg a2 sys prn) (hh : Handled sys) {q : NavItem} {rs : List NavItem} {bs : List AtxBlock} {K : Nat}
    (hF : TabFiles W a1 a3 sys prn q rs bs K) (hatx : ∀ b ∈ bs, ¬ b.For prn sys q.toc) :
    tabMain W o (a0 :: a1 :: a2 :: a3 :: more) = .ok (5, []) := by
  rcases tabMain_start W hW o (a0 := a0) (more := more) ha hh hF with ⟨⟨b, hb, hbf⟩, _⟩ | ⟨_, h⟩
  · exact absurd hbf (hatx b hb)
  · exact h

theorem atxSatInfo_unopened (W : TabWorld) (hW : W.OK) (hfu : 0 < W.fuel) (prn : Int) (sys : SatSys) (dt : DateTime) :
    ∃ f, atxSatInfo W.atxDate W.J W.cospar W.fuel ⟨some 0, .mixed, ⟨[], 0, false, true⟩⟩ prn sys dt = .ok (1, none, f) := by
  obtain ⟨n, hn⟩ : ∃ n, W.fuel = n + 1 := ⟨W.fuel - 1, by omega⟩
  unfold atxSatInfo atxFindSat
  simp only [atxSeek, Stream.seekg, if_true, antInit_eq _ (hW.J.ant _), Res.bind_ok, hn]
  rw [atxSatLoop]
  unfold atxReadType atxExpect
  simp only [Stream.getline, Stream.good, Bool.not_true, Bool.and_false, Bool.false_eq_true, if_false, if_true, Res.pure_eq, Res.bind_ok]
  simp [atxSatEnd, Res.noexcept]

/-- **C87** is false without the optional ANTEX file: whatever the navigation file holds, a run that ends prints no table; its exit code
is 5 or 10 (or 1 when the satellite cannot be read). -/
theorem C87_without_antex (W : TabWorld) (hW : W.OK) (hfu : 0 < W.fuel) (o : StateClock) (a0 a1 a2 : List Char) {r : Int × List TabLine}
    (h : tabMain W o [a0, a1, a2] = .ok r) : r.2 = [] ∧ (r.1 = 5 ∨ r.1 = 10 ∨ r.1 = 1) := by
  unfold tabMain at h
  have h := Res.noexcept_eq_ok.1 h
  simp only at h
  split at h
  · obtain ⟨p, _, h⟩ := Res.bind_eq_ok.1 h
    simp only [List.head?_nil, tabAntex, Res.bind_ok] at h
    obtain ⟨c, _, h⟩ := Res.bind_eq_ok.1 h
    obtain ⟨nav, _, h⟩ := Res.bind_eq_ok.1 h
    obtain ⟨q, _, h⟩ := Res.bind_eq_ok.1 h
    split at h
    · cases h; simp
    · obtain ⟨f, hf⟩ := atxSatInfo_unopened W hW hfu (toInt32 (strtolVal p)) ‹_› q.2.frame.toc
      rw [hf, Res.bind_ok] at h
      simp only [ne_eq, one_ne_zero, not_false_eq_true, if_true, Res.pure_eq, Res.ok.injEq] at h
      rw [← h]; simp
  · cases h; simp

/-- **C87**: a satellite without messages in the file: exit code 10. -/
theorem C87_no_message (W : TabWorld) (hW : W.OK) (o : StateClock) {a0 a1 a2 : List Char} {sys : SatSys} {prn : Int}
    (ha : SatArg a2 sys prn) (hh : Handled sys) {nh : NavHeader} (n1 : nh.WF) {rs : List NavItem} (hrs : NavFileOK W.navDate rs)
    (n2 : W.files a1 = some (linesText nh.lines ++ fileText rs)) (hno : ∀ r ∈ rs, ¬ r.Of sys prn) (hfuel : rs.length < W.fuel) :
    tabMain W o [a0, a1, a2] = .ok (10, []) := by
  obtain ⟨h1, r, h2, h3⟩ := satArg_strtol ha
  obtain ⟨nav, e, g1, _, _, _, g5, g6, g7, _⟩ := C56_open W.junkNav n1 (fileText rs)
  rcases next_message hrs hh ha.range.1 W.navJunk hfuel hW.fresh g6 g7 with ⟨_, f', s', m2⟩ | ⟨q, _, _, _, _, m2, m3, _⟩
  · unfold tabMain
    simp only [h1, h2, Res.bind_ok, strtolVal, strtolErr, h3, List.head?_nil, tabAntex, tabFile, n2, g1, Bool.false_eq_true, if_false, m2]
    rfl
  · exact absurd m3 (hno q m2)

/-- **C87**: fewer than two arguments: exit code 1. -/
theorem C87_usage (W : TabWorld) (o : StateClock) {argv : List (List Char)} (h : argv.length < 3) : tabMain W o argv = .ok (1, []) := by
  unfold tabMain
  match argv with
  | [] => rfl
  | [_] => rfl
  | [_, _] => rfl
  | _ :: _ :: _ :: _ => simp at h; omega

/-- **C87**: a satellite whose first character is no system letter: exit code 1, no file is opened. -/
theorem C87_unknown_system (W : TabWorld) (o : StateClock) (a0 a1 a2 : List Char) (more : List (List Char))
    (h : ∀ sys, a2.head? ≠ some (satsysToChar sys)) : tabMain W o (a0 :: a1 :: a2 :: more) = .ok (1, []) := by
  have hc : ∀ sys, charToSatsys (a2.headD NUL) ≠ .ok sys := by
    refine charToSatsys_none ?_
    cases a2 with
    | nil => intro sys; cases sys <;> decide
    | cons c cs => intro sys hx; exact h sys (by rw [← hx]; rfl)
  unfold tabMain
  simp only
  cases he : charToSatsys (a2.headD NUL) with
  | ok sys => exact absurd he (hc sys)
  | _ => simp [Res.noexcept]

/-- **C87** is false for GLONASS: whenever the first message of the satellite is healthy, six numbers are stored into an array of three,
which is undefined behaviour. -/
theorem C87_glonass_overflow (W : TabWorld) (hW : W.OK) (o : StateClock) {a0 a1 a2 a3 : List Char} {more : List (List Char)} {prn : Int}
    (ha : SatArg a2 .glonass prn) {q : NavItem} {rs : List NavItem} {bs : List AtxBlock} {K : Nat}
    (hF : TabFiles W a1 a3 .glonass prn q rs bs K) (hatx : ∃ b ∈ bs, b.For prn .glonass q.toc) (hz : q.HealthIs 0) (hfu : 720 < W.fuel) :
    tabMain W o (a0 :: a1 :: a2 :: a3 :: more) = .ub := by
  rcases tabMain_start W hW o (a0 := a0) (more := more) ha (Or.inr (Or.inl rfl)) hF with ⟨_, post, f', s', ⟨pre, m4⟩, m1, m6, m7, m8, key⟩ | ⟨h, _⟩
  · have hq : q ∈ rs ∧ q.Of .glonass prn := messagesOf_mem.1 (by rw [m1]; simp)
    rw [key]
    obtain ⟨n, hn⟩ : ∃ n, W.fuel = n + 1 := ⟨W.fuel - 1, by omega⟩
    have hgs : f'.sys = .glonass := by rw [m6.sys, hq.2.1]
    have hfit : q.FitIs 900 := by unfold FitIs; rw [hq.2.1]
    have hj : tabMsgOk f' (1000 * q.toc.total) = .ok 0 := by
      unfold tabMsgOk
      rw [svHealth_spec m6 hz, Res.bind_ok, fitInterval_spec m6 hfit, Res.bind_ok]
      simp only [ne_eq, not_true_eq_false, if_false, hgs, if_true, m6.toc]
      rw [if_pos (by omega)]; rfl
    have hst : tabState W f' (1000 * q.toc.total) o = .ub := by
      obtain ⟨c, c1, c2, c3⟩ := C28_window f' W.fuel (msEpoch (1000 * q.toc.total)) o hfu hgs
      have hne : c.status ≠ 10 := by
        rcases le_or_gt |elapsed (msEpoch (1000 * q.toc.total)) f'.toe| 900 with h | h
        · rw [(c3 h).1]; decide
        · rw [(c2 h).1]; decide
      unfold tabState
      rw [c1, Res.bind_ok, if_pos ⟨hgs, hne⟩]
    have hl : tabLoop W .glonass prn (1000 * q.toc.total + 86400000) W.fuel f' s' 0 (1000 * q.toc.total) o = .ub := by
      generalize hfu' : W.fuel = m at hn ⊢
      rw [hn, tabLoop, if_pos (by omega), hj, Res.bind_ok]
      simp only [hst]
      rfl
    rw [hl]; rfl
  · obtain ⟨b, hb, hbf⟩ := hatx
    exact absurd hbf (h b hb)

end Ggnss
