import Verif.Model.Debug
import Verif.Props.NavAny
import Verif.Props.NavExample
import Verif.Props.Kepler
import Verif.Props.Sp3
/-!
# C71: what the `DEBUG` build changes — navigation records, orbits and clocks
-/
namespace Ggnss

open NavItem

/-! ## Reading a record -/

/-- The time of ephemeris of the frame is a whole number of seconds (to 1e-15) that an `int` can hold; for GLONASS the health word
is within the range of `int` as well. -/
def ToeWhole (f : NavFrame) : Prop :=
  match f.sys with
  | .gps => ∃ (x : Rat) (n : Int), f.data[11]? = some x ∧ castInt x = .ok n ∧ |x - n| < 1 / 10 ^ 15
  | .galileo => ∃ (x : Rat) (n : Int), f.data[11]? = some x ∧ castInt x = .ok n ∧ |x - n| < 1 / 10 ^ 15
  | .beidou => ∃ (x : Rat) (n : Int), f.data[11]? = some x ∧ castInt x = .ok n ∧ |x - n| < 1 / 10 ^ 15
  | .glonass => (∃ (x : Rat) (n : Int), f.data[2]? = some x ∧ castInt x = .ok n ∧ |x - n| < 1 / 10 ^ 15) ∧
      ∃ (y : Rat) (h : Int), f.data[6]? = some y ∧ castInt y = .ok h
  | _ => True

theorem castLong_of_castInt {x : Rat} {n : Int} (h : castInt x = .ok n) : castLong x = .ok n := by
  unfold castInt at h
  split at h
  · rename_i hb
    simp at h
    unfold castLong LONG_MIN LONG_MAX
    rw [if_pos (by omega), h]
  · simp at h

theorem castInt_cases (x : Rat) : castInt x = .ub ∨ ∃ n, castInt x = .ok n := by
  unfold castInt; split
  · exact Or.inr ⟨_, rfl⟩
  · exact Or.inl rfl

theorem castLong_cases (x : Rat) : castLong x = .ub ∨ ∃ n, castLong x = .ok n := by
  unfold castLong; split
  · exact Or.inr ⟨_, rfl⟩
  · exact Or.inl rfl

theorem dataAt_cases (d : List Rat) (i : Nat) : (d[i]? = none ∧ dataAt d i = .ub) ∨ ∃ x, d[i]? = some x ∧ dataAt d i = .ok x := by
  unfold dataAt
  cases h : d[i]? with
  | none => exact Or.inl ⟨rfl, rfl⟩
  | some x => exact Or.inr ⟨x, rfl, rfl⟩

theorem nearInt_iff (x : Rat) (n : Int) : nearInt x n = true ↔ |x - n| < 1 / 10 ^ 15 := by
  unfold nearInt
  rw [decide_eq_true_eq]
  norm_num

theorem assertWhole_cases (d : List Rat) (i : Nat) :
    (assertWhole d i = .ok () ∧ ∃ (x : Rat) (n : Int), d[i]? = some x ∧ castInt x = .ok n ∧ |x - n| < 1 / 10 ^ 15) ∨
    ((assertWhole d i = .terminate ∨ assertWhole d i = .ub) ∧
      ¬ ∃ (x : Rat) (n : Int), d[i]? = some x ∧ castInt x = .ok n ∧ |x - n| < 1 / 10 ^ 15) := by
  unfold assertWhole
  rcases dataAt_cases d i with ⟨h, h'⟩ | ⟨x, h, h'⟩
  · right; rw [h', h]; simp
  · rw [h', h, Res.bind_ok]
    rcases castInt_cases x with hc | ⟨n, hc⟩
    · right; rw [hc]; simp [hc]
    · rw [hc, Res.bind_ok]
      unfold cassert
      by_cases hn : nearInt x n = true
      · left; rw [if_pos hn]; exact ⟨rfl, x, n, rfl, hc, (nearInt_iff x n).1 hn⟩
      · right; rw [if_neg hn]
        refine ⟨Or.inl rfl, ?_⟩
        rintro ⟨x', n', hx, hc', hn'⟩
        cases hx
        rw [hc] at hc'; cases hc'
        exact hn ((nearInt_iff x n).2 hn')

theorem gloToeD_cases (f : NavFrame) (hw : ∃ (x : Rat) (n : Int), f.data[2]? = some x ∧ castInt x = .ok n ∧ |x - n| < 1 / 10 ^ 15) :
    (gloToeD f = gloToe f ∧ ∃ (y : Rat) (h : Int), f.data[6]? = some y ∧ castInt y = .ok h) ∨
    (gloToeD f = .ub ∧ ¬ ∃ (y : Rat) (h : Int), f.data[6]? = some y ∧ castInt y = .ok h) := by
  obtain ⟨x, n, hx, hc, hn⟩ := hw
  have hd : dataAt f.data 2 = .ok x := by unfold dataAt; rw [hx]
  have hl := castLong_of_castInt hc
  have ha : cassert (nearInt x n) = .ok () := by unfold cassert; rw [if_pos ((nearInt_iff x n).2 hn)]
  unfold gloToeD
  simp only [hd, Res.bind_ok, hl, ha]
  rcases dataAt_cases f.data 6 with ⟨h, h'⟩ | ⟨y, h, h'⟩
  · right; rw [h']; simp [h]
  · rw [h', Res.bind_ok]
    rcases castInt_cases y with hy | ⟨k, hy⟩
    · right; rw [hy]; simp [h, hy]
    · left
      rw [hy, Res.bind_ok]
      have h2 : nearInt (x - ((n.tdiv 86400 : Int) : Rat) * 86400) (n.tmod 86400) = true := by
        rw [nearInt_iff]
        have : ((n.tdiv 86400 : Int) : Rat) * 86400 + ((n.tmod 86400 : Int) : Rat) = (n : Rat) := by
          have := Int.mul_tdiv_add_tmod n 86400
          have h3 : n.tdiv 86400 * 86400 + n.tmod 86400 = n := by omega
          exact_mod_cast h3
        rw [show x - ((n.tdiv 86400 : Int) : Rat) * 86400 - ((n.tmod 86400 : Int) : Rat) = x - n by rw [← this]; ring]
        exact hn
      rw [h2]
      simp [cassert, h, hy]

/-- The end of `set_from_rnx3` in the two builds (only for the proof). -/
def finishP (o : NavOut) : Res NavOut :=
  if o.frame.sys = .gps ∨ o.frame.sys = .glonass ∨ o.frame.sys = .galileo ∨ o.frame.sys = .beidou then do
    let toe ← toe2date o.frame
    pure { o with frame := { o.frame with toe := toe } }
  else pure o
def finishD (o : NavOut) : Res NavOut := do
  toeAsserts o.frame
  if o.frame.sys = .gps ∨ o.frame.sys = .glonass ∨ o.frame.sys = .galileo ∨ o.frame.sys = .beidou then
    let toe ← toe2dateD o.frame
    pure { o with frame := { o.frame with toe := toe } }
  else pure o

theorem finishP_ok {o o' : NavOut} (h : finishP o = .ok o') : o'.status = o.status ∧ o'.frame.data = o.frame.data ∧ o'.frame.sys = o.frame.sys := by
  unfold finishP at h
  split at h
  · rw [Res.bind_eq_ok] at h
    obtain ⟨toe, _, h⟩ := h
    simp at h; subst h; exact ⟨rfl, rfl, rfl⟩
  · simp at h; subst h; exact ⟨rfl, rfl, rfl⟩

theorem ToeWhole.congr {f g : NavFrame} (h : ToeWhole f) (hd : f.data = g.data) (hs : f.sys = g.sys) : ToeWhole g := by
  unfold ToeWhole at *
  rw [hd, hs] at h
  exact h

theorem finish_cases (o : NavOut) : (finishD o = finishP o ∧ ∀ o', finishP o = .ok o' → ToeWhole o'.frame) ∨
    ((finishD o = .terminate ∨ finishD o = .ub) ∧ ¬ ToeWhole o.frame) := by
  have same : ToeWhole o.frame → ∀ o', finishP o = .ok o' → ToeWhole o'.frame := fun h o' ho' =>
    h.congr (finishP_ok ho').2.1.symm (finishP_ok ho').2.2.symm
  have kep : toe2dateD o.frame = toe2date o.frame → toeAsserts o.frame = assertWhole o.frame.data 11 →
      (ToeWhole o.frame ↔ ∃ (x : Rat) (n : Int), o.frame.data[11]? = some x ∧ castInt x = .ok n ∧ |x - n| < 1 / 10 ^ 15) →
      (finishD o = finishP o ∧ ∀ o', finishP o = .ok o' → ToeWhole o'.frame) ∨
        ((finishD o = .terminate ∨ finishD o = .ub) ∧ ¬ ToeWhole o.frame) := by
    intro hd ha hw
    rcases assertWhole_cases o.frame.data 11 with ⟨h, hx⟩ | ⟨h, hn⟩
    · left
      refine ⟨?_, same (hw.2 hx)⟩
      unfold finishD finishP
      rw [ha, h, hd, Res.bind_ok]
    · right
      refine ⟨?_, fun hx => hn (hw.1 hx)⟩
      unfold finishD
      rw [ha]
      rcases h with h | h <;> rw [h] <;> simp
  have none : toeAsserts o.frame = .ok () → ¬ Handled o.frame.sys → ToeWhole o.frame →
      (finishD o = finishP o ∧ ∀ o', finishP o = .ok o' → ToeWhole o'.frame) := by
    intro ha hh hw
    refine ⟨?_, same hw⟩
    unfold finishD finishP
    rw [ha, Res.bind_ok]
    have hh' : ¬ (o.frame.sys = .gps ∨ o.frame.sys = .glonass ∨ o.frame.sys = .galileo ∨ o.frame.sys = .beidou) := hh
    rw [if_neg hh', if_neg hh']
  cases hsys : o.frame.sys with
  | gps => exact kep (by simp [toe2dateD, hsys]) (by simp [toeAsserts, hsys]) (by simp [ToeWhole, hsys])
  | galileo => exact kep (by simp [toe2dateD, hsys]) (by simp [toeAsserts, hsys]) (by simp [ToeWhole, hsys])
  | beidou => exact kep (by simp [toe2dateD, hsys]) (by simp [toeAsserts, hsys]) (by simp [ToeWhole, hsys])
  | sbas => exact Or.inl (none (by simp [toeAsserts, hsys]) (by simp [Handled, hsys]) (by simp [ToeWhole, hsys]))
  | qzss => exact Or.inl (none (by simp [toeAsserts, hsys]) (by simp [Handled, hsys]) (by simp [ToeWhole, hsys]))
  | irnss => exact Or.inl (none (by simp [toeAsserts, hsys]) (by simp [Handled, hsys]) (by simp [ToeWhole, hsys]))
  | mixed => exact Or.inl (none (by simp [toeAsserts, hsys]) (by simp [Handled, hsys]) (by simp [ToeWhole, hsys]))
  | glonass =>
    have hw : ToeWhole o.frame ↔ ((∃ (x : Rat) (n : Int), o.frame.data[2]? = some x ∧ castInt x = .ok n ∧ |x - n| < 1 / 10 ^ 15) ∧
        ∃ (y : Rat) (h : Int), o.frame.data[6]? = some y ∧ castInt y = .ok h) := by
      unfold ToeWhole; rw [hsys]
    have hh' : (o.frame.sys = .gps ∨ o.frame.sys = .glonass ∨ o.frame.sys = .galileo ∨ o.frame.sys = .beidou) := by simp [hsys]
    have ha : toeAsserts o.frame = assertWhole o.frame.data 2 := by simp [toeAsserts, hsys]
    have e1 : toe2dateD o.frame = gloToeD o.frame := by simp [toe2dateD, hsys]
    have e2 : toe2date o.frame = gloToe o.frame := by simp [toe2date, hsys]
    rcases assertWhole_cases o.frame.data 2 with ⟨h, hx⟩ | ⟨h, hn⟩
    · rcases gloToeD_cases o.frame hx with ⟨hd, hy⟩ | ⟨hd, hn⟩
      · left
        refine ⟨?_, same (hw.2 ⟨hx, hy⟩)⟩
        unfold finishD finishP
        rw [ha, h, Res.bind_ok, if_pos hh', if_pos hh', e1, e2, hd]
      · right
        refine ⟨Or.inr ?_, fun hx => hn (hw.1 hx).2⟩
        unfold finishD
        rw [ha, h, Res.bind_ok, if_pos hh', e1, hd]
        rfl
    · right
      refine ⟨?_, fun hx => hn (hw.1 hx).1⟩
      unfold finishD
      rw [ha]
      rcases h with h | h <;> rw [h] <;> simp

theorem setP_eq (dateOf : List Char → Res DateTime) (junk : List Char) (f : NavFrame) (s : Stream) (errno : Int) :
    setFromRnx3 dateOf junk f s errno = Res.noexcept (do
      let o ← readBlock dateOf junk f s errno
      if o.status ≠ 0 then pure o else finishP o) := rfl

theorem setD_eq (dateOf : List Char → Res DateTime) (junk : List Char) (f : NavFrame) (s : Stream) (errno : Int) (hg : s.good = true) :
    setFromRnx3D dateOf junk f s errno = Res.noexcept (do
      let o ← readBlock dateOf junk f s errno
      if o.status ≠ 0 then pure o else finishD o) := by
  unfold setFromRnx3D
  rw [if_neg (by simp [hg])]
  rfl

/-- **C71** (reading a record, arbitrary bytes).  On a stream in good state the two builds do the same when the record has a time of ephemeris that
is a whole number of seconds (and, for GLONASS, a health word that fits an `int`); otherwise the `DEBUG` build does not deliver the record: it
ends the program or its behaviour is undefined. -/
theorem C71_record_any (dateOf : List Char → Res DateTime) (junk : List Char) (f : NavFrame) (s : Stream) (errno : Int) (hg : s.good = true) :
    (setFromRnx3D dateOf junk f s errno = setFromRnx3 dateOf junk f s errno ∧
      ∀ o, setFromRnx3 dateOf junk f s errno = .ok o → o.status = 0 → ToeWhole o.frame) ∨
    ((setFromRnx3D dateOf junk f s errno = .terminate ∨ setFromRnx3D dateOf junk f s errno = .ub) ∧
      ∀ o, setFromRnx3 dateOf junk f s errno = .ok o → o.status = 0 ∧ ¬ ToeWhole o.frame) := by
  rw [setP_eq, setD_eq _ _ _ _ _ hg]
  cases readBlock dateOf junk f s errno with
  | ok o =>
    simp only [Res.bind_ok]
    by_cases h0 : o.status = 0
    · rw [if_neg (by simp [h0]), if_neg (by simp [h0])]
      rcases finish_cases o with ⟨h1, h2⟩ | ⟨h1, h2⟩
      · left
        rw [h1]
        exact ⟨rfl, fun o' ho' _ => h2 o' (Res.noexcept_eq_ok.1 ho')⟩
      · right
        refine ⟨by rcases h1 with h | h <;> rw [h] <;> simp, fun o' ho' => ?_⟩
        have ho' := Res.noexcept_eq_ok.1 ho'
        obtain ⟨p1, p2, p3⟩ := finishP_ok ho'
        exact ⟨p1.trans h0, fun hx => h2 (hx.congr p2 p3)⟩
    · left
      rw [if_pos h0, if_pos h0]
      refine ⟨rfl, fun o' ho' h => ?_⟩
      simp at ho'; subst ho'; exact absurd h h0
  | throw e => left; exact ⟨rfl, fun _ h => by simp at h⟩
  | terminate => left; exact ⟨rfl, fun _ h => by simp at h⟩
  | ub => left; exact ⟨rfl, fun _ h => by simp at h⟩
  | diverge => left; exact ⟨rfl, fun _ h => by simp at h⟩

/-- What the record must say for the `DEBUG` build, beyond being well formed: a GLONASS health word that fits an `int`. -/
def HealthFits (r : NavItem) : Prop := r.sys = .glonass → ∃ h, r.HealthIs h

theorem toeWhole_record {dateOf : List Char → Res DateTime} {f : NavFrame} {r : NavItem} (hr : r.WF dateOf) (hh : HealthFits r)
    (hc : Carries f r) : ToeWhole f := by
  obtain ⟨toe, ht⟩ := hr.toe
  have whole : ∀ {j k : Nat} {v : Int}, j < specLines r.sys → k < specCount r.sys j → r.IntAt j k v →
      ∃ (x : Rat) (n : Int), f.data[specIndex j k]? = some x ∧ castInt x = .ok n ∧ |x - n| < 1 / 10 ^ 15 := by
    intro j k v hj hk hv
    refine ⟨_, v, hc.data j hj k hk, ?_, ?_⟩
    · rw [hv.1]; exact castInt_int hv.2.1 hv.2.2
    · rw [hv.1]; norm_num
  unfold ToeWhole
  rw [hc.sys]
  unfold toeIs at ht
  cases hs : r.sys <;> rw [hs] at ht whole
  · obtain ⟨wk, sow, _, h, _⟩ := ht
    exact whole (j := 3) (k := 0) (by decide) (by decide) h
  · obtain ⟨sow, h, _⟩ := ht
    obtain ⟨h0, h1⟩ := hh hs
    unfold HealthIs at h1
    rw [hs] at h1
    obtain ⟨y, k, a1, a2, _⟩ := whole (j := 1) (k := 3) (by decide) (by decide) h1
    exact ⟨whole (j := 0) (k := 2) (by decide) (by decide) h, y, k, a1, a2⟩
  · trivial
  · obtain ⟨wk, sow, _, h, _⟩ := ht
    exact whole (j := 3) (k := 0) (by decide) (by decide) h
  · obtain ⟨wk, sow, _, h, _⟩ := ht
    exact whole (j := 3) (k := 0) (by decide) (by decide) h
  · trivial
  · trivial
  · trivial

theorem readNextRecordD_of {dateOf : List Char → Res DateTime} {junk : List Char} {f : NavFrame} {s : Stream} {errno : Int} {o : NavOut}
    (hg : s.good = true) (h : readNextRecord dateOf junk f s errno = .ok o) (hw : o.status = 0 → ToeWhole o.frame) :
    readNextRecordD dateOf junk f s errno = .ok o := by
  unfold readNextRecordD
  unfold readNextRecord at h
  rw [if_neg (by simp [hg])]
  match hp : s.peek with
  | (some c, s1) =>
    rw [hp] at h
    obtain ⟨rfl, _⟩ := Stream.peek_some hp
    simp only at h ⊢
    rcases C71_record_any dateOf junk f s1 errno hg with ⟨h1, _⟩ | ⟨_, h2⟩
    · rw [h1, h]
    · exact absurd (hw (h2 o h).1) (h2 o h).2
  | (none, s1) =>
    rw [hp] at h
    exact h

/-- **C71** (reading a record).  A well-formed record (with a health word that fits an `int`, if it is a GLONASS record), followed by anything, is
decoded by the `DEBUG` build exactly as by the production build (C17): status 0, the frame carries the record, the stream stands behind it. -/
theorem C71_record_partial (dateOf : List Char → Res DateTime) (junk : List Char) (f : NavFrame) (s : Stream)
    (r : NavItem) (tail : List Char) (hr : r.WF dateOf) (hh : HealthFits r) (hg : s.good = true)
    (hrest : s.rest = r.text ++ tail) (hlen : f.data.length = 31) :
    ∃ f', readNextRecordD dateOf junk f s 0 = .ok ⟨0, f', s.adv r.text.length, 0⟩ ∧
      readNextRecord dateOf junk f s 0 = .ok ⟨0, f', s.adv r.text.length, 0⟩ ∧ Carries f' r := by
  obtain ⟨f', h1, h2, _⟩ := C17_record dateOf junk f s r tail hr hg hrest hlen
  exact ⟨f', readNextRecordD_of hg h1 (fun _ => toeWhole_record hr hh h2), h1, h2⟩

/-! ## Searching -/

/-- **C71** (searching a well-formed file).  When the rest of the file consists of records, those of the requested system being well formed (and
their health words fitting an `int` for GLONASS), the search loop of the two builds gives the same result, whatever the acceptance test. -/
theorem findLoopD_file (dateOf : List Char → Res DateTime) (junk : Nat → List Char) (accept : NavFrame → Res (Option Int)) (sys : SatSys) :
    ∀ (fuel : Nat) (rs : List NavItem) (f : NavFrame) (s : Stream),
      (∀ p ∈ rs, (p.sys ≠ sys ∧ IsBlock p.sys p.lines) ∨ (p.sys = sys ∧ p.WF dateOf ∧ HealthFits p)) →
      s.good = true → s.rest = fileText rs → f.data.length = 31 →
      findLoopD dateOf junk accept sys fuel f s 0 = findLoop dateOf junk accept sys fuel f s 0 := by
  intro fuel
  induction fuel with
  | zero => intros; rfl
  | succ fuel ih =>
    intro rs f s hrs hg hr hl
    have hpk : peakSatsysD s = peakSatsys s := by unfold peakSatsysD; rw [if_neg (by simp [hg])]
    cases rs with
    | nil =>
      have hr' : s.rest = [] := by simpa [fileText] using hr
      rw [findLoop_eof dateOf junk accept sys fuel f s hg hr', findLoopD, hpk]
      have : peakSatsys s = (-1, .mixed, s) := by
        unfold peakSatsys
        simp only [Stream.peek_nil hg hr', peekedEof, if_true]
        have := (Stream.good_iff s).1 hg
        cases s; simp_all [Stream.clear]
      simp [this]
    | cons p rs =>
      have hr' : s.rest = linesText p.lines ++ fileText rs := by rw [hr]; simp [fileText, NavItem.text]
      have hadv : (s.adv p.text.length).rest = fileText rs := Stream.adv_rest_append hr'
      have hga : (s.adv p.text.length).good = true := by simpa using hg
      have hrs' : ∀ q ∈ rs, (q.sys ≠ sys ∧ IsBlock q.sys q.lines) ∨ (q.sys = sys ∧ q.WF dateOf ∧ HealthFits q) := fun q hq => hrs q (by simp [hq])
      rw [findLoopD, findLoop, hpk]
      rcases hrs p (by simp) with ⟨hne, hb⟩ | ⟨he, hwf, hh⟩
      · have hig : ignoreNextBlockD s = ignoreNextBlock s := by unfold ignoreNextBlockD; rw [if_neg (by simp [hg])]
        simp only [peakSatsys_block hb hg hr', ne_eq, not_true_eq_false, if_false, if_neg hne, hig, ignore_block hb hg hr']
        exact ih rs f _ hrs' hga hadv hl
      · obtain ⟨g, h1, h2, hc⟩ := C71_record_partial dateOf (junk s.pos) f s p (fileText rs) hwf hh hg hr' hl
        simp only [peakSatsys_block hwf.record.toIsBlock hg hr', ne_eq, not_true_eq_false, if_false, if_pos he, h1, h2, Res.bind_ok]
        cases accept g with
        | ok a =>
          simp only [Res.bind_ok]
          cases a with
          | some st => rfl
          | none => exact ih rs g _ hrs' hga hadv hc.len
        | throw e => rfl
        | terminate => rfl
        | ub => rfl
        | diverge => rfl

/-- **C71** (`find_next`).  On a well-formed rest of the file both builds give the same position, status, frame and stream (so C18 holds of
the `DEBUG` build). -/
theorem C71_find_next_partial (dateOf : List Char → Res DateTime) (junk : Nat → List Char) (fuel : Nat) (cur0 : Option Nat) (sys : SatSys) (prn : Int)
    (f : NavFrame) (s : Stream) (rs : List NavItem)
    (hrs : ∀ p ∈ rs, (p.sys ≠ sys ∧ IsBlock p.sys p.lines) ∨ (p.sys = sys ∧ p.WF dateOf ∧ HealthFits p))
    (hg : s.good = true) (hr : s.rest = fileText rs) (hl : f.data.length = 31) :
    findNextD dateOf junk fuel cur0 sys prn f s 0 = findNext dateOf junk fuel sys prn f s 0 := by
  unfold findNextD findNext
  rw [if_neg (by simp [hg])]
  simp only [tellg_good hg]
  rw [findLoopD_file dateOf junk _ sys fuel rs f s hrs hg hr hl]

/-- **C71** (`find_next_valid`); so C19 holds of the `DEBUG` build. -/
theorem C71_find_next_valid_partial (dateOf : List Char → Res DateTime) (junk : Nat → List Char) (fuel : Nat) (cur0 : Option Nat) (t : Int) (sys : SatSys)
    (prn : Int) (f : NavFrame) (s : Stream) (rs : List NavItem)
    (hrs : ∀ p ∈ rs, (p.sys ≠ sys ∧ IsBlock p.sys p.lines) ∨ (p.sys = sys ∧ p.WF dateOf ∧ HealthFits p))
    (hg : s.good = true) (hr : s.rest = fileText rs) (hl : f.data.length = 31) :
    findNextValidD dateOf junk fuel cur0 t sys prn f s 0 = findNextValid dateOf junk fuel t sys prn f s 0 := by
  unfold findNextValidD findNextValid
  rw [if_neg (by simp [hg])]
  simp only [tellg_good hg]
  rw [findLoopD_file dateOf junk _ sys fuel rs f s hrs hg hr hl]

/-- The hypotheses are met: an unhealthy and a healthy GLONASS record. -/
example (cur0 : Option Nat) (f : NavFrame) (hl : f.data.length = 31) (fuel : Nat) (t : Int) :
    findNextValidD NavExample.dateOf (fun _ => []) fuel cur0 t .glonass 1 f ⟨fileText [NavExample.gloBad, NavExample.glo], 0, false, false⟩ 0 =
      findNextValid NavExample.dateOf (fun _ => []) fuel t .glonass 1 f ⟨fileText [NavExample.gloBad, NavExample.glo], 0, false, false⟩ 0 := by
  apply C71_find_next_valid_partial _ _ _ _ _ _ _ _ _ [NavExample.gloBad, NavExample.glo] _ rfl rfl hl
  intro p hp
  right
  simp at hp
  rcases hp with rfl | rfl
  · exact ⟨rfl, NavExample.gloBad_wfv.toWF, fun _ => NavExample.gloBad_wfv.health⟩
  · exact ⟨rfl, NavExample.glo_wfv.toWF, fun _ => NavExample.glo_wfv.health⟩

/-! ### Arbitrary bytes -/

/-- How the results of a search in the two builds (`d`: `DEBUG`, `p`: production) are related: they are the same; or the `DEBUG` build ends the
program or is undefined; or it reports status 10 for the -1 (end of file) of the production build, which happens when the last line of the file
has no newline. -/
def DebugOf (d p : Res NavOut) : Prop :=
  d = p ∨ d = .terminate ∨ d = .ub ∨
    ∃ (f : NavFrame) (s : Stream) (e : Int), s.eof = true ∧ s.fail = false ∧ p = .ok ⟨-1, f, s.clear, e⟩ ∧ d = .ok ⟨10, f, s, e⟩

theorem skipLines_nofail : ∀ (n : Nat) (s s' : Stream), skipLines n s = (true, s') → s.fail = false → s'.fail = false := by
  intro n
  induction n with
  | zero => intro s s' h hf; simp [skipLines] at h; rw [← h]; exact hf
  | succ n ih =>
    intro s s' h _
    unfold skipLines at h
    simp only at h
    split at h
    · simp at h
    · rename_i hf
      exact ih _ _ h (by simpa using hf)

theorem ignore_nofail {s s' : Stream} (h : ignoreNextBlock s = (0, s')) (hf : s.fail = false) : s'.fail = false := by
  unfold ignoreNextBlock at h
  match hp : s.peek with
  | (c, s1) =>
    rw [hp] at h
    simp only at h
    split at h
    · simp at h
    · rename_i hne
      have hs1 : s1 = s := by
        cases c with
        | none => simp [peekedEof] at hne
        | some c => exact (Stream.peek_some hp).1
      subst hs1
      split at h
      · split at h
        · rename_i hok
          simp at h
          exact skipLines_nofail _ _ _ (Prod.ext hok h) hf
        · simp at h
      · simp at h

theorem peak_ok {s s1 : Stream} {sys : SatSys} (h : peakSatsys s = (0, sys, s1)) : s1 = s ∧ s.good = true := by
  unfold peakSatsys at h
  match hp : s.peek with
  | (c, s2) =>
    rw [hp] at h
    simp only at h
    split at h
    · simp at h
    · rename_i hne
      cases c with
      | none => simp [peekedEof] at hne
      | some c =>
        obtain ⟨rfl, hg, _⟩ := Stream.peek_some hp
        split at h
        · simp at h; exact ⟨h.2.symm, hg⟩
        · simp at h

/-- **C71** (searching, arbitrary bytes): for every content of the file and every acceptance test the search of the `DEBUG` build is related to that of
the production build as `DebugOf` says. -/
theorem findLoopD_any (dateOf : List Char → Res DateTime) (junk : Nat → List Char) (accept : NavFrame → Res (Option Int)) (sys : SatSys) :
    ∀ (fuel : Nat) (f : NavFrame) (s : Stream) (errno : Int), s.fail = false →
      DebugOf (findLoopD dateOf junk accept sys fuel f s errno) (findLoop dateOf junk accept sys fuel f s errno) := by
  intro fuel
  induction fuel with
  | zero => intros; exact Or.inl rfl
  | succ fuel ih =>
    intro f s errno hf
    by_cases hg : s.good = true
    · have hpk : peakSatsysD s = peakSatsys s := by unfold peakSatsysD; rw [if_neg (by simp [hg])]
      rw [findLoopD, findLoop, hpk]
      match hp : peakSatsys s with
      | (status, csys, s1) =>
        simp only
        by_cases hst : status = 0
        · subst hst
          obtain ⟨rfl, _⟩ := peak_ok hp
          simp only [ne_eq, not_true_eq_false, if_false]
          by_cases hcs : csys = sys
          · rw [if_pos hcs, if_pos hcs]
            have key : readNextRecordD dateOf (junk s1.pos) f s1 errno = readNextRecord dateOf (junk s1.pos) f s1 errno ∨
                readNextRecordD dateOf (junk s1.pos) f s1 errno = .terminate ∨ readNextRecordD dateOf (junk s1.pos) f s1 errno = .ub := by
              unfold readNextRecordD readNextRecord
              rw [if_neg (by simp [hg])]
              match hp2 : s1.peek with
              | (some c, s2) =>
                obtain ⟨rfl, _⟩ := Stream.peek_some hp2
                simp only
                rcases C71_record_any dateOf (junk s2.pos) f s2 errno hg with ⟨h, _⟩ | ⟨h | h, _⟩
                · exact Or.inl h
                · exact Or.inr (Or.inl h)
                · exact Or.inr (Or.inr h)
              | (none, s2) => exact Or.inl rfl
            rcases key with h | h | h
            · rw [h]
              cases hrd : readNextRecord dateOf (junk s1.pos) f s1 errno with
              | ok o =>
                simp only [Res.bind_ok]
                by_cases h0 : o.status = 0
                · rw [if_neg (by simp [h0]), if_neg (by simp [h0])]
                  have hnf : o.strm.fail = false :=
                    ignore_nofail (C16_skip_like_read _ _ _ _ _ _ hrd h0) hf
                  cases accept o.frame with
                  | ok a =>
                    simp only [Res.bind_ok]
                    cases a with
                    | some st => exact Or.inl rfl
                    | none => exact ih _ _ _ hnf
                  | throw e => exact Or.inl rfl
                  | terminate => exact Or.inl rfl
                  | ub => exact Or.inl rfl
                  | diverge => exact Or.inl rfl
                · rw [if_pos h0, if_pos h0]; exact Or.inl rfl
              | throw e => exact Or.inl rfl
              | terminate => exact Or.inl rfl
              | ub => exact Or.inl rfl
              | diverge => exact Or.inl rfl
            · rw [h]; exact Or.inr (Or.inl rfl)
            · rw [h]; exact Or.inr (Or.inr (Or.inl rfl))
          · rw [if_neg hcs, if_neg hcs]
            have hig : ignoreNextBlockD s1 = ignoreNextBlock s1 := by unfold ignoreNextBlockD; rw [if_neg (by simp [hg])]
            rw [hig]
            match hi : ignoreNextBlock s1 with
            | (st, s2) =>
              simp only
              by_cases h0 : st = 0
              · subst h0
                simp only [not_true_eq_false, if_false]
                exact ih _ _ _ (ignore_nofail hi hf)
              · rw [if_pos h0, if_pos h0]; exact Or.inl rfl
        · rw [if_pos hst, if_pos hst]; exact Or.inl rfl
    · have heof : s.eof = true := by
        rw [Stream.good_iff] at hg
        cases h : s.eof with
        | true => rfl
        | false => exact absurd ⟨h, hf⟩ hg
      right; right; right
      refine ⟨f, s, errno, heof, hf, ?_, ?_⟩
      · rw [findLoop]
        have : peakSatsys s = (-1, .mixed, s.clear) := by
          unfold peakSatsys Stream.peek
          rw [if_neg hg]
          simp [peekedEof, Stream.clear]
        simp [this]
      · rw [findLoopD]
        unfold peakSatsysD
        rw [if_pos (by simpa using hg)]
        simp

/-- **C71** (`find_next`, arbitrary bytes): the position and the outcome of the `DEBUG` build are those of the production build, unless the `DEBUG` build
ends the program, is undefined, or reports 10 for the end of a file whose last line has no newline. -/
theorem C71_find_next_any (dateOf : List Char → Res DateTime) (junk : Nat → List Char) (fuel : Nat) (cur0 : Option Nat) (sys : SatSys) (prn : Int)
    (f : NavFrame) (s : Stream) (errno : Int) (hg : s.good = true) :
    let d := findNextD dateOf junk fuel cur0 sys prn f s errno
    let p := findNext dateOf junk fuel sys prn f s errno
    d = p ∨ d = .terminate ∨ d = .ub ∨ ∃ (f' : NavFrame) (s' : Stream) (e : Int), s'.eof = true ∧ s'.fail = false ∧
      p = .ok (some s.pos, ⟨-1, f', s'.clear, e⟩) ∧ d = .ok (some s.pos, ⟨10, f', s', e⟩) := by
  intro d p
  have h := findLoopD_any dateOf junk (acceptPrn prn) sys fuel f s errno ((Stream.good_iff s).1 hg).2
  have hd : d = ((findLoopD dateOf junk (acceptPrn prn) sys fuel f s errno) >>= fun o => pure (some s.pos, o)) := by
    show findNextD dateOf junk fuel cur0 sys prn f s errno = _
    unfold findNextD
    rw [if_neg (by simp [hg])]
    simp only [tellg_good hg]
  have hp : p = ((findLoop dateOf junk (acceptPrn prn) sys fuel f s errno) >>= fun o => pure (some s.pos, o)) := by
    show findNext dateOf junk fuel sys prn f s errno = _
    unfold findNext
    simp only [tellg_good hg]
  rw [hd, hp]
  rcases h with h | h | h | ⟨f', s', e, h1, h2, h3, h4⟩
  · rw [h]; exact Or.inl rfl
  · rw [h]; exact Or.inr (Or.inl rfl)
  · rw [h]; exact Or.inr (Or.inr (Or.inl rfl))
  · rw [h3, h4]; exact Or.inr (Or.inr (Or.inr ⟨f', s', e, h1, h2, rfl, rfl⟩))

/-- **C71** (`find_next_valid`, arbitrary bytes). -/
theorem C71_find_next_valid_any (dateOf : List Char → Res DateTime) (junk : Nat → List Char) (fuel : Nat) (cur0 : Option Nat) (t : Int)
    (sys : SatSys) (prn : Int) (f : NavFrame) (s : Stream) (errno : Int) (hg : s.good = true) :
    let d := findNextValidD dateOf junk fuel cur0 t sys prn f s errno
    let p := findNextValid dateOf junk fuel t sys prn f s errno
    d = p ∨ d = .terminate ∨ d = .ub ∨ ∃ (f' : NavFrame) (s' : Stream) (e : Int), s'.eof = true ∧ s'.fail = false ∧
      p = .ok (some s.pos, ⟨-1, f', s'.clear, e⟩) ∧ d = .ok (some s.pos, ⟨10, f', s', e⟩) := by
  intro d p
  have h := findLoopD_any dateOf junk (acceptValid t sys prn) sys fuel f s errno ((Stream.good_iff s).1 hg).2
  have hd : d = Res.noexcept (do
      let o ← findLoopD dateOf junk (acceptValid t sys prn) sys fuel f s errno
      pure (some s.pos, o)) := by
    show findNextValidD dateOf junk fuel cur0 t sys prn f s errno = _
    unfold findNextValidD
    rw [if_neg (by simp [hg])]
    simp only [tellg_good hg]
  have hp : p = Res.noexcept (do
      let o ← findLoop dateOf junk (acceptValid t sys prn) sys fuel f s errno
      pure (some s.pos, o)) := by
    show findNextValid dateOf junk fuel t sys prn f s errno = _
    unfold findNextValid
    simp only [tellg_good hg]
  rw [hd, hp]
  rcases h with h | h | h | ⟨f', s', e, h1, h2, h3, h4⟩
  · rw [h]; exact Or.inl rfl
  · rw [h]; exact Or.inr (Or.inl rfl)
  · rw [h]; exact Or.inr (Or.inr (Or.inl rfl))
  · rw [h3, h4]; exact Or.inr (Or.inr (Or.inr ⟨f', s', e, h1, h2, rfl, rfl⟩))

/-- **C71** (a stream that is not in good state): the `DEBUG` build reports 50 and touches nothing, not even the caller's position. -/
theorem C71_bad_stream (dateOf : List Char → Res DateTime) (junk : Nat → List Char) (fuel : Nat) (cur0 : Option Nat) (t : Int)
    (sys : SatSys) (prn : Int) (f : NavFrame) (s : Stream) (errno : Int) (hg : s.good = false) :
    findNextD dateOf junk fuel cur0 sys prn f s errno = .ok (cur0, ⟨50, f, s, errno⟩) ∧
    findNextValidD dateOf junk fuel cur0 t sys prn f s errno = .ok (cur0, ⟨50, f, s, errno⟩) ∧
    (∀ j, readNextRecordD dateOf j f s errno = .ok ⟨50, f, s, errno⟩) ∧ (∀ j, setFromRnx3D dateOf j f s errno = .ok ⟨50, f, s, errno⟩) ∧
    ignoreNextBlockD s = (50, s) ∧ peakSatsysD s = (10, .mixed, s) := by
  unfold findNextD findNextValidD readNextRecordD setFromRnx3D ignoreNextBlockD peakSatsysD
  simp [hg]

/-! ### Where the builds differ -/

/-- Where a record of the system shows its time of ephemeris (second of week): first line for GLONASS, broadcast orbit 3 for the others. -/
def toeField : SatSys → Nat × Nat
  | .glonass => (0, 2)
  | _ => (3, 0)

/-- **C71** (`toe2date` of any GLONASS message): built with `DEBUG`, asking a message whose second of
week is not within 1e-15 of the whole number it is cut to ends the program, whatever its health flag;
with one that is, and a flag different from 0, the answer is that of the production build. -/
theorem C71_toe_fraction_aborts (f : NavFrame) (hs : f.sys = .glonass) {x : Rat} {n : Int} (hx : f.data[2]? = some x)
    (hn : castLong x = .ok n) :
    (1 / 10 ^ 15 ≤ |x - n| → toe2dateD f = .terminate) ∧
    (|x - n| < 1 / 10 ^ 15 → ∀ h k, f.data[6]? = some h → castInt h = .ok k → k ≠ 0 → toe2dateD f = toe2date f) := by
  have hd : dataAt f.data 2 = .ok x := by unfold dataAt; rw [hx]
  constructor
  · intro hfar
    have : nearInt x n = false := by
      rw [Bool.eq_false_iff, ne_eq, nearInt_iff, not_lt]; exact hfar
    unfold toe2dateD gloToeD
    rw [hs]
    simp only [hd, hn, Res.bind_ok, this]
    rfl
  · intro hnear h k hh hk hk0
    have h6 : dataAt f.data 6 = .ok h := by unfold dataAt; rw [hh]
    have : nearInt x n = true := by rw [nearInt_iff]; exact hnear
    unfold toe2dateD gloToeD toe2date
    rw [hs]
    simp only [hd, hn, h6, hk, Res.bind_ok, this, cassert]
    simp [hk0]

/-- The hypotheses of `C71_toe_fraction_aborts` are met. -/
example (f : NavFrame) (h : Rat) (hh : castInt h = .ok 3) :
    toe2dateD { f with sys := .glonass, data := [0, 0, 260100 + 1 / 2, 0, 0, 0, h] } = .terminate ∧
    toe2dateD { f with sys := .glonass, data := [0, 0, 260100, 0, 0, 0, h] } =
      toe2date { f with sys := .glonass, data := [0, 0, 260100, 0, 0, 0, h] } := by
  have c : ∀ x : Rat, truncRat x = 260100 → castLong x = .ok 260100 := by
    intro x hx; unfold castLong; rw [hx, if_pos (by unfold LONG_MIN LONG_MAX; omega)]
  have tb : ∀ x : Rat, 260100 ≤ x → x < 260101 → truncRat x = 260100 := by
    intro x h1 h2
    obtain ⟨b1, b2⟩ := truncRat_bounds (q := x) (by linarith)
    have c1 : (truncRat x : Rat) < 260101 := by linarith
    have c2 : (260099 : Rat) < (truncRat x : Rat) := by linarith
    have c1' : truncRat x < 260101 := by exact_mod_cast c1
    have c2' : 260099 < truncRat x := by exact_mod_cast c2
    omega
  have t1 := tb (260100 + 1 / 2) (by norm_num) (by norm_num)
  have t2 := tb 260100 (by norm_num) (by norm_num)
  refine ⟨(C71_toe_fraction_aborts { f with sys := .glonass, data := [0, 0, 260100 + 1 / 2, 0, 0, 0, h] } rfl rfl (c _ t1)).1 ?_,
    (C71_toe_fraction_aborts { f with sys := .glonass, data := [0, 0, 260100, 0, 0, 0, h] } rfl rfl (c _ t2)).2 ?_ h 3 rfl hh (by decide)⟩
  · norm_num
  · norm_num

/-- **C71** disagreement: a record of a handled system whose second of week is not a whole number (but within the range of `int`) is delivered by the
production build (the fraction is cut off) and ends a program that is built with `DEBUG`. -/
theorem C71_fractional_toe (dateOf : List Char → Res DateTime) (junk : List Char) (f : NavFrame) (s : Stream)
    (sys : SatSys) (prn : Int) (num : Nat → Nat → Numeral) (ls : List (List Char)) (tail : List Char) (toc : DateTime)
    (hrec : IsRecord sys prn num ls) (hdate : ∀ l, ls.head? = some l → dateOf (l.drop 3) = .ok toc) (hg : s.good = true)
    (hrest : s.rest = linesText ls ++ tail) (hlen : f.data.length = 31) (hh : Handled sys) (n : Int)
    (hlo : (n : Rat) + 1 / 10 ^ 15 ≤ (num (toeField sys).1 (toeField sys).2).value)
    (hhi : (num (toeField sys).1 (toeField sys).2).value ≤ (n : Rat) + 1 - 1 / 10 ^ 15) (hn : 0 ≤ n ∧ n < 604800)
    (hw : sys ≠ .glonass → ∃ wk, castInt (num 5 2).value = .ok wk) :
    (∃ o, readNextRecord dateOf junk f s 0 = .ok o ∧ o.status = 0) ∧ readNextRecordD dateOf junk f s 0 = .terminate := by
  obtain ⟨d', h1, h2, h3, h4⟩ := readBlock_record dateOf junk f s sys prn num ls tail toc hrec hdate hg hrest hlen
  have hpk := peek_block hrec.toIsBlock hg hrest
  generalize hx : (num (toeField sys).1 (toeField sys).2).value = x at hlo hhi
  have e15 : (0 : Rat) < 1 / 10 ^ 15 := by norm_num
  have hn0 : (0 : Rat) ≤ n := by exact_mod_cast hn.1
  have ht : truncRat x = n := by
    have hx0 : 0 ≤ x := by linarith
    obtain ⟨b1, b2⟩ := truncRat_bounds hx0
    have c1 : (truncRat x : Rat) < (n : Rat) + 1 := by linarith
    have c2 : (n : Rat) < (truncRat x : Rat) + 1 := by linarith
    have c1' : truncRat x < n + 1 := by exact_mod_cast c1
    have c2' : n < truncRat x + 1 := by exact_mod_cast c2
    omega
  have hc : castInt x = .ok n := by unfold castInt; rw [ht, if_pos (by omega)]
  have hcl := castLong_of_castInt hc
  have hnear : nearInt x n = false := by
    rw [Bool.eq_false_iff, ne_eq, nearInt_iff, not_lt]
    refine le_trans ?_ (le_abs_self _)
    linarith
  have hk : ∀ i, d'[i]? = some x → assertWhole d' i = .terminate := by
    intro i hi
    unfold assertWhole
    have : dataAt d' i = .ok x := by unfold dataAt; rw [hi]
    rw [this, Res.bind_ok, hc, Res.bind_ok, hnear]
    rfl
  have fin : ∀ i, toeAsserts { f with sys := sys, toc := toc, prn := prn, data := d' } = assertWhole d' i → d'[i]? = some x →
      (∃ toe, toe2date { f with sys := sys, toc := toc, prn := prn, data := d' } = .ok toe) →
      (∃ o, readNextRecord dateOf junk f s 0 = .ok o ∧ o.status = 0) ∧ readNextRecordD dateOf junk f s 0 = .terminate := by
    rintro i ha hi ⟨toe, htoe⟩
    have hh' : sys = .gps ∨ sys = .glonass ∨ sys = .galileo ∨ sys = .beidou := hh
    constructor
    · unfold readNextRecord
      rw [hpk]
      simp only
      rw [setP_eq, h1, Res.bind_ok]
      unfold finishP
      simp only [ne_eq, not_true_eq_false, if_false, if_pos hh', htoe, Res.bind_ok]
      exact ⟨_, rfl, rfl⟩
    · unfold readNextRecordD
      rw [if_neg (by simp [hg]), hpk]
      simp only
      rw [setD_eq _ _ _ _ _ hg, h1, Res.bind_ok]
      unfold finishD
      simp only [ne_eq, not_true_eq_false, if_false, ha, hk i hi, Res.bind_terminate, Res.noexcept_terminate]
  have gps : specLines sys = 8 → 0 < specCount sys 3 → 2 < specCount sys 5 → sys ≠ .glonass → toeField sys = (3, 0) →
      d'[11]? = some x ∧ (∃ wk, dataAt d' 21 >>= castInt = .ok wk) ∧ dataAt d' 11 = .ok x := by
    intro l8 c3 c5 hng htf
    have a := h3 3 (by omega) 0 c3
    have b := h3 5 (by omega) 2 c5
    rw [htf] at hx
    have u : ∀ j k, specUnit sys j k = 1 := by intro j k; unfold specUnit; rw [if_neg (by simp [hng])]
    rw [u, one_mul, hx] at a
    rw [u, one_mul] at b
    obtain ⟨wk, hwk⟩ := hw hng
    refine ⟨a, ⟨wk, ?_⟩, ?_⟩
    · have : dataAt d' 21 = .ok (num 5 2).value := by unfold dataAt; rw [show (21 : Nat) = specIndex 5 2 from rfl, b]
      rw [this]; exact hwk
    · unfold dataAt; rw [show (11 : Nat) = specIndex 3 0 from rfl, a]
  rcases hh with rfl | rfl | rfl | rfl
  · obtain ⟨a, ⟨wk, b⟩, c⟩ := gps rfl (by decide) (by decide) (by decide) rfl
    refine fin 11 rfl a ⟨DateTime.ofGpsWeek wk n, ?_⟩
    obtain ⟨y, b1, b2⟩ := Res.bind_eq_ok.1 b
    simp [toe2date, gpsToe, b1, b2, c, hcl]
  · have a := h3 0 (by decide) 2 (by decide)
    have u : specUnit .glonass 0 2 = 1 := by simp [specUnit]
    rw [u, one_mul] at a
    change (num 0 2).value = x at hx
    rw [hx] at a
    refine fin 2 rfl a ?_
    have c : dataAt d' 2 = .ok x := by unfold dataAt; rw [show (2 : Nat) = specIndex 0 2 from rfl, a]
    simp [toe2date, gloToe, c, hcl]
  · obtain ⟨a, ⟨wk, b⟩, c⟩ := gps rfl (by decide) (by decide) (by decide) rfl
    refine fin 11 rfl a ⟨DateTime.ofGpsWeek wk n, ?_⟩
    obtain ⟨y, b1, b2⟩ := Res.bind_eq_ok.1 b
    simp [toe2date, gpsToe, b1, b2, c, hcl]
  · obtain ⟨a, ⟨wk, b⟩, c⟩ := gps rfl (by decide) (by decide) (by decide) rfl
    refine fin 11 rfl a ⟨DateTime.ofGpsWeek (wk + 1356) n, ?_⟩
    obtain ⟨y, b1, b2⟩ := Res.bind_eq_ok.1 b
    simp [toe2date, bdsToe, b1, b2, c, hcl]

namespace NavExample

/-- " 2.601005000000D+05" -/
def sowHalf : Numeral := ⟨1, none, c!"2", some c!"601005000000", some (some false, c!"05")⟩
def l0half : List Char :=
  c!"R01 2020 01 01 00 15 00-4.101768136024D-05 0.000000000000D+00 2.601005000000D+05"
def halfNum (j k : Nat) : Numeral := if j = 0 ∧ k = 2 then sowHalf else gloNum zero j k

theorem value_sowHalf : sowHalf.value = 260100 + 1 / 2 := by
  norm_num [sowHalf, Numeral.value, Numeral.digVal, Numeral.fracDigits, Numeral.expVal, signVal, Nat.ofDigitChars, d0, d1, d2, d5, d6]

set_option maxRecDepth 20000 in
theorem l0half_ok : LineOK l0half := lineOK_of _ (by decide)

set_option maxRecDepth 20000 in
theorem half_record : IsRecord .glonass 1 halfNum [l0half, l1, l1, l1] := by
  refine ⟨⟨by decide, rfl, ?_, ?_⟩, ?_, ?_⟩
  · intro l hl
    simp at hl
    rcases hl with rfl | rfl
    exacts [l0half_ok, l1_ok]
  · intro l hl; simp at hl; subst hl; rfl
  · intro l hl; simp at hl; subst hl
    exact ⟨0, c!"01", l0half.drop 3, by decide, by decide, by decide, by decide, by decide, by decide, by decide⟩
  · intro j x hx k hk
    match j, hx with
    | 0, hx =>
      simp at hx; subst hx
      have hk' : k < 3 := by simpa [specCount] using hk
      apply fieldCheck_sound
      match k, hk' with
      | 0, _ => rfl
      | 1, _ => rfl
      | 2, _ => rfl
    | j + 1, hx =>
      have e : halfNum (j + 1) k = gloNum zero (j + 1) k := by simp [halfNum]
      rw [e]
      refine glo_fields zero l1 ?_ (j + 1) x (by simpa using hx) k hk
      intro k hk
      match k, hk with
      | 0, _ => rfl
      | 1, _ => rfl
      | 2, _ => rfl
      | 3, _ => rfl

/-- The hypotheses of `C71_fractional_toe` are met. -/
example : (∃ o, readNextRecord dateOf [] frame ⟨linesText [l0half, l1, l1, l1], 0, false, false⟩ 0 = .ok o ∧ o.status = 0) ∧
    readNextRecordD dateOf [] frame ⟨linesText [l0half, l1, l1, l1], 0, false, false⟩ 0 = .terminate := by
  have hv : (halfNum (toeField .glonass).1 (toeField .glonass).2).value = 260100 + 1 / 2 := value_sowHalf
  exact C71_fractional_toe dateOf [] frame _ .glonass 1 halfNum _ [] toc half_record (fun _ _ => rfl) rfl (by simp [Stream.rest]) rfl
    (Or.inr (Or.inl rfl)) 260100 (by rw [hv]; norm_num) (by rw [hv]; norm_num) (by decide) (fun h => absurd rfl h)

end NavExample

theorem skipLines_snoc : ∀ (n : Nat) (s s1 : Stream), skipLines n s = (true, s1) → (s1.getline MAX_RECORD_CHARS).2.fail = false →
    skipLines (n + 1) s = (true, (s1.getline MAX_RECORD_CHARS).2) := by
  have key : ∀ k t, skipLines (k + 1) t = if (t.getline MAX_RECORD_CHARS).2.fail then
        (false, (t.getline MAX_RECORD_CHARS).2) else skipLines k (t.getline MAX_RECORD_CHARS).2 := fun _ _ => rfl
  intro n
  induction n with
  | zero =>
    intro s s1 h hf
    simp [skipLines] at h; subst h
    rw [key, if_neg (by simp [hf])]; rfl
  | succ n ih =>
    intro s s1 h hf
    rw [key] at h
    split at h
    · simp at h
    · rename_i hnf
      rw [key, if_neg hnf]
      exact ih _ _ h hf

/-- **C71** disagreement: when the file ends with a record of another system whose last line has no newline, the production build reports the end of
the file (-1), the `DEBUG` build an error (10). -/
theorem C71_no_final_newline (dateOf : List Char → Res DateTime) (junk : Nat → List Char) (fuel : Nat) (cur0 : Option Nat)
    (sys sys' : SatSys) (prn t : Int) (f : NavFrame) (s : Stream) (errno : Int) (ini : List (List Char)) (last : List Char)
    (hb : IsBlock sys' (ini ++ [last])) (hne : sys' ≠ sys) (hl : last ≠ []) (hg : s.good = true) (hr : s.rest = linesText ini ++ last) :
    ∃ s', s'.rest = [] ∧ s'.good = true ∧
      findNext dateOf junk (fuel + 2) sys prn f s errno = .ok (some s.pos, ⟨-1, f, s', errno⟩) ∧
      findNextD dateOf junk (fuel + 2) cur0 sys prn f s errno = .ok (some s.pos, ⟨10, f, { s' with eof := true }, errno⟩) ∧
      findNextValid dateOf junk (fuel + 2) t sys prn f s errno = .ok (some s.pos, ⟨-1, f, s', errno⟩) ∧
      findNextValidD dateOf junk (fuel + 2) cur0 t sys prn f s errno = .ok (some s.pos, ⟨10, f, { s' with eof := true }, errno⟩) := by
  have hfit : ∀ l ∈ ini, LineOK l := fun l h => hb.fits l (by simp [h])
  have hlast := hb.fits last (by simp)
  have h1 := skipLines_text ini last s hg hr hfit
  have hrest1 : (s.adv (linesText ini).length).rest = last := Stream.adv_rest_append hr
  have hg1 : (s.adv (linesText ini).length).good = true := by simpa using hg
  have hgl := Stream.getline_last (n := MAX_RECORD_CHARS) hg1 hrest1 hlast.1 (by have := hlast.2.2; simp [MAX_RECORD_CHARS]; omega)
  have hcount : ini.length + 1 = specLines sys' := by have := hb.count; simpa using this
  obtain ⟨tl, htl⟩ : ∃ tl, s.rest = satsysToChar sys' :: tl := by
    cases ini with
    | nil =>
      have := hb.letter last (by simp)
      obtain ⟨tl, h⟩ := List.head?_eq_some_iff.1 this
      exact ⟨tl, by rw [hr, h]; simp [linesText]⟩
    | cons l ls =>
      have := hb.letter l (by simp)
      obtain ⟨tl, h⟩ := List.head?_eq_some_iff.1 this
      exact ⟨tl ++ '\n' :: (linesText ls ++ last), by rw [hr, h]; simp [linesText]⟩
  have hff : peekedEof (some (satsysToChar sys')) = false := by cases sys' <;> rfl
  have hpk : peakSatsys s = (0, sys', s) := by
    unfold peakSatsys
    simp only [Stream.peek_cons hg htl, hff, Bool.false_eq_true, if_false, Option.getD_some, charToSatsys_toChar]
  generalize hs2 : (s.adv (linesText ini).length).getline MAX_RECORD_CHARS = g at hgl
  have hemp : last.isEmpty = false := by cases last with
    | nil => exact absurd rfl hl
    | cons c cs => rfl
  have hgf : g.2.fail = false := by rw [hgl]; exact hemp
  have hge : g.2.eof = true := by rw [hgl]
  have hsk : skipLines (linesPerSatsys sys').1.toNat s = (true, g.2) := by
    rw [lines_eq_spec hb.notMixed, ← hcount]
    have := skipLines_snoc ini.length s _ h1 (by rw [hs2]; exact hgf)
    rw [hs2] at this
    exact this
  have hig : ignoreNextBlock s = (0, g.2) := by
    unfold ignoreNextBlock
    simp only [Stream.peek_cons hg htl, hff, Bool.false_eq_true, if_false, Option.getD_some, charToSatsys_toChar, hsk, if_true]
  have hgr : g.2.rest = [] := by
    rw [hgl]
    have : (s.adv (linesText ini).length).rest.drop last.length = [] := by rw [hrest1]; simp
    unfold Stream.rest at this ⊢
    rw [List.drop_drop] at this
    exact this
  have hbad : g.2.good = false := by unfold Stream.good; rw [hge]; rfl
  have hpk2 : peakSatsys g.2 = (-1, .mixed, g.2.clear) := by
    unfold peakSatsys Stream.peek
    rw [if_neg (by simp [hbad])]
    simp [peekedEof, Stream.clear]
  have loopP : ∀ accept, findLoop dateOf junk accept sys (fuel + 2) f s errno = .ok ⟨-1, f, g.2.clear, errno⟩ := by
    intro accept
    rw [findLoop]
    simp only [hpk, ne_eq, not_true_eq_false, if_false, if_neg hne, hig]
    rw [findLoop]
    simp [hpk2]
  have loopD : ∀ accept, findLoopD dateOf junk accept sys (fuel + 2) f s errno = .ok ⟨10, f, g.2, errno⟩ := by
    intro accept
    have e1 : peakSatsysD s = peakSatsys s := by unfold peakSatsysD; rw [if_neg (by simp [hg])]
    have e2 : ignoreNextBlockD s = ignoreNextBlock s := by unfold ignoreNextBlockD; rw [if_neg (by simp [hg])]
    have e3 : peakSatsysD g.2 = (10, .mixed, g.2) := by unfold peakSatsysD; rw [if_pos hbad]
    rw [findLoopD]
    simp only [e1, hpk, ne_eq, not_true_eq_false, if_false, if_neg hne, e2, hig]
    rw [findLoopD]
    simp [e3]
  have heq : g.2 = { g.2.clear with eof := true } := by
    cases hx : g.2 with
    | mk c p e fl =>
      rw [hx] at hge hgf
      simp only at hge hgf
      subst hge; subst hgf; rfl
  refine ⟨g.2.clear, by simpa using hgr, rfl, ?_, ?_, ?_, ?_⟩
  · unfold findNext
    simp only [tellg_good hg, loopP, Res.bind_ok, Res.pure_eq]
  · unfold findNextD
    rw [if_neg (by simp [hg])]
    simp only [tellg_good hg, loopD, Res.bind_ok, Res.pure_eq]
    rw [← heq]
  · unfold findNextValid
    simp only [tellg_good hg, loopP, Res.bind_ok, Res.pure_eq, Res.noexcept_ok]
  · unfold findNextValidD
    rw [if_neg (by simp [hg])]
    simp only [tellg_good hg, loopD, Res.bind_ok, Res.pure_eq, Res.noexcept_ok]
    rw [← heq]

/-- The hypotheses are met: a file with one GPS record, cut before the last newline. -/
example : ∃ s', findNext NavExample.dateOf (fun _ => []) 2 .glonass 1 NavExample.frame ⟨fileText [NavExample.gps] |>.dropLast, 0, false, false⟩ 0 =
      .ok (some 0, ⟨-1, NavExample.frame, s', 0⟩) ∧
    findNextD NavExample.dateOf (fun _ => []) 2 none .glonass 1 NavExample.frame ⟨fileText [NavExample.gps] |>.dropLast, 0, false, false⟩ 0 =
      .ok (some 0, ⟨10, NavExample.frame, { s' with eof := true }, 0⟩) := by
  obtain ⟨s', _, _, h1, h2, _⟩ := C71_no_final_newline NavExample.dateOf (fun _ => []) 0 none .glonass .gps 1 0 NavExample.frame
    ⟨fileText [NavExample.gps] |>.dropLast, 0, false, false⟩ 0
    [NavExample.g0, NavExample.l1, NavExample.l1, NavExample.l1, NavExample.l1, NavExample.l1, NavExample.l1] NavExample.l1
    NavExample.gps_block (by decide) (by decide) rfl (by
      have : fileText [NavExample.gps] = linesText [NavExample.g0, NavExample.l1, NavExample.l1, NavExample.l1, NavExample.l1, NavExample.l1, NavExample.l1] ++
          NavExample.l1 ++ ['\n'] := by
        simp [fileText, NavItem.text, NavExample.gps, linesText]
      simp only [Stream.rest, this, List.dropLast_concat]
      rfl)
  exact ⟨s', h1, h2⟩

/-! ## Orbits and clocks -/

theorem kepler2stateD_near (k : KeplerConst) (f : NavFrame) (t : Epoch) (x : KeplerOut) (h : |elapsed t f.toe| ≤ 302400) :
    kepler2stateD k f (ref2toe f t) x = kepler2state k f (ref2toe f t) x := by
  rw [abs_le] at h
  unfold kepler2stateD
  simp only [C22_toe_exact]
  rw [if_neg (by rintro (h' | h') <;> linarith [h.1, h.2])]

theorem kepler2stateD_far (k : KeplerConst) (f : NavFrame) (t : Epoch) (x : KeplerOut) (h : 302400 < |elapsed t f.toe|) :
    kepler2stateD k f (ref2toe f t) x = { x with status := -1 } := by
  unfold kepler2stateD
  simp only [C22_toe_exact]
  rw [if_pos (by
    rcases lt_abs.1 h with h' | h'
    · exact Or.inr h'
    · exact Or.inl (by linarith))]

theorem svClockD_near (k : KeplerConst) (f : NavFrame) (t : Epoch) (E : Option ℝ) (c : ℝ) (h : |elapsed t f.toc| ≤ 302400) :
    svClockD k f (ref2toc f t) E c = svClock k f (ref2toc f t) E c := by
  rw [abs_le] at h
  unfold svClockD
  simp only [C22_toc_exact]
  rw [if_neg (by rintro (h' | h') <;> linarith [h.1, h.2])]

theorem svClockD_far (k : KeplerConst) (f : NavFrame) (t : Epoch) (E : Option ℝ) (c : ℝ) (h : 302400 < |elapsed t f.toc|) :
    svClockD k f (ref2toc f t) E c = (-1, c) := by
  unfold svClockD
  simp only [C22_toc_exact]
  rw [if_pos (by
    rcases lt_abs.1 h with h' | h'
    · exact Or.inr h'
    · exact Or.inl (by linarith))]

/-- **C71** (orbit and clock): within half a week of the time of ephemeris and of the time of clock (always for GLONASS) the two builds give the same. -/
theorem C71_state_near_partial (f : NavFrame) (fuel : Nat) (t : Epoch) (o : StateClock)
    (h : f.sys ≠ .glonass → |elapsed t f.toe| ≤ 302400 ∧ |elapsed t f.toc| ≤ 302400) : stateNclockD f fuel t o = stateNclock f fuel t o := by
  have key : f.sys ≠ .glonass → ∀ k, keplerStateNclockD k f t o = keplerStateNclock k f t o := by
    intro hs k
    obtain ⟨h1, h2⟩ := h hs
    unfold keplerStateNclockD keplerStateNclock
    rw [kepler2stateD_near k f t _ h1, svClockD_near k f t _ _ h2]
  unfold stateNclockD stateNclock
  cases hs : f.sys <;> first | rfl | (simp only; rw [key (by simp [hs])])

/-- **C71** disagreement: more than half a week from the time of ephemeris the `DEBUG` build refuses (-1, nothing written). -/
theorem C71_state_far (f : NavFrame) (fuel : Nat) (t : Epoch) (o : StateClock) (hs : f.sys = .gps ∨ f.sys = .galileo ∨ f.sys = .beidou)
    (h : 302400 < |elapsed t f.toe|) : stateNclockD f fuel t o = .ok { o with status := -1 } := by
  have key : ∀ k, keplerStateNclockD k f t o = { o with status := -1 } := by
    intro k
    unfold keplerStateNclockD
    rw [kepler2stateD_far k f t _ h]
    simp
  unfold stateNclockD
  rcases hs with hs | hs | hs <;> rw [hs] <;> simp only <;> rw [key]

/-- ... where the production build, for every eccentricity up to 0.95, computes a position (status 0 or, should the clock iteration
fail, 1). -/
theorem C71_far_production (k : KeplerConst) (f : NavFrame) (tSec : ℝ) (o : KeplerOut) (h0 : 0 ≤ (elements f).e) (h1 : (elements f).e ≤ 0.95)
    (h : 302400 < |tSec - f.toeSec|) : (kepler2state k f tSec o).status = 0 ∧ kepler2stateD k f tSec o = { o with status := -1 } := by
  refine ⟨C24_converges k f tSec o h0 h1, ?_⟩
  unfold kepler2stateD
  simp only
  rw [if_pos (by
    rcases lt_abs.1 h with h | h
    · exact Or.inr h
    · exact Or.inl (by linarith))]

/-- **C71** disagreement: within half a week of the time of ephemeris but not of the time of clock the `DEBUG` build returns -1 although it has written the
position (the same as the production build); the clock is not written. -/
theorem C71_clock_far (f : NavFrame) (fuel : Nat) (t : Epoch) (o : StateClock) (hs : f.sys = .gps ∨ f.sys = .galileo ∨ f.sys = .beidou)
    (h : |elapsed t f.toe| ≤ 302400) (hc : 302400 < |elapsed t f.toc|) (h0 : 0 ≤ (elements f).e) (h1 : (elements f).e ≤ 0.95) :
    ∃ p, stateNclock f fuel t o = .ok p ∧ stateNclockD f fuel t o = .ok ⟨-1, p.state, o.clock⟩ := by
  have key : ∀ k, keplerStateNclockD k f t o = ⟨-1, (keplerStateNclock k f t o).state, o.clock⟩ := by
    intro k
    have hst := C24_converges k f (ref2toe f t) ⟨0, ![o.state 0, o.state 1, o.state 2], 0⟩ h0 h1
    unfold keplerStateNclockD keplerStateNclock
    rw [kepler2stateD_near k f t _ h, svClockD_far k f t _ _ hc]
    simp only [hst, ne_eq, not_true_eq_false, if_false]
  unfold stateNclockD stateNclock
  rcases hs with hs | hs | hs <;> rw [hs] <;> simp only <;> rw [key] <;> exact ⟨_, rfl, rfl⟩

/-- The hypotheses of the two theorems are met by the frame of C26: four days later, and (with a time of clock a week earlier) one hour later. -/
example (o : StateClock) : stateNclockD clockEx 0 ⟨58853, 7200⟩ o = .ok { o with status := -1 } :=
  C71_state_far clockEx 0 _ o (Or.inl rfl) (by
    have : elapsed ⟨58853, 7200⟩ clockEx.toe = 345600 := by norm_num [elapsed, Epoch.secs, clockEx, DateTime.total]
    rw [this]; norm_num)

example (o : StateClock) : ∃ p, stateNclock { clockEx with toc := ⟨58842, 0⟩ } 0 ⟨58849, 3600⟩ o = .ok p ∧
    stateNclockD { clockEx with toc := ⟨58842, 0⟩ } 0 ⟨58849, 3600⟩ o = .ok ⟨-1, p.state, o.clock⟩ := by
  have de : (elements { clockEx with toc := ⟨58842, 0⟩ }).e = 1 / 100 := by
    show NavFrame.d _ 8 = _
    norm_num [clockEx, NavFrame.d]
  apply C71_clock_far _ _ _ _ (Or.inl rfl)
  · have : elapsed ⟨58849, 3600⟩ (clockEx.toe) = -3600 := by norm_num [elapsed, Epoch.secs, clockEx, DateTime.total]
    show |elapsed ⟨58849, 3600⟩ (clockEx.toe)| ≤ _
    rw [this]; norm_num
  · have : elapsed ⟨58849, 3600⟩ ⟨58842, 0⟩ = 608400 := by norm_num [elapsed, Epoch.secs, DateTime.total]
    show _ < |elapsed ⟨58849, 3600⟩ ⟨58842, 0⟩|
    rw [this]; norm_num
  · rw [de]; norm_num
  · rw [de]; norm_num


end Ggnss
