import Verif.Spec.BernCut
import Verif.Props.BernBad
import Verif.Props.ObsCut
/-!
# C89: SATELLIT files cut off at an arbitrary byte — the records
-/
namespace Ggnss

/-- Reading the last line `u`, with or without a newline after it. -/
theorem getline_upto {s : Stream} (hg : s.good = true) {u tail : List Char} (hu : LineFits 255 u) (ht : tail = [] ∨ ∃ t, tail = '\n' :: t)
    (hr : s.rest = u ++ tail) : ∃ s', s.getline MAX_SATELLIT_CHARS = (u, s') ∧ s'.content = s.content ∧
      s'.fail = (tail.isEmpty && u.isEmpty) ∧ (tail = [] → s'.good = false) := by
  rcases ht with rfl | ⟨t, rfl⟩
  · refine ⟨_, Stream.getline_last hg (by simpa using hr) hu.1 hu.2.2, rfl, by simp, fun _ => by simp [Stream.good]⟩
  · refine ⟨_, Stream.getline_line hg hr hu.1 hu.2.2, rfl, ?_, fun h => by simp at h⟩
    simpa using ((Stream.good_iff s).1 hg).2

theorem bernLoop_upto_step {strptime : List Char → Res DateTime} {r : BernRec} (hr : r.WF strptime) {svn : Int} {eph : DateTime}
    (hno : ¬ r.InForce svn eph) (ifrqn prn : Int) {errno : Int} (he : errno ≠ ERANGE) (lim : Nat) (buf : List Char) (s s' : Stream)
    {u : List Char} (hu : LineFits 255 u) (hs : s.getline MAX_SATELLIT_CHARS = (u, s')) :
    bernLoop strptime svn eph ifrqn prn (lim + 1) (fillLine buf r.line) s errno =
      (if u.length < 10 ∨ u.take 6 = c!"PART 3" then .ok ⟨-1, ifrqn, prn, s', errno⟩ else
        bernLoop strptime svn eph ifrqn prn lim (fillLine (fillLine buf r.line) u) s' errno) := by
  rw [bernLoop.eq_2]
  rcases bernLine_rec hr svn eph ifrqn prn buf he with ⟨_, h⟩ | ⟨h, _⟩
  · simp only [h, hs, cstrOf_fill hu.2.1, Res.bind_ok, strncmpEq_line (pat := c!"PART 3") 6 hu.2.1 (by decide)]
    have e : (decide (List.take 6 c!"PART 3" = List.take 6 u) = true) ↔ u.take 6 = c!"PART 3" := by
      rw [decide_eq_true_iff]; exact ⟨fun h => h.symm, fun h => h.symm⟩
    by_cases hc : u.length < 10 ∨ u.take 6 = c!"PART 3"
    · rw [if_pos hc, if_pos (by rw [e]; exact hc)]; rfl
    · rw [if_neg hc, if_neg (by rw [e]; exact hc)]
  · exact absurd h hno

theorem bernLoop_upto {strptime : List Char → Res DateTime} {svn : Int} {eph : DateTime} (ifrqn prn : Int) {errno : Int} (he : errno ≠ ERANGE)
    {u tail : List Char} (hu : LineFits 255 u) (ht : tail = [] ∨ ∃ t, tail = '\n' :: t) :
    ∀ (pre : List BernRec) (r : BernRec), (∀ q ∈ r :: pre, q.WF strptime) → (∀ q ∈ r :: pre, ¬ q.InForce svn eph) →
    ∀ (lim : Nat) (buf : List Char) (s : Stream), s.good = true → s.rest = linesText (pre.map (·.line)) ++ (u ++ tail) →
    ∃ b q s', bernLoop strptime svn eph ifrqn prn (lim + pre.length + 1) (fillLine buf r.line) s errno =
        (if u.length < 10 ∨ u.take 6 = c!"PART 3" then .ok ⟨-1, ifrqn, prn, s', errno⟩ else
          bernLoop strptime svn eph ifrqn prn lim (fillLine (fillLine b q.line) u) s' errno) ∧ s'.content = s.content ∧
        s'.fail = (tail.isEmpty && u.isEmpty) ∧ (tail = [] → s'.good = false) ∧ (r :: pre).getLast? = some q := by
  intro pre
  induction pre with
  | nil =>
    intro r hw hn lim buf s hg hs
    obtain ⟨s', h1, h2, h3, h4⟩ := getline_upto hg hu ht (by simpa [linesText] using hs)
    exact ⟨buf, r, s', bernLoop_upto_step (hw r (by simp)) (hn r (by simp)) ifrqn prn he lim buf s s' hu h1, h2, h3, h4, rfl⟩
  | cons r2 pre ih =>
    intro r hw hn lim buf s hg hs
    have hw2 := hw r2 (by simp)
    have hs' : s.rest = r2.line ++ '\n' :: (linesText (pre.map (·.line)) ++ (u ++ tail)) := by
      rw [hs]; simp [linesText_cons]
    have hrest : (s.adv (r2.line.length + 1)).rest = linesText (pre.map (·.line)) ++ (u ++ tail) := by
      have := Stream.adv_rest_append (s := s) (a := r2.line ++ ['\n']) (b := linesText (pre.map (·.line)) ++ (u ++ tail)) (by rw [hs']; simp)
      simpa using this
    have h1 := bernLoop_pass_step (hw r (by simp)) (hn r (by simp)) ifrqn prn he (lim + pre.length + 1) buf s hg hw2.fits hw2.long hw2.notPart3 hs'
    obtain ⟨b, q, s', k1, k2, k3, k4, k5⟩ := ih r2 (fun q hq => hw q (List.mem_cons_of_mem _ hq)) (fun q hq => hn q (List.mem_cons_of_mem _ hq))
      lim (fillLine buf r.line) (s.adv (r2.line.length + 1)) hg hrest
    refine ⟨b, q, s', ?_, k2, k3, k4, ?_⟩
    · rw [← k1, ← h1]; rfl
    · rw [← k5]; simp

/-- The lookup up to the line `u` that follows the records `pre`. -/
theorem lookup_upto {strptime : List Char → Res DateTime} {svn : Int} {eph : DateTime} (ifrqn prn : Int) {errno : Int} (he : errno ≠ ERANGE)
    {u tail : List Char} (hu : LineFits 255 u) (ht : tail = [] ∨ ∃ t, tail = '\n' :: t) (pre : List BernRec) (hlen : pre.length < 1000)
    (hw : ∀ q ∈ pre, q.WF strptime) (hn : ∀ q ∈ pre, ¬ q.InForce svn eph) (junk : List Char) (part2 : Nat) (s : Stream) (hs : s.fail = false)
    (hc : s.content.drop part2 = linesText (pre.map (·.line)) ++ (u ++ tail)) :
    ∃ lim b s', getFrequencyChannel strptime junk part2 svn eph ifrqn prn s errno =
        (if pre ≠ [] ∧ (u.length < 10 ∨ u.take 6 = c!"PART 3") then .ok ⟨-1, ifrqn, prn, s', errno⟩ else
          bernLoop strptime svn eph ifrqn prn (lim + 1) (fillLine b u) s' errno) ∧ s'.content = s.content ∧
        s'.fail = (tail.isEmpty && u.isEmpty) ∧ (tail = [] → s'.good = false) ∧
        (∀ q, pre.getLast? = some q → ∃ b', b = fillLine b' q.line) := by
  have hsk : s.seekg part2 = ⟨s.content, part2, false, false⟩ := by
    unfold Stream.seekg; rw [hs]; simp
  have hg : (⟨s.content, part2, false, false⟩ : Stream).good = true := rfl
  unfold getFrequencyChannel
  rw [hsk]
  cases pre with
  | nil =>
    obtain ⟨s', h1, h2, h3, h4⟩ := getline_upto (s := ⟨s.content, part2, false, false⟩) hg hu ht (hc.trans (by simp [linesText]))
    simp only [h1]
    exact ⟨999, junk, s', by rw [if_neg (by simp)], h2, h3, h4, by simp⟩
  | cons r pre =>
    have hf := (hw r (by simp)).fits
    have hr : (⟨s.content, part2, false, false⟩ : Stream).rest = r.line ++ '\n' :: (linesText (pre.map (·.line)) ++ (u ++ tail)) := by
      refine hc.trans ?_; simp [linesText_cons]
    have hgl := Stream.getline_line (n := MAX_SATELLIT_CHARS) hg hr hf.1 hf.2.2
    have hrest := Stream.adv_rest_append (s := ⟨s.content, part2, false, false⟩) (a := r.line ++ ['\n'])
      (b := linesText (pre.map (·.line)) ++ (u ++ tail)) (by rw [hr]; simp)
    simp only [hgl]
    simp only [List.length_cons] at hlen
    obtain ⟨b, q, s', k1, k2, k3, k4, k5⟩ := bernLoop_upto (strptime := strptime) ifrqn prn he hu ht pre r hw hn (999 - pre.length) junk
      ((⟨s.content, part2, false, false⟩ : Stream).adv (r.line.length + 1)) hg (by simpa using hrest)
    refine ⟨998 - pre.length, fillLine b q.line, s', ?_, k2, k3, k4, ?_⟩
    · rw [show 999 - pre.length + pre.length + 1 = 1000 by omega] at k1
      rw [show 998 - pre.length + 1 = 999 - pre.length by omega, k1]
      simp
    · intro q' hq'
      rw [k5] at hq'
      simp only [Option.some.injEq] at hq'
      exact ⟨b, by rw [hq']⟩

theorem prefix_next {a p t : List Char} {c : Char} (h1 : a <+: p) (h2 : p <+: a ++ c :: t) : ∃ tail, p = a ++ tail ∧ (tail = [] ∨ ∃ t', tail = c :: t') := by
  obtain ⟨tail, rfl⟩ := h1
  refine ⟨tail, rfl, ?_⟩
  rw [List.prefix_append_right_inj] at h2
  cases tail with
  | nil => exact Or.inl rfl
  | cons x xs =>
    right
    obtain ⟨w, hw⟩ := h2
    simp only [List.cons_append, List.cons.injEq] at hw
    exact ⟨xs, by rw [hw.1]⟩

/-- **C89** (complete records).  In a file cut off anywhere after the line of the first record in force (the newline after it may be missing), the lookup
answers as it does in the whole file: status 0 with the PRN and channel of that record. -/
theorem C89_complete_record {strptime : List Char → Res DateTime} (recs : List BernRec) (hwf : ∀ r ∈ recs, r.WF strptime) (e : BernEnd)
    {svn : Int} {eph : DateTime} {i : Nat} (hi : i < 1000) {r : BernRec} (hr : recs[i]? = some r) (hin : r.InForce svn eph)
    (hno : ∀ j < i, ∀ q, recs[j]? = some q → ¬ q.InForce svn eph)
    {v : Nat} {start : DateTime} {stop : Option DateTime} {p : Nat} {ch : Int} (hmw : r.mw = some (v, start, stop, p, ch))
    {cut : List Char} (hcut : cut <+: bernText recs e) (hafter : linesText ((recs.take i).map (·.line)) ++ r.line <+: cut)
    (ifrqn prn : Int) (junk : List Char) (part2 : Nat) (s : Stream) (hs : s.fail = false) (hc : s.content.drop part2 = cut)
    {errno : Int} (he : errno ≠ ERANGE) :
    BernSays (getFrequencyChannel strptime junk part2 svn eph ifrqn prn s errno) s 0 ch p errno := by
  have hri : i < recs.length := (List.getElem?_eq_some_iff.1 hr).1
  have hrm : r ∈ recs := List.mem_of_getElem? hr
  have hsplit : recs = recs.take i ++ r :: recs.drop (i + 1) := by
    have := (List.getElem?_eq_some_iff.1 hr).2
    rw [← this, List.cons_getElem_drop_succ, List.take_append_drop]
  have htext : bernText recs e = (linesText ((recs.take i).map (·.line)) ++ r.line) ++ '\n' :: bernText (recs.drop (i + 1)) e := by
    conv_lhs => rw [hsplit]
    simp [bernText, linesText, linesText_cons]
  rw [htext] at hcut
  obtain ⟨tail, rfl, ht⟩ := prefix_next hafter hcut
  have hw := hwf r hrm
  obtain ⟨lim, b, s', h1, h2, h3, h4, h5⟩ := lookup_upto (strptime := strptime) (svn := svn) (eph := eph) ifrqn prn he hw.fits ht (recs.take i)
    (by simp; omega) (fun q hq => hwf q (List.mem_of_mem_take hq))
    (fun q hq => by
      obtain ⟨j, hj⟩ := List.mem_iff_getElem?.1 hq
      have hj' : j < i := by
        have := (List.getElem?_eq_some_iff.1 hj).1
        simp at this; omega
      rw [List.getElem?_take_of_lt hj'] at hj
      exact hno j hj' q hj) junk part2 s hs (by rw [hc]; simp)
  have hl := hw.long
  rw [if_neg (by
    rintro ⟨_, h | h⟩
    · omega
    · exact hw.notPart3 h)] at h1
  refine ⟨s', ?_, ?_, h2⟩
  · rw [h1]
    rcases bernLine_rec hw svn eph ifrqn prn b he with ⟨h, _⟩ | ⟨_, v', st', sp', p', ch', hm', h⟩
    · exact absurd hin h
    · rw [hmw] at hm'
      simp only [Option.some.injEq, Prod.mk.injEq] at hm'
      obtain ⟨rfl, rfl, rfl, rfl, rfl⟩ := hm'
      rw [bernLoop_inr h]
  · rw [h3]
    have : r.line.isEmpty = false := by
      cases hx : r.line with
      | nil => rw [hx] at hl; simp at hl
      | cons a as => rfl
    simp [this]

/-- At the end of the file, a line that is passed over ends the lookup. -/
theorem bernLoop_last {strptime : List Char → Res DateTime} {svn : Int} {eph : DateTime} {ifrqn prn errno : Int} {lim : Nat} {line : List Char} {s : Stream}
    (hg : s.good = false) (h : bernLine strptime svn eph ifrqn prn line errno = .ok (.inl errno)) :
    bernLoop strptime svn eph ifrqn prn (lim + 1) line s errno = .ok ⟨-1, ifrqn, prn, { s with fail := true }, errno⟩ := by
  rw [bernLoop.eq_2, h]
  simp only [Res.bind_ok, Stream.getline_bad hg, cstrOf_fill (l := []) (by simp), strncmpEq_line (pat := c!"PART 3") (l := []) 6 (by simp) (by decide)]
  rw [if_pos (by simp)]
  rfl

theorem bernLine_other {strptime : List Char → Res DateTime} {svn : Int} {eph : DateTime} {ifrqn prn errno : Int} (he : errno ≠ ERANGE) {u b : List Char}
    (h10 : 10 ≤ u.length) (h3 : u.take 6 ≠ c!"PART 3") (h : SaysOther strptime u svn eph) :
    bernLine strptime svn eph ifrqn prn (fillLine b u) errno = .ok (.inl errno) := by
  have g5 := getAt_fill (buf := b) (List.getElem?_eq_getElem (show 5 < u.length by omega))
  have g6 := getAt_fill (buf := b) (List.getElem?_eq_getElem (show 6 < u.length by omega))
  unfold bernLine
  rw [g5, g6]
  simp only [Res.bind_ok]
  by_cases hmw : u[5] = 'M' ∧ u[6] = 'W'
  · rw [if_pos hmw]
    have step : ∀ v : Nat, NatAt u 28 v → ∃ rv, strtolA ((fillLine b u).drop 28) = .ok (some ((v : Int), rv, false)) ∧ toInt32 (v : Int) = v := by
      intro v hv
      obtain ⟨rv, hrv⟩ := strtol_nat (tail := b.drop (u.length + 1)) hv
      exact ⟨rv, hrv, toInt32_nat hv.2.choose_spec.choose_spec.choose_spec.2.2.2.2.2⟩
    rcases h with h | h | h | ⟨v, hv, hne⟩ | ⟨v, start, stop, hv, h82, hst, hsp, hnot⟩
    · omega
    · exact absurd h h3
    · refine absurd ⟨?_, ?_⟩ h
      · rw [List.getElem?_eq_getElem (show 5 < u.length by omega), hmw.1]
      · rw [List.getElem?_eq_getElem (show 6 < u.length by omega), hmw.2]
    · obtain ⟨rv, h1, h2⟩ := step v hv
      simp only [h1, Res.bind_ok, strtolErr, strtolVal, h2, Bool.false_eq_true, if_false]
      rw [if_neg (by simp [he]), if_neg hne]; rfl
    · obtain ⟨rv, h1, h2⟩ := step v hv
      simp only [h1, Res.bind_ok, strtolErr, strtolVal, h2, Bool.false_eq_true, if_false]
      rw [if_neg (by simp [he])]
      by_cases hsv : (v : Int) = svn
      · rw [if_pos hsv]
        have hstart : strptime ((fillLine b u).drop 41) = .ok start := hst _
        have hstop : bernStop strptime (fillLine b u) 20 62 = .ok stop := by
          cases stop with
          | none => exact bernStop_blank 20 62 hsp
          | some d =>
            obtain ⟨⟨i, c, hi⟩, hd⟩ := hsp
            exact bernStop_some (hd _) 20 62 (by omega) ⟨i, c, hi⟩
        simp only [hstart, hstop, Res.bind_ok]
        rw [if_neg]
        · rfl
        · rintro ⟨a1, a2⟩
          refine hnot ⟨a1, fun e he' => ?_⟩
          subst he'
          simpa [beforeStop] using a2
      · rw [if_neg hsv]; rfl
  · rw [if_neg hmw]; rfl

/-- The lookup in complete records not in force followed by an unterminated line. -/
theorem cut_none {strptime : List Char → Res DateTime} {svn : Int} {eph : DateTime} (pre : List BernRec) (hne : pre ≠ []) (hlen : pre.length < 1000)
    (hw : ∀ q ∈ pre, q.WF strptime) (hn : ∀ q ∈ pre, ¬ q.InForce svn eph) {u : List Char} (hu : LineFits 255 u) (h : SaysOther strptime u svn eph)
    (ifrqn prn : Int) (junk : List Char) (part2 : Nat) (s : Stream) (hs : s.fail = false)
    (hc : s.content.drop part2 = linesText (pre.map (·.line)) ++ u) {errno : Int} (he : errno ≠ ERANGE) :
    ∃ s', getFrequencyChannel strptime junk part2 svn eph ifrqn prn s errno = .ok ⟨-1, ifrqn, prn, s', errno⟩ ∧ s'.content = s.content := by
  obtain ⟨lim, b, s', h1, h2, h3, h4, h5⟩ := lookup_upto (strptime := strptime) (svn := svn) (eph := eph) (tail := []) ifrqn prn he hu (Or.inl rfl) pre hlen hw hn
    junk part2 s hs (by rw [hc]; simp)
  by_cases hx : u.length < 10 ∨ u.take 6 = c!"PART 3"
  · rw [if_pos ⟨hne, hx⟩] at h1
    exact ⟨s', h1, h2⟩
  · rw [if_neg (fun hh => hx hh.2)] at h1
    rw [not_or] at hx
    refine ⟨_, h1.trans (bernLoop_last (h4 rfl) (bernLine_other he (by omega) hx.2 h)), ?_⟩
    exact h2

theorem linesText_last {ls : List (List Char)} (h : ls ≠ []) : (linesText ls).getLast? = some '\n' := by
  rcases List.eq_nil_or_concat ls with rfl | ⟨a, l, rfl⟩
  · exact absurd rfl h
  · simp [linesText]

/-- A complete record that is not in force says so. -/
theorem BernRec.WF.saysOther {strptime : List Char → Res DateTime} {r : BernRec} (hr : r.WF strptime) {svn : Int} {eph : DateTime} (hno : ¬ r.InForce svn eph) :
    SaysOther strptime r.line svn eph := by
  cases hm : r.mw with
  | none => exact Or.inr (Or.inr (Or.inl (hr.other hm)))
  | some x =>
    obtain ⟨v, start, stop, p, ch⟩ := x
    obtain ⟨_, _, h1, h2, h3, h4, _⟩ := hr.isMw _ _ _ _ _ hm
    by_cases hv : (v : Int) = svn
    · refine Or.inr (Or.inr (Or.inr (Or.inr ⟨v, start, stop, h1, h4, h2, h3, fun hh => hno ⟨v, start, stop, p, ch, hm, hv, hh.1, hh.2⟩⟩)))
    · exact Or.inr (Or.inr (Or.inr (Or.inl ⟨v, h1, hv⟩)))

theorem unterminated_unique {ls : List (List Char)} {p q u : List Char} (hp : p = linesText ls ++ q) (hq : '\n' ∉ q) (h : Unterminated p u) : u = q := by
  obtain ⟨head, e, hh, hu⟩ := h
  rw [hp] at e
  have hls : linesText ls = [] ∨ (linesText ls).getLast? = some '\n' := by
    rcases List.eq_nil_or_concat ls with rfl | ⟨a, l, rfl⟩
    · exact Or.inl rfl
    · right; simp [linesText]
  rcases List.append_eq_append_iff.1 e with ⟨x, h1, h2⟩ | ⟨x, h1, h2⟩
  · -- head = linesText ls ++ x, q = x ++ u
    rcases List.eq_nil_or_concat x with rfl | ⟨y, c, rfl⟩
    · simpa using h2.symm
    · exfalso
      rcases hh with hh | hh
      · rw [hh] at h1; simp at h1
      · rw [h1] at hh
        simp at hh
        subst hh
        exact hq (by rw [h2]; simp)
  · rcases List.eq_nil_or_concat x with rfl | ⟨y, c, rfl⟩
    · simpa using h2
    · exfalso
      rcases hls with hh | hh
      · rw [hh] at h1; simp at h1
      · rw [h1] at hh
        simp at hh
        subst hh
        exact hu (by rw [h2]; simp)

/-- **C89** (nothing in force).  In a file without a record in force, cut off anywhere after the first record: if the line that was cut still says that it does
not answer the question, the lookup returns −1 with the outputs and `errno` untouched. -/
theorem C89_not_found_partial {strptime : List Char → Res DateTime} (r0 : BernRec) (recs : List BernRec) (hlen : recs.length < 999)
    (hwf : ∀ r ∈ r0 :: recs, r.WF strptime) {e : BernEnd} (hee : e.WF) {svn : Int} {eph : DateTime} (hno : ∀ r ∈ r0 :: recs, ¬ r.InForce svn eph)
    {cut : List Char} (hcut : cut <+: bernText (r0 :: recs) e) (hafter : r0.line ++ ['\n'] <+: cut)
    (hlast : ∀ u, Unterminated cut u → SaysOther strptime u svn eph)
    (ifrqn prn : Int) (junk : List Char) (part2 : Nat) (s : Stream) (hs : s.fail = false) (hc : s.content.drop part2 = cut)
    {errno : Int} (he : errno ≠ ERANGE) :
    ∃ s', getFrequencyChannel strptime junk part2 svn eph ifrqn prn s errno = .ok ⟨-1, ifrqn, prn, s', errno⟩ ∧ s'.content = s.content := by
  -- the text behind the first record
  have key : ∀ (done : List BernRec) (rest : List BernRec), (r0 :: recs) = done ++ rest → done ≠ [] → linesText (done.map (·.line)) <+: cut →
      ∃ s', getFrequencyChannel strptime junk part2 svn eph ifrqn prn s errno = .ok ⟨-1, ifrqn, prn, s', errno⟩ ∧ s'.content = s.content := by
    intro done rest
    induction rest generalizing done with
    | nil =>
      intro hd hne hpre
      rw [List.append_nil] at hd
      subst hd
      obtain ⟨x, rfl⟩ := hpre
      have hx : x <+: e.text := by
        rw [bernText, List.prefix_append_right_inj] at hcut; exact hcut
      by_cases hnl : '\n' ∉ x
      · have hsay := hlast x ⟨linesText ((r0 :: recs).map (·.line)), rfl, Or.inr (linesText_last (by simp)), hnl⟩
        have hfit : LineFits 255 x := by
          cases e with
          | short l t =>
            rcases List.prefix_or_prefix_of_prefix hx (show l <+: BernEnd.text (.short l t) from ⟨_, rfl⟩) with h | h
            · exact ⟨hnl, fun hh => hee.1.2.1 (h.subset hh), Nat.le_trans h.length_le hee.1.2.2⟩
            · obtain ⟨tl, rfl, ht⟩ := prefix_next h hx
              rcases ht with rfl | ⟨t', rfl⟩
              · simpa using hee.1
              · exact absurd (by simp) hnl
          | part3 l t =>
            rcases List.prefix_or_prefix_of_prefix hx (show l <+: BernEnd.text (.part3 l t) from ⟨_, rfl⟩) with h | h
            · exact ⟨hnl, fun hh => hee.1.2.1 (h.subset hh), Nat.le_trans h.length_le hee.1.2.2⟩
            · obtain ⟨tl, rfl, ht⟩ := prefix_next h hx
              rcases ht with rfl | ⟨t', rfl⟩
              · simpa using hee.1
              · exact absurd (by simp) hnl
          | eof =>
            have : x = [] := List.prefix_nil.1 hx
            subst this
            exact ⟨by simp, by simp, by simp⟩
        exact cut_none (r0 :: recs) (by simp) (by simp; omega) hwf hno hfit hsay ifrqn prn junk part2 s hs hc he
      · -- the end line is complete
        cases e with
        | eof =>
          have : x = [] := List.prefix_nil.1 hx
          subst this
          simp at hnl
        | short l t =>
          rcases List.prefix_or_prefix_of_prefix hx (show l <+: BernEnd.text (.short l t) from ⟨_, rfl⟩) with h | h
          · exact absurd (fun hh => hee.1.1 (h.subset hh)) hnl
          · obtain ⟨tl, rfl, ht⟩ := prefix_next h hx
            rcases ht with rfl | ⟨t', rfl⟩
            · exact absurd (by simpa using hee.1.1) hnl
            · obtain ⟨lim, b, s', h1, h2, _⟩ := lookup_upto (strptime := strptime) (svn := svn) (eph := eph) ifrqn prn he hee.1 (Or.inr ⟨t', rfl⟩) (r0 :: recs)
                (by simp; omega) hwf hno junk part2 s hs hc
              rw [if_pos ⟨by simp, Or.inl hee.2⟩] at h1
              exact ⟨s', h1, h2⟩
        | part3 l t =>
          rcases List.prefix_or_prefix_of_prefix hx (show l <+: BernEnd.text (.part3 l t) from ⟨_, rfl⟩) with h | h
          · exact absurd (fun hh => hee.1.1 (h.subset hh)) hnl
          · obtain ⟨tl, rfl, ht⟩ := prefix_next h hx
            rcases ht with rfl | ⟨t', rfl⟩
            · exact absurd (by simpa using hee.1.1) hnl
            · obtain ⟨lim, b, s', h1, h2, _⟩ := lookup_upto (strptime := strptime) (svn := svn) (eph := eph) ifrqn prn he hee.1 (Or.inr ⟨t', rfl⟩) (r0 :: recs)
                (by simp; omega) hwf hno junk part2 s hs hc
              rw [if_pos ⟨by simp, Or.inr hee.2⟩] at h1
              exact ⟨s', h1, h2⟩
    | cons r rest ih =>
      intro hd hne hpre
      obtain ⟨x, hx⟩ := hpre
      have hxt : x <+: r.line ++ '\n' :: bernText rest e := by
        rw [← hx, hd] at hcut
        have : bernText (done ++ r :: rest) e = linesText (done.map (·.line)) ++ (r.line ++ '\n' :: bernText rest e) := by
          simp [bernText, linesText, linesText_cons]
        rw [this, List.prefix_append_right_inj] at hcut
        exact hcut
      have hrw := hwf r (by rw [hd]; simp)
      by_cases hl : r.line <+: x ∧ x ≠ r.line
      · obtain ⟨tl, rfl, ht⟩ := prefix_next hl.1 hxt
        rcases ht with rfl | ⟨t', rfl⟩
        · simp at hl
        · refine ih (done ++ [r]) (by rw [hd]; simp) (by simp) ?_
          rw [← hx]
          exact ⟨t', by simp [linesText]⟩
      · have hxl : x <+: r.line := by
          rcases List.prefix_or_prefix_of_prefix hxt (show r.line <+: r.line ++ '\n' :: bernText rest e from ⟨_, rfl⟩) with h | h
          · exact h
          · by_cases hxe : x = r.line
            · rw [hxe]
            · exact absurd ⟨h, hxe⟩ hl
        have hnl : '\n' ∉ x := fun hh => hrw.fits.1 (hxl.subset hh)
        have hsay := hlast x ⟨linesText (done.map (·.line)), hx.symm, Or.inr (linesText_last (by simpa using hne)), hnl⟩
        refine cut_none done hne ?_ (fun q hq => hwf q (by rw [hd]; simp [hq])) (fun q hq => hno q (by rw [hd]; simp [hq]))
          ⟨hnl, fun hh => hrw.fits.2.1 (hxl.subset hh), Nat.le_trans hxl.length_le hrw.fits.2.2⟩ hsay ifrqn prn junk part2 s hs (by rw [hc, hx]) he
        have := congrArg List.length hd
        simp at this
        omega
  exact key [r0] recs rfl (by simp) (by simpa [linesText] using hafter)

/-- **C89** (cut before the SVN).  A micro-wave record cut right at its SVN columns (or whose SVN columns hold no integer when cut) ends the lookup with status 2. -/
theorem C89_cut_at_svn_refused {strptime : List Char → Res DateTime} {svn : Int} {eph : DateTime} (pre : List BernRec) (hlen : pre.length < 1000)
    (hw : ∀ q ∈ pre, q.WF strptime) (hn : ∀ q ∈ pre, ¬ q.InForce svn eph) {u : List Char} (hl : MwLine u) (hbad : BadInt (u.drop 28))
    (ifrqn prn : Int) (junk : List Char) (part2 : Nat) (s : Stream) (hs : s.fail = false)
    (hc : s.content.drop part2 = linesText (pre.map (·.line)) ++ u) {errno : Int} (he : errno ≠ ERANGE) :
    BernSays (getFrequencyChannel strptime junk part2 svn eph ifrqn prn s errno) s 2 ifrqn prn 0 := by
  obtain ⟨lim, b, s', h1, h2, h3, h4, h5⟩ := lookup_upto (strptime := strptime) (svn := svn) (eph := eph) (tail := []) ifrqn prn he hl.fits (Or.inl rfl) pre hlen hw hn
    junk part2 s hs (by rw [hc]; simp)
  have h28 := hl.long
  rw [if_neg (by
    rintro ⟨_, h | h⟩
    · omega
    · exact hl.notPart3 h)] at h1
  obtain ⟨p, hp, hq⟩ := strtolA_badInt hl.long hbad (b.drop (u.length + 1))
  have hp' : strtolA ((fillLine b u).drop 28) = .ok p := hp
  have hline : bernLine strptime svn eph ifrqn prn (fillLine b u) errno = .ok (.inr (2, ifrqn, prn, 0)) := by
    unfold bernLine
    simp only [getAt_fill hl.m, getAt_fill hl.w, Res.bind_ok, and_self, if_true, hp']
    rw [if_pos]
    · rfl
    · rcases hq with hq | hq
      · exact Or.inr hq
      · left; rw [if_pos hq]
  refine ⟨s', by rw [h1, bernLoop_inr hline], ?_, h2⟩
  rw [h3]
  cases u with
  | nil => simp at h28
  | cons a as => rfl

theorem not_part3_of_mw {u : List Char} (hm : u[5]? = some 'M') : u.take 6 ≠ c!"PART 3" := by
  intro h3
  have h1 : (u.take 6)[5]? = u[5]? := by rw [List.getElem?_take]; rfl
  rw [h3, hm] at h1
  exact absurd h1 (by decide)

/-- **C89** (what is not noticed, 1).  A record in force cut off after its times of validity and before its channel is answered with status 0 and the channel of
the record before it. -/
theorem C89_cut_before_channel {strptime : List Char → Res DateTime} {svn : Int} {eph : DateTime} (pre : List BernRec) (last : BernRec) (hlen : pre.length < 999)
    (hw : ∀ q ∈ pre ++ [last], q.WF strptime) (hn : ∀ q ∈ pre ++ [last], ¬ q.InForce svn eph)
    {v : Nat} {start : DateTime} {stop : Option DateTime} {lp : Nat} {ch : Int} (hlast : last.mw = some (v, start, stop, lp, ch))
    {u : List Char} (h : MwInForce strptime u svn eph) (hshort : u.length < 193) {p : Nat} (hp : NatAt u 0 p)
    (ifrqn prn : Int) (junk : List Char) (part2 : Nat) (s : Stream) (hs : s.fail = false)
    (hc : s.content.drop part2 = linesText ((pre ++ [last]).map (·.line)) ++ u) {errno : Int} (he : errno ≠ ERANGE) :
    BernSays (getFrequencyChannel strptime junk part2 svn eph ifrqn prn s errno) s 0 ch p errno := by
  obtain ⟨lim, b, s', h1, h2, h3, h4, h5⟩ := lookup_upto (strptime := strptime) (svn := svn) (eph := eph) (tail := []) ifrqn prn he h.line.fits (Or.inl rfl)
    (pre ++ [last]) (by simp; omega) hw hn junk part2 s hs (by rw [hc]; simp)
  have h82 := h.cols
  rw [if_neg (by
    rintro ⟨_, h' | h'⟩
    · omega
    · exact h.line.notPart3 h')] at h1
  obtain ⟨b', rfl⟩ := h5 last (by simp)
  obtain ⟨_, _, _, _, _, _, _, hch⟩ := (hw last (by simp)).isMw _ _ _ _ _ hlast
  obtain ⟨rp, hrp⟩ := strtol_nat (tail := (fillLine b' last.line).drop (u.length + 1)) hp
  have hp' : toInt32 (p : Int) = p := toInt32_nat hp.2.choose_spec.choose_spec.choose_spec.2.2.2.2.2
  have hq : strtolA (fillLine (fillLine b' last.line) u) = .ok (some ((p : Int), rp, false)) := hrp
  have hd : (fillLine (fillLine b' last.line) u).drop 193 = (fillLine b' last.line).drop 193 := drop_past_line hshort
  obtain ⟨rc, hrc⟩ := strtol_int (tail := b'.drop (last.line.length + 1)) hch
  have hr : strtolA ((fillLine (fillLine b' last.line) u).drop 193) = .ok (some (ch, rc, false)) := by rw [hd]; exact hrc
  have hc' : toInt32 ch = ch := by
    obtain ⟨_, _, _, _, _, _, _, _, _, _, hlo, hhi⟩ := hch
    exact toInt32_small (by omega) (by omega)
  refine ⟨s', ?_, ?_, h2⟩
  · rw [h1, bernLoop_inr (bernLine_inForce ifrqn prn he h _ hq hr), if_neg (by simp [strtolErr])]
    simp only [strtolVal, hp', hc']
  · rw [h3]
    cases u with
    | nil => simp at h82
    | cons a as => rfl

theorem bernStop_same {strptime : List Char → Res DateTime} {x y : List Char} {k : Nat} (hk : k ≤ 62) (h : x.drop k = y.drop k) :
    ∀ (n i : Nat), k ≤ i → bernStop strptime x n i = bernStop strptime y n i := by
  have h62 : x.drop 62 = y.drop 62 := by
    have := congrArg (List.drop (62 - k)) h
    simpa [List.drop_drop, show k + (62 - k) = 62 by omega] using this
  intro n
  induction n with
  | zero => intro i _; rfl
  | succ n ih =>
    intro i hi
    have hg : getAt x i = getAt y i := by
      have : x[i]? = y[i]? := by
        have := congrArg (fun l => l[i - k]?) h
        simpa [List.getElem?_drop, show k + (i - k) = i by omega] using this
      unfold getAt
      rw [this]
    unfold bernStop
    rw [hg, h62, ih (i + 1) (by omega)]

/-- **C89** (what is not noticed, 2).  When the file ends within or right after the SVN of a record, what is left of the number is taken for the SVN, and the
times of validity and the channel of the record before it are used: the lookup of such a satellite is answered with status 0. -/
theorem C89_cut_in_svn {strptime : List Char → Res DateTime} {svn : Int} {eph : DateTime} (pre : List BernRec) (last : BernRec) (hlen : pre.length < 999)
    (hw : ∀ q ∈ pre ++ [last], q.WF strptime) (hn : ∀ q ∈ pre ++ [last], ¬ q.InForce svn eph)
    {v : Nat} {start : DateTime} {stop : Option DateTime} {lp : Nat} {ch : Int} (hlast : last.mw = some (v, start, stop, lp, ch))
    (hin : start.total ≤ eph.total ∧ ∀ e, stop = some e → eph.total < e.total)
    {u : List Char} (hl : MwLine u) (hshort : u.length < 41) {p w : Nat} (hp : NatAt u 0 p) (hsvn : NatAt u 28 w) (hws : (w : Int) = svn)
    (ifrqn prn : Int) (junk : List Char) (part2 : Nat) (s : Stream) (hs : s.fail = false)
    (hc : s.content.drop part2 = linesText ((pre ++ [last]).map (·.line)) ++ u) {errno : Int} (he : errno ≠ ERANGE) :
    BernSays (getFrequencyChannel strptime junk part2 svn eph ifrqn prn s errno) s 0 ch p errno := by
  obtain ⟨lim, b, s', h1, h2, h3, h4, h5⟩ := lookup_upto (strptime := strptime) (svn := svn) (eph := eph) (tail := []) ifrqn prn he hl.fits (Or.inl rfl)
    (pre ++ [last]) (by simp; omega) hw hn junk part2 s hs (by rw [hc]; simp)
  have h28 := hl.long
  rw [if_neg (by
    rintro ⟨_, h' | h'⟩
    · omega
    · exact hl.notPart3 h')] at h1
  obtain ⟨b', rfl⟩ := h5 last (by simp)
  obtain ⟨_, _, _, hst, hsp, hlen82, _, hch⟩ := (hw last (by simp)).isMw _ _ _ _ _ hlast
  obtain ⟨rp, hrp⟩ := strtol_nat (tail := (fillLine b' last.line).drop (u.length + 1)) hp
  have hp' : toInt32 (p : Int) = p := toInt32_nat hp.2.choose_spec.choose_spec.choose_spec.2.2.2.2.2
  have hq : strtolA (fillLine (fillLine b' last.line) u) = .ok (some ((p : Int), rp, false)) := hrp
  obtain ⟨rv, hrv⟩ := strtol_nat (tail := (fillLine b' last.line).drop (u.length + 1)) hsvn
  have hsv : strtolA ((fillLine (fillLine b' last.line) u).drop 28) = .ok (some ((w : Int), rv, false)) := hrv
  have hw' : toInt32 (w : Int) = w := toInt32_nat hsvn.2.choose_spec.choose_spec.choose_spec.2.2.2.2.2
  have hd41 : (fillLine (fillLine b' last.line) u).drop 41 = (fillLine b' last.line).drop 41 := drop_past_line hshort
  have hd : (fillLine (fillLine b' last.line) u).drop 193 = (fillLine b' last.line).drop 193 := drop_past_line (by omega)
  obtain ⟨rc, hrc⟩ := strtol_int (tail := b'.drop (last.line.length + 1)) hch
  have hr : strtolA ((fillLine (fillLine b' last.line) u).drop 193) = .ok (some (ch, rc, false)) := by rw [hd]; exact hrc
  have hc' : toInt32 ch = ch := by
    obtain ⟨_, _, _, _, _, _, _, _, _, _, hlo, hhi⟩ := hch
    exact toInt32_small (by omega) (by omega)
  have hstart : strptime ((fillLine (fillLine b' last.line) u).drop 41) = .ok start := by rw [hd41]; exact hst _
  have hstop : bernStop strptime (fillLine (fillLine b' last.line) u) 20 62 = .ok stop := by
    rw [bernStop_same (k := 41) (by omega) hd41 20 62 (by omega)]
    cases stop with
    | none => exact bernStop_blank 20 62 hsp
    | some d =>
      obtain ⟨⟨i, c, hi⟩, hd⟩ := hsp
      exact bernStop_some (hd _) 20 62 (by omega) ⟨i, c, hi⟩
  have hb : beforeStop eph stop = true := by
    cases stop with
    | none => rfl
    | some e => simpa [beforeStop] using hin.2 e rfl
  refine ⟨s', ?_, ?_, h2⟩
  · have hline : bernLine strptime svn eph ifrqn prn (fillLine (fillLine b' last.line) u) errno = .ok (.inr (0, ch, (p : Int), errno)) := by
      unfold bernLine
      simp only [getAt_fill hl.m, getAt_fill hl.w, Res.bind_ok, and_self, if_true, hsv, strtolErr, strtolVal, hw', Bool.false_eq_true, if_false]
      rw [if_neg (by simp [he]), if_pos hws]
      simp only [hstart, hstop, Res.bind_ok]
      rw [if_pos ⟨hin.1, hb⟩]
      simp only [hq, hr, Res.bind_ok, strtolErr, strtolVal, Bool.false_eq_true, if_false, hp', hc']
      rw [if_neg he]
      rfl
    rw [h1, bernLoop_inr hline]
  · rw [h3]
    cases u with
    | nil => simp at h28
    | cons a as => rfl

end Ggnss
