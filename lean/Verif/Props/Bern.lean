import Verif.Model.Bern
import Verif.Spec.Bern
import Verif.Lemmas.Columns
import Verif.Lemmas.Stream
import Verif.Lemmas.Nav
import Verif.Props.Sp3
/-!
# C34, C49: lookup of GLONASS channels in Bernese SATELLIT files
-/
namespace Ggnss

theorem strtol_int {l tail : List Char} {off : Nat} {v : Int} (h : IntAt l off v) :
    ∃ r, strtolA ((l ++ NUL :: tail).drop off) = .ok (some (v, r, false)) := by
  obtain ⟨h0, k, neg, ds, rest, h1, h2, h3, h4, h5, h7, h8⟩ := h
  have hnd : ∀ c, (rest ++ NUL :: tail).head? = some c → c.isDigit = false :=
    head_append_nul rest tail (fun c => c.isDigit = false) h4 (by decide)
  rw [drop_line h0, h1]
  unfold strtolA
  rw [if_pos (by simp)]
  have hd : ∀ c, (ds ++ (rest ++ NUL :: tail)).head? = some c → c.isDigit = true := fun c hc =>
    h2 c (head_digits_append h3 hc)
  have hb : (List.replicate k ' ' ++ ((if neg then ['-'] else []) ++ (ds ++ rest)) ++ NUL :: tail).dropWhile isSpace
      = (if neg then ['-'] else []) ++ (ds ++ (rest ++ NUL :: tail)) := by
    have : List.replicate k ' ' ++ ((if neg then ['-'] else []) ++ (ds ++ rest)) ++ NUL :: tail =
      List.replicate k ' ' ++ ((if neg then ['-'] else []) ++ (ds ++ (rest ++ NUL :: tail))) := by simp
    rw [this]
    apply dropWhile_blanks
    intro c hc
    cases neg with
    | true => simp at hc; subst hc; decide
    | false => exact isDigit_not_space c (hd c (by simpa using hc))
  have hs : takeSign ((if neg then ['-'] else []) ++ (ds ++ (rest ++ NUL :: tail))) =
      (neg, ds ++ (rest ++ NUL :: tail)) := by
    cases neg with
    | true => rfl
    | false => exact takeSign_other _ (fun c hc => isDigit_not_sign c (hd c (by simpa using hc)))
  obtain ⟨ht, hdr⟩ := takeWhile_digits ds (rest ++ NUL :: tail) h2 hnd
  unfold strtol
  simp only [hb, hs, ht, hdr]
  rw [if_neg h3]
  unfold digitsVal
  rw [← h5]
  refine ⟨rest ++ NUL :: tail, ?_⟩
  rw [if_neg (by unfold LONG_MAX; omega), if_neg (by unfold LONG_MIN; omega)]

theorem strncmpEq_line {l buf pat : List Char} (n : Nat) (hl : NUL ∉ l) (hp : IsCStr pat) :
    strncmpEq n (cArr pat) (fillLine buf l) = .ok (decide (pat.take n = l.take n)) := by
  unfold cArr fillLine
  exact strncmpEq_cstr n pat l [] _ hp hl

theorem getAt_fill {l buf : List Char} {i : Nat} {c : Char} (h : l[i]? = some c) :
    getAt (fillLine buf l) i = .ok c := by
  obtain ⟨hi, rfl⟩ := List.getElem?_eq_some_iff.1 h
  exact getAt_append_left hi

theorem bernStop_blank {strptime : List Char → Res DateTime} {l buf : List Char} :
    ∀ (n i : Nat), BlankCols l i (i + n) → bernStop strptime (fillLine buf l) n i = .ok none := by
  intro n
  induction n with
  | zero => intro i _; rfl
  | succ n ih =>
    intro i h
    unfold bernStop
    rw [getAt_fill (h i (Nat.le_refl _) (by omega))]
    simp only [Res.bind_ok, ne_eq, not_true_eq_false, if_false]
    exact ih (i + 1) (fun j hj hj' => h j (by omega) (by omega))

theorem bernStop_some {strptime : List Char → Res DateTime} {l buf : List Char} {d : DateTime}
    (hd : strptime ((fillLine buf l).drop 62) = .ok d) :
    ∀ (n i : Nat), i + n ≤ l.length → (∃ j c, i ≤ j ∧ j < i + n ∧ l[j]? = some c ∧ c ≠ ' ') →
    bernStop strptime (fillLine buf l) n i = .ok (some d) := by
  intro n
  induction n with
  | zero => rintro i _ ⟨j, c, h1, h2, _⟩; omega
  | succ n ih =>
    rintro i hl ⟨j, c, h1, h2, h3, h4⟩
    unfold bernStop
    have hi : i < l.length := by omega
    rw [getAt_fill (List.getElem?_eq_getElem hi)]
    simp only [Res.bind_ok]
    by_cases hc : l[i] = ' '
    · rw [if_neg (by simpa using hc)]
      apply ih (i + 1) (by omega)
      refine ⟨j, c, ?_, by omega, h3, h4⟩
      rcases Nat.lt_or_ge i j with h | h
      · exact h
      · have hij : i = j := by omega
        subst hij
        rw [List.getElem?_eq_getElem hi] at h3
        simp only [Option.some.injEq] at h3
        rw [← h3] at h4
        exact absurd hc h4
    · rw [if_pos hc, hd]
      rfl

/-- One well-formed record line: it ends the search exactly when it is in force. -/
theorem bernLine_rec {strptime : List Char → Res DateTime} {r : BernRec} (hr : r.WF strptime)
    (svn : Int) (eph : DateTime) (ifrqn prn : Int) (buf : List Char) {errno : Int} (he : errno ≠ ERANGE) :
    (¬ r.InForce svn eph ∧ bernLine strptime svn eph ifrqn prn (fillLine buf r.line) errno = .ok (.inl errno)) ∨
    (r.InForce svn eph ∧ ∃ v start stop p ch, r.mw = some (v, start, stop, p, ch) ∧
      bernLine strptime svn eph ifrqn prn (fillLine buf r.line) errno = .ok (.inr (0, ch, (p : Int), errno))) := by
  have hlen := hr.long
  have h5 : 5 < r.line.length := by omega
  have h6 : 6 < r.line.length := by omega
  have g5 := getAt_fill (buf := buf) (List.getElem?_eq_getElem h5)
  have g6 := getAt_fill (buf := buf) (List.getElem?_eq_getElem h6)
  unfold bernLine
  simp only [g5, g6, Res.bind_ok]
  match hm : r.mw with
  | none =>
    have := hr.other hm
    rw [List.getElem?_eq_getElem h5, List.getElem?_eq_getElem h6] at this
    simp only [Option.some.injEq] at this
    rw [if_neg this]
    left
    refine ⟨?_, rfl⟩
    rintro ⟨_, _, _, _, _, h, _⟩
    rw [hm] at h
    exact absurd h (by simp)
  | some (v, start, stop, p, ch) =>
    obtain ⟨m5, m6, hv, hst, hsp, h82, hp, hc⟩ := hr.isMw _ _ _ _ _ hm
    rw [List.getElem?_eq_getElem h5] at m5
    rw [List.getElem?_eq_getElem h6] at m6
    simp only [Option.some.injEq] at m5 m6
    rw [if_pos ⟨m5, m6⟩]
    obtain ⟨rv, hrv⟩ := strtol_nat (tail := buf.drop (r.line.length + 1)) hv
    obtain ⟨rp, hrp⟩ := strtol_nat (tail := buf.drop (r.line.length + 1)) hp
    obtain ⟨rc, hrc⟩ := strtol_int (tail := buf.drop (r.line.length + 1)) hc
    have hv' : toInt32 (v : Int) = v := toInt32_nat hv.2.choose_spec.choose_spec.choose_spec.2.2.2.2.2
    have hp' : toInt32 (p : Int) = p := toInt32_nat hp.2.choose_spec.choose_spec.choose_spec.2.2.2.2.2
    have hc' : toInt32 ch = ch := by
      obtain ⟨_, _, _, _, _, _, _, _, _, _, hlo, hhi⟩ := hc
      exact toInt32_small (by omega) (by omega)
    have hdrop0 : ((fillLine buf r.line).drop 0) = fillLine buf r.line := rfl
    have hstart : strptime ((fillLine buf r.line).drop 41) = .ok start := hst _
    have hstop : bernStop strptime (fillLine buf r.line) 20 62 = .ok stop := by
      cases stop with
      | none => exact bernStop_blank 20 62 hsp
      | some d =>
        obtain ⟨⟨i, c, hi⟩, hd⟩ := hsp
        exact bernStop_some (hd _) 20 62 (by omega) ⟨i, c, hi⟩
    have hq : strtolA (fillLine buf r.line) = .ok (some ((p : Int), rp, false)) := hrp
    have hv1 : strtolA ((fillLine buf r.line).drop 28) = .ok (some ((v : Int), rv, false)) := hrv
    have hc1 : strtolA ((fillLine buf r.line).drop 193) = .ok (some (ch, rc, false)) := hrc
    simp only [hv1, Res.bind_ok, strtolErr, strtolVal, hv', Bool.false_eq_true, if_false]
    rw [if_neg (by simp [he])]
    by_cases hsv : (v : Int) = svn
    · rw [if_pos hsv]
      simp only [hstart, hstop, Res.bind_ok]
      by_cases hin : start.total ≤ eph.total ∧ beforeStop eph stop = true
      · rw [if_pos hin]
        right
        simp only [hq, hc1, Res.bind_ok, Bool.false_eq_true, if_false, hp', hc']
        rw [if_neg he]
        refine ⟨⟨v, start, stop, p, ch, hm, hsv, hin.1, ?_⟩, v, start, stop, p, ch, rfl, rfl⟩
        rintro e rfl
        simpa [beforeStop] using hin.2
      · rw [if_neg hin]
        left
        refine ⟨?_, rfl⟩
        rintro ⟨v', start', stop', p', ch', h1, h2, h3, h4⟩
        rw [hm] at h1
        simp only [Option.some.injEq, Prod.mk.injEq] at h1
        obtain ⟨rfl, rfl, rfl, rfl, rfl⟩ := h1
        apply hin
        refine ⟨h3, ?_⟩
        cases stop with
        | none => rfl
        | some d => simpa [beforeStop] using h4 d rfl
    · rw [if_neg hsv]
      left
      refine ⟨?_, rfl⟩
      rintro ⟨v', start', stop', p', ch', h1, h2, h3, h4⟩
      rw [hm] at h1
      simp only [Option.some.injEq, Prod.mk.injEq] at h1
      obtain ⟨rfl, _⟩ := h1
      exact hsv h2

theorem bernText_cons (r : BernRec) (rs : List BernRec) (e : BernEnd) :
    bernText (r :: rs) e = r.line ++ '\n' :: bernText rs e := by
  simp [bernText, linesText_cons]

theorem cstrOf_fill {l buf : List Char} (h : NUL ∉ l) : cstrOf (fillLine buf l) = .ok l :=
  cstrOf_append h _

theorem bernLoop_recs {strptime : List Char → Res DateTime} (svn : Int) (eph : DateTime) (ifrqn prn : Int)
    {e : BernEnd} (hee : e.WF) {errno : Int} (he : errno ≠ ERANGE) :
    ∀ (lim : Nat) (r : BernRec) (rs : List BernRec), (∀ q ∈ r :: rs, q.WF strptime) →
    ∀ (buf : List Char) (s : Stream), s.good = true → s.rest = bernText rs e →
    ∃ st fr pr s', bernLoop strptime svn eph ifrqn prn lim (fillLine buf r.line) s errno = .ok ⟨st, fr, pr, s', errno⟩ ∧
      s'.content = s.content ∧ (e ≠ .eof → s'.fail = false) ∧
      BernAnswer (r :: rs) lim svn eph ifrqn prn st fr pr := by
  intro lim
  induction lim with
  | zero =>
    intro r rs _ buf s hg _
    exact ⟨-1, ifrqn, prn, s, rfl, rfl, fun _ => ((Stream.good_iff s).1 hg).2,
      Or.inr ⟨fun i hi => absurd hi (Nat.not_lt_zero i), rfl, rfl, rfl⟩⟩
  | succ lim ih =>
    intro r rs hwf buf s hg hr
    unfold bernLoop
    rcases bernLine_rec (hwf r (by simp)) svn eph ifrqn prn buf he with ⟨hno, hl⟩ | ⟨hin, v, start, stop, p, ch, hm, hl⟩
    · simp only [hl, Res.bind_ok]
      cases rs with
      | nil =>
        -- the end of the records
        have hans : BernAnswer [r] (lim + 1) svn eph ifrqn prn (-1) ifrqn prn := by
          right
          refine ⟨?_, rfl, rfl, rfl⟩
          intro i _ q hq
          cases i with
          | zero => simp only [List.getElem?_cons_zero, Option.some.injEq] at hq; subst hq; exact hno
          | succ i => simp at hq
        have hfail := ((Stream.good_iff s).1 hg).2
        cases e with
        | short l rest =>
          have hgl := Stream.getline_line (n := MAX_SATELLIT_CHARS) hg (l := l) (tail := rest)
            (by rw [hr]; simp [bernText, BernEnd.text, linesText]) hee.1.1 hee.1.2.2
          simp only [hgl, cstrOf_fill hee.1.2.1, Res.bind_ok,
            strncmpEq_line (pat := c!"PART 3") 6 hee.1.2.1 (by decide)]
          rw [if_pos (Or.inl hee.2)]
          exact ⟨_, _, _, _, rfl, rfl, fun _ => hfail, hans⟩
        | part3 l rest =>
          have hgl := Stream.getline_line (n := MAX_SATELLIT_CHARS) hg (l := l) (tail := rest)
            (by rw [hr]; simp [bernText, BernEnd.text, linesText]) hee.1.1 hee.1.2.2
          simp only [hgl, cstrOf_fill hee.1.2.1, Res.bind_ok,
            strncmpEq_line (pat := c!"PART 3") 6 hee.1.2.1 (by decide)]
          have h3 : (decide (List.take 6 c!"PART 3" = List.take 6 l)) = true := by
            rw [hee.2]; rfl
          rw [if_pos (Or.inr h3)]
          exact ⟨_, _, _, _, rfl, rfl, fun _ => hfail, hans⟩
        | eof =>
          have hgl := Stream.getline_last (n := MAX_SATELLIT_CHARS) hg (l := [])
            (by rw [hr]; simp [bernText, BernEnd.text, linesText]) (by simp) (by simp)
          have hnn : NUL ∉ ([] : List Char) := by simp
          simp only [hgl, cstrOf_fill hnn, Res.bind_ok,
            strncmpEq_line (pat := c!"PART 3") 6 hnn (by decide)]
          rw [if_pos (Or.inl (by simp))]
          exact ⟨_, _, _, _, rfl, rfl, fun h => absurd rfl h, hans⟩
      | cons r2 rs =>
        have hw2 := hwf r2 (by simp)
        have hf2 := hw2.fits
        rw [bernText_cons] at hr
        have hgl := Stream.getline_line (n := MAX_SATELLIT_CHARS) hg hr hf2.1 hf2.2.2
        simp only [hgl, cstrOf_fill hf2.2.1, Res.bind_ok,
            strncmpEq_line (pat := c!"PART 3") 6 hf2.2.1 (by decide)]
        have h3 : (decide (List.take 6 c!"PART 3" = List.take 6 r2.line)) = false := by
          rw [decide_eq_false_iff_not]
          intro h
          exact hw2.notPart3 h.symm
        rw [if_neg (by rw [h3]; have := hw2.long; simp; omega)]
        have hrest : (s.adv (r2.line.length + 1)).rest = bernText rs e := by
          have := Stream.adv_rest_append (s := s) (a := r2.line ++ ['\n']) (b := bernText rs e) (by rw [hr]; simp)
          simpa using this
        obtain ⟨st, fr, pr, s', h1, h2, h4, h5⟩ := ih r2 rs (fun q hq => hwf q (by simp at hq ⊢; right; exact hq))
          (fillLine buf r.line) (s.adv (r2.line.length + 1)) hg hrest
        refine ⟨st, fr, pr, s', h1, h2, h4, ?_⟩
        rcases h5 with ⟨i, q, v, start, stop, p, ch, hi, hq, hin, hb, hm, hs⟩ | ⟨hno2, hs⟩
        · left
          refine ⟨i + 1, q, v, start, stop, p, ch, by omega, by simpa using hq, hin, ?_, hm, hs⟩
          intro j hj q' hq'
          cases j with
          | zero => simp only [List.getElem?_cons_zero, Option.some.injEq] at hq'; subst hq'; exact hno
          | succ j => exact hb j (by omega) q' (by simpa using hq')
        · right
          refine ⟨?_, hs⟩
          intro i hi q hq
          cases i with
          | zero => simp only [List.getElem?_cons_zero, Option.some.injEq] at hq; subst hq; exact hno
          | succ i => exact hno2 i (by omega) q (by simpa using hq)
    · simp only [hl, Res.bind_ok]
      refine ⟨_, _, _, _, rfl, rfl, fun _ => ((Stream.good_iff s).1 hg).2, Or.inl ?_⟩
      exact ⟨0, r, v, start, stop, p, ch, by omega, by simp, hin, fun j hj => absurd hj (Nat.not_lt_zero j), hm, rfl, rfl, rfl⟩

/-- **C34**.  On a SATELLIT file whose records block `recs` is well formed and not empty, a lookup of
satellite `svn` at epoch `eph` returns PRN and channel of the first of the first thousand records
that is in force, or -1 with the outputs untouched when none of these is.
Missing: records after the thousandth are not searched (`C34_beyond_limit`). -/
theorem C34_lookup_partial {strptime : List Char → Res DateTime} (recs : List BernRec) (hne : recs ≠ [])
    (hwf : ∀ r ∈ recs, r.WF strptime) {e : BernEnd} (hee : e.WF) (svn : Int) (eph : DateTime)
    (ifrqn prn : Int) (junk : List Char) (part2 : Nat) (s : Stream) (hs : s.fail = false)
    (hc : s.content.drop part2 = bernText recs e) {errno : Int} (he : errno ≠ ERANGE) :
    ∃ st fr pr s', getFrequencyChannel strptime junk part2 svn eph ifrqn prn s errno = .ok ⟨st, fr, pr, s', errno⟩ ∧
      BernAnswer recs 1000 svn eph ifrqn prn st fr pr ∧
      s'.content = s.content ∧ (e ≠ .eof → s'.fail = false) := by
  cases recs with
  | nil => exact absurd rfl hne
  | cons r rs =>
    have hf := (hwf r (by simp)).fits
    have hsk : s.seekg part2 = ⟨s.content, part2, false, false⟩ := by
      unfold Stream.seekg; rw [hs]; simp
    have hg : (⟨s.content, part2, false, false⟩ : Stream).good = true := rfl
    have hr : (⟨s.content, part2, false, false⟩ : Stream).rest = r.line ++ '\n' :: bernText rs e := by
      rw [← bernText_cons]; exact hc
    have hgl := Stream.getline_line (n := MAX_SATELLIT_CHARS) hg hr hf.1 hf.2.2
    have hrest := Stream.adv_rest_append (s := ⟨s.content, part2, false, false⟩) (a := r.line ++ ['\n']) (b := bernText rs e) (by rw [hr]; simp)
    unfold getFrequencyChannel
    rw [hsk]
    simp only [hgl]
    obtain ⟨st, fr, pr, s', h1, h2, h3, h4⟩ := bernLoop_recs (strptime := strptime) svn eph ifrqn prn hee he 1000 r rs hwf
      junk ((⟨s.content, part2, false, false⟩ : Stream).adv (r.line.length + 1)) hg (by simpa using hrest)
    exact ⟨st, fr, pr, s', h1, h4, h2, h3⟩

/-- What is missing in `C34_lookup_partial`: a file with a thousand records that are not in force
answers "not found", whatever records follow. -/
theorem C34_beyond_limit {strptime : List Char → Res DateTime} (recs more : List BernRec)
    (hn : recs.length = 1000)
    (hwf : ∀ r ∈ recs ++ more, r.WF strptime) {e : BernEnd} (hee : e.WF) (svn : Int) (eph : DateTime)
    (hno : ∀ r ∈ recs, ¬ r.InForce svn eph)
    (ifrqn prn : Int) (junk : List Char) (part2 : Nat) (s : Stream) (hs : s.fail = false)
    (hc : s.content.drop part2 = bernText (recs ++ more) e) {errno : Int} (he : errno ≠ ERANGE) :
    ∃ s', getFrequencyChannel strptime junk part2 svn eph ifrqn prn s errno = .ok ⟨-1, ifrqn, prn, s', errno⟩ := by
  obtain ⟨st, fr, pr, s', h1, h2, _⟩ := C34_lookup_partial (recs ++ more)
    (by intro h; have := congrArg List.length h; simp [hn] at this) hwf hee svn eph ifrqn prn junk part2 s hs hc he
  rcases h2 with ⟨i, r, v, start, stop, p, ch, hi, hr, hin, _⟩ | ⟨_, rfl, rfl, rfl⟩
  · rw [List.getElem?_append_left (by omega)] at hr
    exact absurd hin (hno r (List.mem_of_getElem? hr))
  · exact ⟨s', h1⟩

/-- A lookup request: indeterminate array content, satellite, epoch, initial values of the outputs. -/
structure BernQuery where
  junk : List Char
  svn : Int
  eph : DateTime
  ifrqn : Int
  prn : Int

def BernQuery.run (strptime : List Char → Res DateTime) (part2 : Nat) (q : BernQuery) (s : Stream) (errno : Int) :
    Res BernOut :=
  getFrequencyChannel strptime q.junk part2 q.svn q.eph q.ifrqn q.prn s errno

/-- A sequence of lookups on one object: stream and `errno` afterwards. -/
def bernRuns (strptime : List Char → Res DateTime) (part2 : Nat) : List BernQuery → Stream → Int → Res (Stream × Int)
  | [], s, errno => .ok (s, errno)
  | q :: qs, s, errno => do
      let o ← q.run strptime part2 s errno
      bernRuns strptime part2 qs o.strm o.errno

/-- **C49**.  If something (a blank line, 'PART 3') follows the records, then after any sequence of
lookups the next lookup gives exactly the result it would have given as the first one. -/
theorem C49_history_independent_partial {strptime : List Char → Res DateTime} (recs : List BernRec) (hne : recs ≠ [])
    (hwf : ∀ r ∈ recs, r.WF strptime) {e : BernEnd} (hee : e.WF) (hend : e ≠ .eof) (part2 : Nat)
    (qs : List BernQuery) (q : BernQuery) (s : Stream) (hs : s.fail = false)
    (hc : s.content.drop part2 = bernText recs e) {errno : Int} (he : errno ≠ ERANGE) :
    ∃ s', bernRuns strptime part2 qs s errno = .ok (s', errno) ∧
      q.run strptime part2 s' errno = q.run strptime part2 s errno := by
  have key : ∃ s', bernRuns strptime part2 qs s errno = .ok (s', errno) ∧ s'.fail = false ∧ s'.content = s.content := by
    induction qs generalizing s with
    | nil => exact ⟨s, rfl, hs, rfl⟩
    | cons a qs ih =>
      obtain ⟨st, fr, pr, s1, h1, _, h3, h4⟩ := C34_lookup_partial recs hne hwf hee a.svn a.eph a.ifrqn a.prn a.junk part2 s hs hc he
      obtain ⟨s2, k1, k2, k3⟩ := ih s1 (h4 hend) (by rw [h3]; exact hc)
      refine ⟨s2, ?_, k2, by rw [k3, h3]⟩
      unfold bernRuns BernQuery.run
      rw [h1]
      exact k1
  obtain ⟨s', h1, h2, h3⟩ := key
  refine ⟨s', h1, ?_⟩
  unfold BernQuery.run getFrequencyChannel Stream.seekg
  rw [hs, h2, h3]
  simp

/-- A lookup that finds nothing among (at most a thousand) records that reach to the end of the file leaves the stream failed. -/
theorem lookup_none_eof {strptime : List Char → Res DateTime} (recs : List BernRec) (hne : recs ≠ [])
    (hlen : recs.length ≤ 1000)
    (hwf : ∀ r ∈ recs, r.WF strptime) (part2 : Nat)
    (q1 : BernQuery) (s : Stream) (hs : s.fail = false)
    (hno : ∀ r ∈ recs, ¬ r.InForce q1.svn q1.eph)
    (hc : s.content.drop part2 = bernText recs .eof) {errno : Int} (he : errno ≠ ERANGE) :
    ∃ s1, q1.run strptime part2 s errno = .ok ⟨-1, q1.ifrqn, q1.prn, s1, errno⟩ ∧ s1.fail = true := by
  have loop : ∀ (lim : Nat) (r : BernRec) (rs : List BernRec), rs.length < lim → (∀ q ∈ r :: rs, q.WF strptime) →
      (∀ q ∈ r :: rs, ¬ q.InForce q1.svn q1.eph) →
      ∀ (buf : List Char) (s : Stream), s.good = true → s.rest = bernText rs .eof →
      ∃ s', bernLoop strptime q1.svn q1.eph q1.ifrqn q1.prn lim (fillLine buf r.line) s errno =
        .ok ⟨-1, q1.ifrqn, q1.prn, s', errno⟩ ∧ s'.fail = true := by
    intro lim
    induction lim with
    | zero => intro r rs h; omega
    | succ lim ih =>
      intro r rs hl hw hn buf s hg hr
      unfold bernLoop
      rcases bernLine_rec (hw r (by simp)) q1.svn q1.eph q1.ifrqn q1.prn buf he with ⟨_, hl1⟩ | ⟨hin, _⟩
      · simp only [hl1, Res.bind_ok]
        cases rs with
        | nil =>
          have hgl := Stream.getline_last (n := MAX_SATELLIT_CHARS) hg (l := [])
            (by rw [hr]; simp [bernText, BernEnd.text, linesText]) (by simp) (by simp)
          have hnn : NUL ∉ ([] : List Char) := by simp
          simp only [hgl, cstrOf_fill hnn, Res.bind_ok,
            strncmpEq_line (pat := c!"PART 3") 6 hnn (by decide)]
          rw [if_pos (Or.inl (by simp))]
          exact ⟨_, rfl, rfl⟩
        | cons r2 rs =>
          have hw2 := hw r2 (by simp)
          have hf2 := hw2.fits
          rw [bernText_cons] at hr
          have hgl := Stream.getline_line (n := MAX_SATELLIT_CHARS) hg hr hf2.1 hf2.2.2
          simp only [hgl, cstrOf_fill hf2.2.1, Res.bind_ok,
              strncmpEq_line (pat := c!"PART 3") 6 hf2.2.1 (by decide)]
          have h3 : (decide (List.take 6 c!"PART 3" = List.take 6 r2.line)) = false := by
            rw [decide_eq_false_iff_not]
            intro h
            exact hw2.notPart3 h.symm
          rw [if_neg (by rw [h3]; have := hw2.long; simp; omega)]
          have hrest : (s.adv (r2.line.length + 1)).rest = bernText rs .eof := by
            have := Stream.adv_rest_append (s := s) (a := r2.line ++ ['\n']) (b := bernText rs .eof) (by rw [hr]; simp)
            simpa using this
          exact ih r2 rs (by simp at hl; omega) (fun q hq => hw q (by simp at hq ⊢; right; exact hq))
            (fun q hq => hn q (by simp at hq ⊢; right; exact hq))
            (fillLine buf r.line) (s.adv (r2.line.length + 1)) hg hrest
      · exact absurd hin (hn r (by simp))
  cases recs with
  | nil => exact absurd rfl hne
  | cons r rs =>
    have hf := (hwf r (by simp)).fits
    have hsk : s.seekg part2 = ⟨s.content, part2, false, false⟩ := by
      unfold Stream.seekg; rw [hs]; simp
    have hg : (⟨s.content, part2, false, false⟩ : Stream).good = true := rfl
    have hr : (⟨s.content, part2, false, false⟩ : Stream).rest = r.line ++ '\n' :: bernText rs .eof := by
      rw [← bernText_cons]; exact hc
    have hgl := Stream.getline_line (n := MAX_SATELLIT_CHARS) hg hr hf.1 hf.2.2
    have hrest := Stream.adv_rest_append (s := ⟨s.content, part2, false, false⟩) (a := r.line ++ ['\n']) (b := bernText rs .eof) (by rw [hr]; simp)
    obtain ⟨s1, h1, h2⟩ := loop 1000 r rs (by simp at hlen; omega) hwf hno
      q1.junk ((⟨s.content, part2, false, false⟩ : Stream).adv (r.line.length + 1)) hg (by simpa using hrest)
    refine ⟨s1, ?_, h2⟩
    unfold BernQuery.run getFrequencyChannel
    rw [hsk]
    simp only [hgl]
    exact h1

/-- A lookup on a failed stream finds nothing and leaves the stream failed (unless the indeterminate array looks like a micro-wave record). -/
theorem lookup_spoiled {strptime : List Char → Res DateTime} (part2 : Nat) (q2 : BernQuery) (s1 : Stream) (h2 : s1.fail = true) (errno : Int)
    (hj : ∃ c, q2.junk[5]? = some c ∧ c ≠ 'M') (hj6 : 6 < q2.junk.length) :
    ∃ s2, q2.run strptime part2 s1 errno = .ok ⟨-1, q2.ifrqn, q2.prn, s2, errno⟩ ∧ s2.fail = true := by
  have hsk2 : s1.seekg part2 = { s1 with eof := false } := by unfold Stream.seekg; rw [h2]; simp
  have hb2 : ({ s1 with eof := false } : Stream).good = false := by unfold Stream.good; simp [h2]
  obtain ⟨c, hc5, hcM⟩ := hj
  refine ⟨{ s1 with eof := false, fail := true }, ?_, rfl⟩
  unfold BernQuery.run getFrequencyChannel
  rw [hsk2]
  simp only [Stream.getline_bad hb2]
  have hnn : NUL ∉ ([] : List Char) := by simp
  have g5 : getAt (fillLine q2.junk []) 5 = .ok c := by
    unfold getAt fillLine
    have : ([] ++ NUL :: q2.junk.drop (([] : List Char).length + 1))[5]? = some c := by
      simpa using hc5
    rw [this]
  have g6 : getAt (fillLine q2.junk []) 6 = .ok q2.junk[6] := by
    unfold getAt fillLine
    have : ([] ++ NUL :: q2.junk.drop (([] : List Char).length + 1))[6]? = some q2.junk[6] := by
      simp
    rw [this]
  have hbl : bernLine strptime q2.svn q2.eph q2.ifrqn q2.prn (fillLine q2.junk []) errno = .ok (.inl errno) := by
    unfold bernLine
    simp only [g5, g6, Res.bind_ok]
    rw [if_neg (by simp [hcM])]
    rfl
  unfold bernLoop
  simp only [hbl, Res.bind_ok]
  have hb3 : ({ s1 with eof := false, fail := true } : Stream).good = false := by unfold Stream.good; simp
  simp only [Stream.getline_bad hb3, cstrOf_fill hnn, Res.bind_ok, strncmpEq_line (pat := c!"PART 3") 6 hnn (by decide)]
  rw [if_pos (Or.inl (by simp))]
  rfl

/-- What is missing in C49: when the records reach to the end of the file, a lookup that finds
nothing leaves the stream failed, and every later lookup answers "not found" (or looks at
indeterminate bytes), even for a satellite with a record in force. -/
theorem C49_failed_lookup_spoils_object {strptime : List Char → Res DateTime} (recs : List BernRec) (hne : recs ≠ [])
    (hlen : recs.length < 1000)
    (hwf : ∀ r ∈ recs, r.WF strptime) (part2 : Nat)
    (q1 q2 : BernQuery) (s : Stream) (hs : s.fail = false)
    (hno : ∀ r ∈ recs, ¬ r.InForce q1.svn q1.eph)
    (hc : s.content.drop part2 = bernText recs .eof) {errno : Int} (he : errno ≠ ERANGE)
    (hj : ∃ c, q2.junk[5]? = some c ∧ c ≠ 'M') (hj6 : 6 < q2.junk.length) :
    ∃ s1 s2, q1.run strptime part2 s errno = .ok ⟨-1, q1.ifrqn, q1.prn, s1, errno⟩ ∧
      q2.run strptime part2 s1 errno = .ok ⟨-1, q2.ifrqn, q2.prn, s2, errno⟩ := by
  obtain ⟨s1, h1, h2⟩ := lookup_none_eof recs hne (by omega) hwf part2 q1 s hs hno hc he
  obtain ⟨s2, h3, _⟩ := lookup_spoiled (strptime := strptime) part2 q2 s1 h2 errno hj hj6
  exact ⟨s1, s2, h1, h3⟩

/-! ## Opening the file -/

theorem strncmpEq_start {l buf pat : List Char} (hl : NUL ∉ l) (hp : IsCStr pat) :
    strncmpEq pat.length (cArr pat) (fillLine buf l) = .ok (decide (pat = l.take pat.length)) := by
  rw [strncmpEq_line _ hl hp, List.take_length]

theorem bernSkip_lines (p2 : List Char) (tail : List Char) (hp2 : LineFits 255 p2) (hpp : bernPart2 <+: p2) :
    ∀ (pre : List (List Char)) (left : Nat), pre.length + 1 < left → (∀ l ∈ pre, LineFits 255 l ∧ ¬ bernPart2 <+: l) →
    ∀ (buf l0 : List Char) (s : Stream), NUL ∉ l0 → ¬ bernPart2 <+: l0 → s.good = true →
      s.rest = linesText pre ++ (p2 ++ '\n' :: tail) →
    ∃ left' buf', bernSkip left (fillLine buf l0) s =
        .ok (left' + 1, buf', s.adv ((linesText pre ++ (p2 ++ ['\n'])).length)) := by
  have hcs : IsCStr bernPart2 := by decide
  intro pre
  induction pre with
  | nil =>
    intro left hl _ buf l0 s h0 hn hg hr
    obtain ⟨left, rfl⟩ : ∃ k, left = k + 2 := ⟨left - 2, by simp at hl; omega⟩
    unfold bernSkip
    rw [strncmpEq_start h0 hcs, Res.bind_ok, if_neg (by
      rw [decide_eq_true_eq]; intro h; exact hn (List.prefix_iff_eq_take.2 h))]
    have hgl := Stream.getline_line (n := MAX_SATELLIT_CHARS) hg (l := p2) (tail := tail) (by rw [hr]; simp [linesText]) hp2.1 hp2.2.2
    simp only [hgl]
    unfold bernSkip
    rw [strncmpEq_start hp2.2.1 hcs, Res.bind_ok, if_pos (by
      rw [decide_eq_true_eq]; exact List.prefix_iff_eq_take.1 hpp)]
    exact ⟨left, fillLine (fillLine buf l0) p2, by simp [linesText]⟩
  | cons l pre ih =>
    intro left hl hw buf l0 s h0 hn hg hr
    obtain ⟨left, rfl⟩ : ∃ k, left = k + 1 := ⟨left - 1, by simp at hl; omega⟩
    obtain ⟨hf, hnl⟩ := hw l (by simp)
    unfold bernSkip
    rw [strncmpEq_start h0 hcs, Res.bind_ok, if_neg (by
      rw [decide_eq_true_eq]; intro h; exact hn (List.prefix_iff_eq_take.2 h))]
    have hr' : s.rest = l ++ '\n' :: (linesText pre ++ (p2 ++ '\n' :: tail)) := by
      rw [hr, linesText_cons]; simp
    have hgl := Stream.getline_line (n := MAX_SATELLIT_CHARS) hg hr' hf.1 hf.2.2
    simp only [hgl]
    have hrest := Stream.adv_rest_append (s := s) (a := l ++ ['\n']) (b := linesText pre ++ (p2 ++ '\n' :: tail)) (by rw [hr']; simp)
    obtain ⟨left', buf', h⟩ := ih left (by simp at hl; omega) (fun x hx => hw x (by simp [hx])) (fillLine buf l0) l
      (s.adv (l.length + 1)) hf.2.1 hnl hg (by simpa using hrest)
    refine ⟨left', buf', ?_⟩
    rw [h, Stream.adv_adv, linesText_cons]
    congr 4
    simp; omega

/-- **C34** (opening).  A file that follows the format is accepted, and the object then looks at the
records block: together with `C34_lookup_partial` this is the behaviour of a whole session. -/
theorem C34_open_partial (h : BernHeader) (hw : h.WF) (body junk : List Char) :
    ∃ f p, bernOpen junk (h.text ++ body) = .ok f ∧ f.part2 = some p ∧ f.strm.fail = false ∧
      f.strm.content.drop p = body := by
  have hcs1 : IsCStr bernLine1 := by decide
  have hcsa : IsCStr bernHead1 := by decide
  have hcsb : IsCStr bernHead2 := by decide
  have htext : h.text = h.first ++ '\n' :: (linesText h.pre ++ (h.part2 ++ '\n' :: (h.dashes ++ '\n' ::
      (h.head1 ++ '\n' :: (h.head2 ++ '\n' :: (h.blank ++ ['\n'])))))) := by
    simp [BernHeader.text, linesText]
  have hcont : h.text ++ body = h.first ++ '\n' :: (linesText h.pre ++ (h.part2 ++ '\n' :: (h.dashes ++ '\n' ::
      (h.head1 ++ '\n' :: (h.head2 ++ '\n' :: (h.blank ++ '\n' :: body)))))) := by
    rw [htext]; simp
  generalize hct : h.text ++ body = content at hcont
  have hg0 : (⟨content, 0, false, false⟩ : Stream).good = true := rfl
  have hr0 : (⟨content, 0, false, false⟩ : Stream).rest = content := by simp [Stream.rest]
  generalize hs0 : (⟨content, 0, false, false⟩ : Stream) = s0 at hg0 hr0
  have hsk : s0.seekg 0 = s0 := by rw [← hs0]; rfl
  rw [hcont] at hr0
  have hgl := Stream.getline_line (n := MAX_SATELLIT_CHARS) hg0 hr0 hw.first.1.1 hw.first.1.2.2
  have hr1 := Stream.adv_rest_append (s := s0) (a := h.first ++ ['\n']) (b := linesText h.pre ++ (h.part2 ++ '\n' :: (h.dashes ++ '\n' ::
      (h.head1 ++ '\n' :: (h.head2 ++ '\n' :: (h.blank ++ '\n' :: body)))))) (by rw [hr0]; simp)
  obtain ⟨left', buf', hk⟩ := bernSkip_lines h.part2 _ hw.part2.1 hw.part2.2 h.pre 1000 (by have := hw.few; omega)
    hw.pre junk h.first (s0.adv (h.first.length + 1)) hw.first.1.2.1 (by
      intro hc
      have h1 := List.prefix_iff_eq_take.1 hc
      have h2 : bernLine1 = h.first.take bernLine1.length := List.prefix_iff_eq_take.1 hw.first.2
      have e1 : bernPart2.take 1 = h.first.take 1 := by
        conv_lhs => rw [h1, List.take_take, show min 1 bernPart2.length = 1 from rfl]
      have e2 : bernLine1.take 1 = h.first.take 1 := by
        conv_lhs => rw [h2, List.take_take, show min 1 bernLine1.length = 1 from rfl]
      rw [← e2] at e1
      revert e1
      decide) hg0 (by simpa using hr1)
  generalize hs1 : (s0.adv (h.first.length + 1)).adv ((linesText h.pre ++ (h.part2 ++ ['\n'])).length) = s1 at hk
  have hg1 : s1.good = true := by rw [← hs1]; exact hg0
  have hr2 : s1.rest = h.dashes ++ '\n' ::
      (h.head1 ++ '\n' :: (h.head2 ++ '\n' :: (h.blank ++ '\n' :: body))) := by
    rw [← hs1]
    exact Stream.adv_rest_append (a := linesText h.pre ++ (h.part2 ++ ['\n'])) (by simpa using hr1)
  have hgd := Stream.getline_line (n := MAX_SATELLIT_CHARS) hg1 hr2 hw.dashes.1 hw.dashes.2.2
  have hr3 := Stream.adv_rest_append (s := s1) (a := h.dashes ++ ['\n']) (by rw [hr2, List.append_assoc]; rfl)
  have hgh := Stream.getline_line (s := s1.adv (h.dashes.length + 1)) (n := MAX_SATELLIT_CHARS) hg1 (by simpa using hr3) hw.head1.1.1 hw.head1.1.2.2
  have hr4 := Stream.adv_rest_append (s := s1.adv (h.dashes.length + 1)) (a := h.head1 ++ ['\n'])
    (b := h.head2 ++ '\n' :: (h.blank ++ '\n' :: body)) (by simpa using hr3)
  have hgi := Stream.getline_line (s := (s1.adv (h.dashes.length + 1)).adv (h.head1.length + 1)) (n := MAX_SATELLIT_CHARS) hg1 (by simpa using hr4) hw.head2.1.1 hw.head2.1.2.2
  have hr5 := Stream.adv_rest_append (s := (s1.adv (h.dashes.length + 1)).adv (h.head1.length + 1)) (a := h.head2 ++ ['\n'])
    (b := h.blank ++ '\n' :: body) (by simpa using hr4)
  have hgb := Stream.getline_line (s := ((s1.adv (h.dashes.length + 1)).adv (h.head1.length + 1)).adv (h.head2.length + 1)) (n := MAX_SATELLIT_CHARS) hg1 (by simpa using hr5) hw.blank.1 hw.blank.2.2
  have hr6 := Stream.adv_rest_append (s := ((s1.adv (h.dashes.length + 1)).adv (h.head1.length + 1)).adv (h.head2.length + 1)) (a := h.blank ++ ['\n'])
    (b := body) (by simpa using hr5)
  generalize hs2 : (((s1.adv (h.dashes.length + 1)).adv (h.head1.length + 1)).adv (h.head2.length + 1)).adv (h.blank.length + 1) = s2 at hgb
  have hg2 : s2.good = true := by rw [← hs2]; exact hg1
  have hinit : bernInitialize junk s0 = .ok (0, some s2.pos, s2) := by
    unfold bernInitialize
    simp only [hsk, hgl]
    rw [strncmpEq_start hw.first.1.2.1 hcs1, Res.bind_ok, if_neg (by
      simp only [decide_eq_false_iff_not, not_not]; exact List.prefix_iff_eq_take.1 hw.first.2)]
    rw [hk, Res.bind_ok]
    simp only [hgd, hgh, hgi, hgb]
    rw [if_neg (by simp [hg1])]
    rw [strncmpEq_start hw.head1.1.2.1 hcsa, Res.bind_ok, if_neg (by
      simp only [decide_eq_false_iff_not, not_not]; exact List.prefix_iff_eq_take.1 hw.head1.2)]
    rw [strncmpEq_start hw.head2.1.2.1 hcsb, Res.bind_ok, if_neg (by
      simp only [decide_eq_false_iff_not, not_not]; exact List.prefix_iff_eq_take.1 hw.head2.2)]
    simp [Stream.tellg, hg2]
  refine ⟨⟨some s2.pos, s2⟩, s2.pos, ?_, rfl, ((Stream.good_iff s2).1 hg2).2, ?_⟩
  · unfold bernOpen
    rw [hs0, hinit]
    rfl
  · show s2.rest = body
    rw [← hs2]
    simpa using hr6

end Ggnss
