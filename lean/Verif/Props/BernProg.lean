import Verif.Model.BernProg
import Verif.Spec.BernProg
import Verif.Props.BernCut
import Verif.Props.BernOpen
/-!
# C94: the program that looks up frequency channels
-/
namespace Ggnss

/-- The line of output is about the question, and its answer is that of the file. -/
def BernShown.Right (recs : List BernRec) (q : Int × DateTime) (l : BernShown) : Prop :=
  l.svn = q.1 ∧ l.eph = q.2 ∧ BernTells recs q.1 q.2 l.found

/-- The line of output is about the question and says "not matched". -/
def BernShown.Unmatched (q : Int × DateTime) (l : BernShown) : Prop := l = ⟨q.1, q.2, none⟩

theorem BernFirst.index {recs : List BernRec} {svn : Int} {t : DateTime} {prn chan : Int} (h : BernFirst recs svn t prn chan) :
    ∃ (i : Nat) (r : BernRec) (v : Nat) (start : DateTime) (stop : Option DateTime) (p : Nat), recs[i]? = some r ∧ r.InForce svn t ∧ (∀ j < i, ∀ q, recs[j]? = some q → ¬ q.InForce svn t) ∧
      r.mw = some (v, start, stop, p, chan) ∧ prn = (p : Int) := by
  obtain ⟨pre, r, post, v, start, stop, p, rfl, h1, h2, h3, h4⟩ := h
  refine ⟨pre.length, r, v, start, stop, p, by simp, h2, ?_, h3, h4⟩
  intro j hj q hq
  rw [List.getElem?_append_left hj] at hq
  exact h1 q (List.mem_of_getElem? hq)

theorem bernFirst_of_index {recs : List BernRec} {svn : Int} {t : DateTime} {i : Nat} {r : BernRec} (hr : recs[i]? = some r) (hin : r.InForce svn t)
    (hno : ∀ j < i, ∀ q, recs[j]? = some q → ¬ q.InForce svn t) {v : Nat} {start : DateTime} {stop : Option DateTime} {p : Nat} {ch : Int}
    (hmw : r.mw = some (v, start, stop, p, ch)) : BernFirst recs svn t p ch := by
  have hri : i < recs.length := (List.getElem?_eq_some_iff.1 hr).1
  refine ⟨recs.take i, r, recs.drop (i + 1), v, start, stop, p, ?_, ?_, hin, hmw, rfl⟩
  · have := (List.getElem?_eq_some_iff.1 hr).2
    rw [← this, List.cons_getElem_drop_succ, List.take_append_drop]
  · intro q hq
    obtain ⟨j, hj, e⟩ := List.mem_iff_getElem.1 hq
    rw [List.length_take] at hj
    exact hno j (by omega) q (by rw [List.getElem?_eq_some_iff]; exact ⟨by omega, by rw [← e]; simp⟩)

/-- One of the two answers holds. -/
theorem bern_tells (recs : List BernRec) (svn : Int) (t : DateTime) :
    BernNone recs svn t ∨ ∃ prn chan, BernFirst recs svn t prn chan := by
  classical
  induction recs with
  | nil => left; intro q hq; simp at hq
  | cons r recs ih =>
    by_cases hin : r.InForce svn t
    · right
      obtain ⟨v, start, stop, p, ch, hm, _⟩ := id hin
      exact ⟨p, ch, [], r, recs, v, start, stop, p, rfl, by simp, hin, hm, rfl⟩
    · rcases ih with h | ⟨prn, chan, pre, x, post, v, start, stop, p, rfl, h1, h2⟩
      · left
        intro q hq
        rcases List.mem_cons.1 hq with rfl | hq
        · exact hin
        · exact h q hq
      · right
        refine ⟨prn, chan, r :: pre, x, post, v, start, stop, p, rfl, ?_, h2⟩
        intro q hq
        rcases List.mem_cons.1 hq with rfl | hq
        · exact hin
        · exact h1 q hq

/-- A record in force among the first thousand is found, whatever follows the records. -/
theorem lookup_first {strptime : List Char → Res DateTime} {recs : List BernRec} (hwf : ∀ r ∈ recs, r.WF strptime) (hlen : recs.length ≤ 1000) (e : BernEnd)
    {svn : Int} {eph : DateTime} {prn' ch : Int} (hf : BernFirst recs svn eph prn' ch)
    (ifrqn prn : Int) (junk : List Char) (part2 : Nat) (s : Stream) (hs : s.fail = false) (hc : s.content.drop part2 = bernText recs e)
    {errno : Int} (he : errno ≠ ERANGE) :
    BernSays (getFrequencyChannel strptime junk part2 svn eph ifrqn prn s errno) s 0 ch prn' errno := by
  obtain ⟨i, r, v, start, stop, p, h1, h2, h3, h4, rfl⟩ := hf.index
  have hri : i < recs.length := (List.getElem?_eq_some_iff.1 h1).1
  refine C89_complete_record recs hwf e (by omega) h1 h2 h3 h4 (List.prefix_refl _) ?_ ifrqn prn junk part2 s hs hc he
  have hsplit : recs = recs.take i ++ r :: recs.drop (i + 1) := by
    have := (List.getElem?_eq_some_iff.1 h1).2
    rw [← this, List.cons_getElem_drop_succ, List.take_append_drop]
  refine ⟨'\n' :: bernText (recs.drop (i + 1)) e, ?_⟩
  conv_rhs => rw [hsplit]
  simp [bernText, linesText]

/-- **C94** (something follows the records): every question is answered by the file's answer, the exit code is 0. -/
theorem bernShow_right {strptime : List Char → Res DateTime} {recs : List BernRec} (hne : recs ≠ []) (hlen : recs.length ≤ 1000)
    (hwf : ∀ r ∈ recs, r.WF strptime) {e : BernEnd} (hee : e.WF) (hend : e ≠ .eof) (junk : Nat → List Char) (part2 : Nat) {errno : Int} (he : errno ≠ ERANGE) :
    ∀ (qs : List (Int × DateTime)) (n : Nat) (frq prn : Int) (s : Stream), s.fail = false → s.content.drop part2 = bernText recs e →
    ∃ ls, bernShow strptime junk part2 n qs frq prn s errno = .ok (0, ls) ∧ List.Forall₂ (BernShown.Right recs) qs ls := by
  intro qs
  induction qs with
  | nil => intro n frq prn s _ _; exact ⟨[], rfl, .nil⟩
  | cons q qs ih =>
    intro n frq prn s hs hc
    rcases bern_tells recs q.1 q.2 with hn | ⟨p, ch, hf⟩
    · obtain ⟨st, fr, pr, s1, h1, h2, h3, h4⟩ := C34_lookup_partial recs hne hwf hee q.1 q.2 frq prn (junk n) part2 s hs hc he
      rcases h2 with ⟨i, r, v, start, stop, p, ch, hi, hr, hin, _⟩ | ⟨_, rfl, rfl, rfl⟩
      · exact absurd hin (hn r (List.mem_of_getElem? hr))
      · obtain ⟨ls, k1, k2⟩ := ih (n + 1) fr pr s1 (h4 hend) (by rw [h3]; exact hc)
        refine ⟨⟨q.1, q.2, none⟩ :: ls, ?_, .cons ⟨rfl, rfl, hn⟩ k2⟩
        rw [bernShow, h1, Res.bind_ok]
        simp only [k1, Res.bind_ok, if_neg (show ¬ (0 : Int) < -1 by decide)]
        rfl
    · obtain ⟨s1, h1, h2, h3⟩ := (lookup_first hwf hlen e hf frq prn (junk n) part2 s hs hc he).is
      obtain ⟨ls, k1, k2⟩ := ih (n + 1) ch p s1 h2 (by rw [h3]; exact hc)
      refine ⟨⟨q.1, q.2, some (p, ch)⟩ :: ls, ?_, .cons ⟨rfl, rfl, hf⟩ k2⟩
      rw [bernShow, h1, Res.bind_ok]
      simp only [k1, Res.bind_ok, if_neg (show ¬ (0 : Int) < 0 by decide)]
      rfl

/-- After the stream has failed every line says "not matched". -/
theorem bernShow_spoiled {strptime : List Char → Res DateTime} (junk : Nat → List Char)
    (hj : ∀ n, (∃ c, (junk n)[5]? = some c ∧ c ≠ 'M') ∧ 6 < (junk n).length) (part2 : Nat) (errno : Int) :
    ∀ (qs : List (Int × DateTime)) (n : Nat) (frq prn : Int) (s : Stream), s.fail = true →
    ∃ ls, bernShow strptime junk part2 n qs frq prn s errno = .ok (0, ls) ∧ List.Forall₂ BernShown.Unmatched qs ls := by
  intro qs
  induction qs with
  | nil => intro n frq prn s _; exact ⟨[], rfl, .nil⟩
  | cons q qs ih =>
    intro n frq prn s hs
    obtain ⟨s1, h1, h2⟩ := lookup_spoiled (strptime := strptime) part2 ⟨junk n, q.1, q.2, frq, prn⟩ s hs errno (hj n).1 (hj n).2
    obtain ⟨ls, k1, k2⟩ := ih (n + 1) frq prn s1 h2
    refine ⟨⟨q.1, q.2, none⟩ :: ls, ?_, .cons rfl k2⟩
    have h1' : getFrequencyChannel strptime (junk n) part2 q.1 q.2 frq prn s errno = .ok ⟨-1, frq, prn, s1, errno⟩ := h1
    rw [bernShow, h1', Res.bind_ok]
    simp only [k1, Res.bind_ok, if_neg (show ¬ (0 : Int) < -1 by decide)]
    rfl

/-- The lines when the records reach to the end of the file: right up to and with the first question the file has no answer to,
"not matched" from there on. -/
inductive SpoiltFrom (recs : List BernRec) : List (Int × DateTime) → List BernShown → Prop
  | nil : SpoiltFrom recs [] []
  | found {q qs l ls} : (∃ prn chan, BernFirst recs q.1 q.2 prn chan ∧ l = ⟨q.1, q.2, some (prn, chan)⟩) → SpoiltFrom recs qs ls → SpoiltFrom recs (q :: qs) (l :: ls)
  | unmatched {q qs ls} : BernNone recs q.1 q.2 → List.Forall₂ BernShown.Unmatched (q :: qs) ls → SpoiltFrom recs (q :: qs) ls

theorem bernShow_eof {strptime : List Char → Res DateTime} {recs : List BernRec} (hne : recs ≠ []) (hlen : recs.length ≤ 1000)
    (hwf : ∀ r ∈ recs, r.WF strptime) (junk : Nat → List Char)
    (hj : ∀ n, (∃ c, (junk n)[5]? = some c ∧ c ≠ 'M') ∧ 6 < (junk n).length) (part2 : Nat) {errno : Int} (he : errno ≠ ERANGE) :
    ∀ (qs : List (Int × DateTime)) (n : Nat) (frq prn : Int) (s : Stream), s.fail = false → s.content.drop part2 = bernText recs .eof →
    ∃ ls, bernShow strptime junk part2 n qs frq prn s errno = .ok (0, ls) ∧ SpoiltFrom recs qs ls := by
  intro qs
  induction qs with
  | nil => intro n frq prn s _ _; exact ⟨[], rfl, .nil⟩
  | cons q qs ih =>
    intro n frq prn s hs hc
    rcases bern_tells recs q.1 q.2 with hn | ⟨p, ch, hf⟩
    · obtain ⟨s1, h1, h2⟩ := lookup_none_eof recs hne hlen hwf part2 ⟨junk n, q.1, q.2, frq, prn⟩ s hs hn hc he
      obtain ⟨ls, k1, k2⟩ := bernShow_spoiled (strptime := strptime) junk hj part2 errno qs (n + 1) frq prn s1 h2
      refine ⟨⟨q.1, q.2, none⟩ :: ls, ?_, .unmatched hn (.cons rfl k2)⟩
      have h1' : getFrequencyChannel strptime (junk n) part2 q.1 q.2 frq prn s errno = .ok ⟨-1, frq, prn, s1, errno⟩ := h1
      rw [bernShow, h1', Res.bind_ok]
      simp only [k1, Res.bind_ok, if_neg (show ¬ (0 : Int) < -1 by decide)]
      rfl
    · obtain ⟨s1, h1, h2, h3⟩ := (lookup_first hwf hlen .eof hf frq prn (junk n) part2 s hs hc he).is
      obtain ⟨ls, k1, k2⟩ := ih (n + 1) ch p s1 h2 (by rw [h3]; exact hc)
      refine ⟨⟨q.1, q.2, some (p, ch)⟩ :: ls, ?_, .found ⟨p, ch, hf, rfl⟩ k2⟩
      rw [bernShow, h1, Res.bind_ok]
      simp only [k1, Res.bind_ok, if_neg (show ¬ (0 : Int) < 0 by decide)]
      rfl

/-- The lines when a record is damaged: the answers found before it; the first question without one ends the program with code 2. -/
inductive StopsAt (pre : List BernRec) : List (Int × DateTime) → Int → List BernShown → Prop
  | nil : StopsAt pre [] 0 []
  | found {q qs l ls code} : (∃ prn chan, BernFirst pre q.1 q.2 prn chan ∧ l = ⟨q.1, q.2, some (prn, chan)⟩) → StopsAt pre qs code ls →
      StopsAt pre (q :: qs) code (l :: ls)
  | stop {q qs} : BernNone pre q.1 q.2 → StopsAt pre (q :: qs) 2 []

theorem bernShow_damaged {strptime : List Char → Res DateTime} {pre : List BernRec} (hlen : pre.length < 1000)
    (hwf : ∀ r ∈ pre, r.WF strptime) {l : List Char} (hl : MwLine l) (hbad : BadInt (l.drop 28)) (tail : List Char)
    (junk : Nat → List Char) (part2 : Nat) {errno : Int} (he : errno ≠ ERANGE) :
    ∀ (qs : List (Int × DateTime)) (n : Nat) (frq prn : Int) (s : Stream), s.fail = false → s.content.drop part2 = blockText pre l tail →
    ∃ code ls, bernShow strptime junk part2 n qs frq prn s errno = .ok (code, ls) ∧ StopsAt pre qs code ls := by
  intro qs
  induction qs with
  | nil => intro n frq prn s _ _; exact ⟨0, [], rfl, .nil⟩
  | cons q qs ih =>
    intro n frq prn s hs hc
    rcases bern_tells pre q.1 q.2 with hn | ⟨p, ch, hf⟩
    · obtain ⟨s1, h1, _⟩ := (C77_svn_refused (strptime := strptime) (svn := q.1) (eph := q.2) frq prn he hl hbad tail pre hlen hwf hn (junk n) part2 s hs hc).is
      refine ⟨2, [], ?_, .stop hn⟩
      rw [bernShow, h1, Res.bind_ok]
      rfl
    · obtain ⟨s1, h1, h2, h3⟩ := (lookup_first hwf (by omega) (.short l tail) hf frq prn (junk n) part2 s hs
        (by rw [hc]; simp [blockText, bernText, BernEnd.text]) he).is
      obtain ⟨code, ls, k1, k2⟩ := ih (n + 1) ch p s1 h2 (by rw [h3]; exact hc)
      refine ⟨code, ⟨q.1, q.2, some (p, ch)⟩ :: ls, ?_, .found ⟨p, ch, hf, rfl⟩ k2⟩
      rw [bernShow, h1, Res.bind_ok]
      simp only [k1, Res.bind_ok, if_neg (show ¬ (0 : Int) < 0 by decide)]
      rfl

/-- The file given to the program. -/
structure BernGiven (W : BernWorld) (a1 : List Char) (h : BernHeader) (body : List Char) : Prop where
  wf : h.WF
  file : W.files a1 = some (h.text ++ body)

/-- The program once the file is open. -/
theorem bernMain_start {W : BernWorld} {a1 : List Char} {h : BernHeader} {body : List Char} (g : BernGiven W a1 h body) (a0 : List Char) :
    ∃ p s, bernMain W [a0, a1] = Res.noexcept (bernShow W.strptime W.junk p 0 bernAsked W.frq0 W.prn0 s 0) ∧ s.fail = false ∧ s.content.drop p = body := by
  obtain ⟨f, p, h1, h2, h3, h4⟩ := C34_open_partial h g.wf body W.junk0
  refine ⟨p, f.strm, ?_, h3, h4⟩
  unfold bernMain
  simp only [g.file, h1, Res.bind_ok, h2, Option.getD_some]

/-- **C94**.  For every well formed file in which something follows the (at most a thousand) records, `test_bern_SATELLIT` prints for each of its
24 questions, in order, the PRN and channel of the first record in force, or "not matched" exactly when there is none, and exits with 0. -/
theorem C94_answers_partial {W : BernWorld} {a0 a1 : List Char} {h : BernHeader} {recs : List BernRec} {e : BernEnd} (g : BernGiven W a1 h (bernText recs e))
    (hne : recs ≠ []) (hlen : recs.length ≤ 1000) (hwf : ∀ r ∈ recs, r.WF W.strptime) (hee : e.WF) (hend : e ≠ .eof) :
    ∃ ls, bernMain W [a0, a1] = .ok (0, ls) ∧ List.Forall₂ (BernShown.Right recs) bernAsked ls := by
  obtain ⟨p, s, h1, h2, h3⟩ := bernMain_start g a0
  obtain ⟨ls, k1, k2⟩ := bernShow_right hne hlen hwf hee hend W.junk p (errno := 0) (by decide) bernAsked 0 W.frq0 W.prn0 s h2 h3
  exact ⟨ls, by rw [h1, k1]; rfl, k2⟩

/-- What is missing in C94: when the records reach to the end of the file, the program still exits with 0, but after the first question the file has no
answer to it says "not matched" for all the others, whatever the file says. -/
theorem C94_records_to_the_end {W : BernWorld} {a0 a1 : List Char} {h : BernHeader} {recs : List BernRec} (g : BernGiven W a1 h (bernText recs .eof))
    (hne : recs ≠ []) (hlen : recs.length ≤ 1000) (hwf : ∀ r ∈ recs, r.WF W.strptime)
    (hj : ∀ n, (∃ c, (W.junk n)[5]? = some c ∧ c ≠ 'M') ∧ 6 < (W.junk n).length) :
    ∃ ls, bernMain W [a0, a1] = .ok (0, ls) ∧ SpoiltFrom recs bernAsked ls := by
  obtain ⟨p, s, h1, h2, h3⟩ := bernMain_start g a0
  obtain ⟨ls, k1, k2⟩ := bernShow_eof hne hlen hwf W.junk hj p (errno := 0) (by decide) bernAsked 0 W.frq0 W.prn0 s h2 h3
  exact ⟨ls, by rw [h1, k1]; rfl, k2⟩

/-- **C94** (damaged file).  When a record without a readable SVN follows (fewer than a thousand) well formed ones, the program prints the answers found
before that record and ends with exit code 2 at the first question without such an answer. -/
theorem C94_damaged {W : BernWorld} {a0 a1 : List Char} {h : BernHeader} {pre : List BernRec} {l tail : List Char} (g : BernGiven W a1 h (blockText pre l tail))
    (hlen : pre.length < 1000) (hwf : ∀ r ∈ pre, r.WF W.strptime) (hl : MwLine l) (hbad : BadInt (l.drop 28)) :
    ∃ code ls, bernMain W [a0, a1] = .ok (code, ls) ∧ StopsAt pre bernAsked code ls := by
  obtain ⟨p, s, h1, h2, h3⟩ := bernMain_start g a0
  obtain ⟨code, ls, k1, k2⟩ := bernShow_damaged hlen hwf hl hbad tail W.junk p (errno := 0) (by decide) bernAsked 0 W.frq0 W.prn0 s h2 h3
  exact ⟨code, ls, by rw [h1, k1]; rfl, k2⟩

/-- **C94** (no file).  With another number of arguments the exit code is 1; a file that does not exist, or (lines of at most 255 chars) is no SATELLIT file,
ends the process. -/
theorem C94_refused (W : BernWorld) (a0 a1 : List Char) :
    (∀ argv, argv.length ≠ 2 → bernMain W argv = .ok (1, [])) ∧
    (W.files a1 = none → bernMain W [a0, a1] = .terminate) ∧
    (∀ ls, (∀ l ∈ ls, LineFits 255 l) → W.files a1 = some (linesText ls) → (¬ ∃ rest, BernOpenable ls rest) → bernMain W [a0, a1] = .terminate) := by
  refine ⟨?_, ?_, ?_⟩
  · intro argv ha
    unfold bernMain
    match argv, ha with
    | [], _ => rfl
    | [_], _ => rfl
    | [_, _], ha => simp at ha
    | _ :: _ :: _ :: _, _ => rfl
  · intro hf; unfold bernMain; simp only [hf]; rfl
  · intro ls hl hf hno
    have := (C72_open_iff W.junk0 ls hl).2 hno
    unfold bernMain; simp only [hf, this]; rfl

/-- A file that the list of questions finds spoilt says less than it should: the same question, asked first, is answered. -/
theorem SpoiltFrom.length {recs : List BernRec} {qs : List (Int × DateTime)} {ls : List BernShown} (h : SpoiltFrom recs qs ls) : ls.length = qs.length := by
  induction h with
  | nil => rfl
  | found _ _ ih => simp [ih]
  | unmatched _ h => exact h.length_eq.symm

end Ggnss
