import Verif.Spec.BernBad
import Verif.Lemmas.BadField
import Verif.Props.BernExample
/-!
# C77: malformed records of Bernese SATELLIT files
-/
namespace Ggnss

theorem bernLoop_pass_step {strptime : List Char → Res DateTime} {r : BernRec} (hr : r.WF strptime) {svn : Int} {eph : DateTime}
    (hno : ¬ r.InForce svn eph) (ifrqn prn : Int) {errno : Int} (he : errno ≠ ERANGE) (lim : Nat) (buf : List Char) (s : Stream)
    (hg : s.good = true) {l tail : List Char} (hl : LineFits 255 l) (h10 : 10 ≤ l.length) (h3 : l.take 6 ≠ c!"PART 3")
    (hs : s.rest = l ++ '\n' :: tail) :
    bernLoop strptime svn eph ifrqn prn (lim + 1) (fillLine buf r.line) s errno =
      bernLoop strptime svn eph ifrqn prn lim (fillLine (fillLine buf r.line) l) (s.adv (l.length + 1)) errno := by
  rw [bernLoop.eq_2]
  rcases bernLine_rec hr svn eph ifrqn prn buf he with ⟨_, h⟩ | ⟨h, _⟩
  · have hgl := Stream.getline_line (n := MAX_SATELLIT_CHARS) hg hs hl.1 hl.2.2
    simp only [h, hgl, cstrOf_fill hl.2.1, Res.bind_ok, strncmpEq_line (pat := c!"PART 3") 6 hl.2.1 (by decide)]
    have h3 : (decide (List.take 6 c!"PART 3" = List.take 6 l)) = false := by
      rw [decide_eq_false_iff_not]
      exact fun h => h3 h.symm
    rw [if_neg (by rw [h3]; simp; omega)]
  · exact absurd h hno

theorem MwLine.notPart3 {l : List Char} (h : MwLine l) : l.take 6 ≠ c!"PART 3" := by
  intro h3
  have h1 : (l.take 6)[5]? = l[5]? := by rw [List.getElem?_take]; rfl
  rw [h3, h.m] at h1
  exact absurd h1 (by decide)

theorem bernLoop_pass {strptime : List Char → Res DateTime} {svn : Int} {eph : DateTime} (ifrqn prn : Int) {errno : Int} (he : errno ≠ ERANGE)
    {l : List Char} (hl : MwLine l) (tail : List Char) :
    ∀ (pre : List BernRec) (r : BernRec), (∀ q ∈ r :: pre, q.WF strptime) → (∀ q ∈ r :: pre, ¬ q.InForce svn eph) →
    ∀ (lim : Nat) (buf : List Char) (s : Stream), s.good = true → s.rest = blockText pre l tail →
    ∃ b s' q, bernLoop strptime svn eph ifrqn prn (lim + pre.length + 1) (fillLine buf r.line) s errno =
        bernLoop strptime svn eph ifrqn prn lim (fillLine (fillLine b q.line) l) s' errno ∧ s'.fail = false ∧ s'.content = s.content ∧
        (r :: pre).getLast? = some q := by
  intro pre
  induction pre with
  | nil =>
    intro r hw hn lim buf s hg hs
    refine ⟨buf, _, r, bernLoop_pass_step (tail := tail) (hw r (by simp)) (hn r (by simp)) ifrqn prn he lim buf s hg hl.fits (by have := hl.long; omega)
      hl.notPart3 (by rw [hs]; simp [blockText, linesText]), ((Stream.good_iff s).1 hg).2, rfl, rfl⟩
  | cons r2 pre ih =>
    intro r hw hn lim buf s hg hs
    have hw2 := hw r2 (by simp)
    have hs' : s.rest = r2.line ++ '\n' :: blockText pre l tail := by
      rw [hs]; simp [blockText, linesText_cons]
    have hrest : (s.adv (r2.line.length + 1)).rest = blockText pre l tail := by
      have := Stream.adv_rest_append (s := s) (a := r2.line ++ ['\n']) (b := blockText pre l tail) (by rw [hs']; simp)
      simpa using this
    have h1 := bernLoop_pass_step (hw r (by simp)) (hn r (by simp)) ifrqn prn he (lim + pre.length + 1) buf s hg hw2.fits hw2.long hw2.notPart3 hs'
    obtain ⟨b, s', q, k1, k2, k3, k4⟩ := ih r2 (fun q hq => hw q (List.mem_cons_of_mem _ hq)) (fun q hq => hn q (List.mem_cons_of_mem _ hq))
      lim (fillLine buf r.line) (s.adv (r2.line.length + 1)) hg hrest
    refine ⟨b, s', q, ?_, k2, k3, ?_⟩
    · rw [← k1, ← h1]; rfl
    · rw [← k4]; simp

theorem lookup_pass {strptime : List Char → Res DateTime} {svn : Int} {eph : DateTime} (ifrqn prn : Int) {errno : Int} 
    {l : List Char} (hl : MwLine l) (tail : List Char) (pre : List BernRec) (he : errno ≠ ERANGE ∨ pre = []) (hlen : pre.length < 1000) (hw : ∀ q ∈ pre, q.WF strptime)
    (hn : ∀ q ∈ pre, ¬ q.InForce svn eph) (junk : List Char) (part2 : Nat) (s : Stream) (hs : s.fail = false)
    (hc : s.content.drop part2 = blockText pre l tail) :
    ∃ lim b s', getFrequencyChannel strptime junk part2 svn eph ifrqn prn s errno =
        bernLoop strptime svn eph ifrqn prn (lim + 1) (fillLine b l) s' errno ∧ s'.fail = false ∧ s'.content = s.content ∧
        (∀ q, pre.getLast? = some q → ∃ b', b = fillLine b' q.line) := by
  have hsk : s.seekg part2 = ⟨s.content, part2, false, false⟩ := by
    unfold Stream.seekg; rw [hs]; simp
  have hg : (⟨s.content, part2, false, false⟩ : Stream).good = true := rfl
  unfold getFrequencyChannel
  rw [hsk]
  cases pre with
  | nil =>
    have hr : (⟨s.content, part2, false, false⟩ : Stream).rest = l ++ '\n' :: tail := by
      refine hc.trans ?_; simp [blockText, linesText]
    have hgl := Stream.getline_line (n := MAX_SATELLIT_CHARS) hg hr hl.fits.1 hl.fits.2.2
    simp only [hgl]
    exact ⟨999, junk, _, rfl, rfl, rfl, by simp⟩
  | cons r pre =>
    have hf := (hw r (by simp)).fits
    have hr : (⟨s.content, part2, false, false⟩ : Stream).rest = r.line ++ '\n' :: blockText pre l tail := by
      refine hc.trans ?_; simp [blockText, linesText_cons]
    have hgl := Stream.getline_line (n := MAX_SATELLIT_CHARS) hg hr hf.1 hf.2.2
    have hrest := Stream.adv_rest_append (s := ⟨s.content, part2, false, false⟩) (a := r.line ++ ['\n']) (b := blockText pre l tail) (by rw [hr]; simp)
    simp only [hgl]
    obtain ⟨b, s', q, k1, k2, k3, k4⟩ := bernLoop_pass (strptime := strptime) ifrqn prn (he.resolve_right (by simp)) hl tail pre r hw hn (999 - pre.length) junk
      ((⟨s.content, part2, false, false⟩ : Stream).adv (r.line.length + 1)) hg (by simpa using hrest)
    simp only [List.length_cons] at hlen
    refine ⟨998 - pre.length, fillLine b q.line, s', ?_, k2, k3, ?_⟩
    · rw [show 999 - pre.length + pre.length + 1 = 1000 by omega] at k1
      rw [show 998 - pre.length + 1 = 999 - pre.length by omega]
      exact k1
    · intro q' hq'
      rw [k4] at hq'
      simp only [Option.some.injEq] at hq'
      exact ⟨b, by rw [hq']⟩

/-- The answer `o` of a lookup: status, channel and PRN, `errno`, and the stream is usable. -/
structure BernSays (x : Res BernOut) (s : Stream) (status ifrqn prn errno : Int) : Prop where
  is : ∃ s', x = .ok ⟨status, ifrqn, prn, s', errno⟩ ∧ s'.fail = false ∧ s'.content = s.content

theorem bernLoop_inr {strptime : List Char → Res DateTime} {svn : Int} {eph : DateTime} {ifrqn prn : Int} {errno : Int} {lim : Nat} {line : List Char}
    {s : Stream} {x : Int × Int × Int × Int} (h : bernLine strptime svn eph ifrqn prn line errno = .ok (.inr x)) :
    bernLoop strptime svn eph ifrqn prn (lim + 1) line s errno = .ok ⟨x.1, x.2.1, x.2.2.1, s, x.2.2.2⟩ := by
  rw [bernLoop.eq_2, h]; rfl

/-- **C77** (SVN).  After any (fewer than a thousand) records that are not in force, a micro-wave
record whose SVN columns hold no integer, or one that does not fit a `long`, ends the lookup with
status 2; the outputs are untouched, `errno` is clear and the object is usable. -/
theorem C77_svn_refused {strptime : List Char → Res DateTime} {svn : Int} {eph : DateTime} (ifrqn prn : Int) {errno : Int} (he : errno ≠ ERANGE)
    {l : List Char} (hl : MwLine l) (hbad : BadInt (l.drop 28)) (tail : List Char) (pre : List BernRec) (hlen : pre.length < 1000)
    (hw : ∀ q ∈ pre, q.WF strptime) (hn : ∀ q ∈ pre, ¬ q.InForce svn eph) (junk : List Char) (part2 : Nat) (s : Stream) (hs : s.fail = false)
    (hc : s.content.drop part2 = blockText pre l tail) :
    BernSays (getFrequencyChannel strptime junk part2 svn eph ifrqn prn s errno) s 2 ifrqn prn 0 := by
  obtain ⟨lim, b, s', h1, h2, h3, _⟩ := lookup_pass (strptime := strptime) (eph := eph) (svn := svn) ifrqn prn hl tail pre (Or.inl he) hlen hw hn junk part2 s hs hc
  obtain ⟨p, hp, hq⟩ := strtolA_badInt hl.long hbad (b.drop (l.length + 1))
  have hp' : strtolA ((fillLine b l).drop 28) = .ok p := hp
  refine ⟨s', ?_, h2, h3⟩
  rw [h1]
  have hline : bernLine strptime svn eph ifrqn prn (fillLine b l) errno = .ok (.inr (2, ifrqn, prn, 0)) := by
    unfold bernLine
    simp only [getAt_fill hl.m, getAt_fill hl.w, Res.bind_ok, and_self, if_true, hp']
    rw [if_pos]
    · rfl
    · rcases hq with hq | hq
      · exact Or.inr hq
      · left; rw [if_pos hq]
  rw [bernLoop_inr hline]

/-- **C77** (stale `errno`).  If `errno` is `ERANGE` on entry and the first record is a micro-wave
one, the lookup answers status 2, whatever the records say, and clears `errno`: the same request
repeated is answered properly. -/
theorem C77_stale_errno {strptime : List Char → Res DateTime} {svn : Int} {eph : DateTime} (ifrqn prn : Int)
    {l : List Char} (hl : MwLine l) (tail : List Char) (junk : List Char) (part2 : Nat) (s : Stream) (hs : s.fail = false)
    (hnum : ∃ v : Nat, NatAt l 28 v)
    (hc : s.content.drop part2 = blockText [] l tail) :
    BernSays (getFrequencyChannel strptime junk part2 svn eph ifrqn prn s ERANGE) s 2 ifrqn prn 0 := by
  obtain ⟨lim, b, s', h1, h2, h3, _⟩ := lookup_pass (strptime := strptime) (errno := ERANGE) (eph := eph) (svn := svn) ifrqn prn hl tail [] (Or.inr rfl) (by decide)
    (by simp) (by simp) junk part2 s hs hc
  obtain ⟨v, hv⟩ := hnum
  obtain ⟨rv, hrv⟩ := strtol_nat (tail := b.drop (l.length + 1)) hv
  have hp' : strtolA ((fillLine b l).drop 28) = .ok (some ((v : Int), rv, false)) := hrv
  refine ⟨s', ?_, h2, h3⟩
  rw [h1]
  have hline : bernLine strptime svn eph ifrqn prn (fillLine b l) ERANGE = .ok (.inr (2, ifrqn, prn, 0)) := by
    unfold bernLine
    simp only [getAt_fill hl.m, getAt_fill hl.w, Res.bind_ok, and_self, if_true, hp']
    rw [if_pos (by left; simp)]
    rfl
  rw [bernLoop_inr hline]

/-- The line is in force: what is left to do is to read PRN and channel. -/
theorem bernLine_inForce {strptime : List Char → Res DateTime} {svn : Int} {eph : DateTime} (ifrqn prn : Int) {errno : Int} (he : errno ≠ ERANGE)
    {l : List Char} (h : MwInForce strptime l svn eph) (b : List Char) {q r : Option (Int × List Char × Bool)}
    (hq : strtolA (fillLine b l) = .ok q) (hr : strtolA ((fillLine b l).drop 193) = .ok r) :
    bernLine strptime svn eph ifrqn prn (fillLine b l) errno =
      .ok (.inr (if strtolErr q = true ∨ strtolErr r = true then (3, toInt32 (strtolVal r), toInt32 (strtolVal q), 0)
        else (0, toInt32 (strtolVal r), toInt32 (strtolVal q), errno))) := by
  obtain ⟨v, hv, hvs⟩ := h.isSvn
  obtain ⟨start, stop, hst, hsp, hge, hlt⟩ := h.inForce
  obtain ⟨rv, hrv⟩ := strtol_nat (tail := b.drop (l.length + 1)) hv
  have hp' : strtolA ((fillLine b l).drop 28) = .ok (some ((v : Int), rv, false)) := hrv
  have hv' : toInt32 (v : Int) = v := toInt32_nat hv.2.choose_spec.choose_spec.choose_spec.2.2.2.2.2
  have hstart : strptime ((fillLine b l).drop 41) = .ok start := hst _
  have hstop : bernStop strptime (fillLine b l) 20 62 = .ok stop := by
    cases stop with
    | none => exact bernStop_blank 20 62 hsp
    | some d =>
      obtain ⟨⟨i, c, hi⟩, hd⟩ := hsp
      exact bernStop_some (hd _) 20 62 (by have := h.cols; omega) ⟨i, c, hi⟩
  have hb : beforeStop eph stop = true := by
    cases stop with
    | none => rfl
    | some e => simpa [beforeStop] using hlt e rfl
  have e1 : strtolErr (some ((v : Int), rv, false)) = false := rfl
  have e2 : strtolVal (some ((v : Int), rv, false)) = v := rfl
  unfold bernLine
  simp only [getAt_fill h.line.m, getAt_fill h.line.w, Res.bind_ok, and_self, if_true, hp', e1, e2, hv', Bool.false_eq_true, if_false]
  rw [if_neg (by simp [he]), if_pos hvs]
  simp only [hstart, hstop, Res.bind_ok]
  rw [if_pos ⟨hge, hb⟩]
  simp only [hq, hr, Res.bind_ok]
  cases h1 : strtolErr q <;> cases h2 : strtolErr r <;> simp [h1, h2, he]

/-- **C77** (PRN and channel).  After any (fewer than a thousand) records that are not in force, a
record that is in force and whose PRN or channel is beyond the range of `long` ends the lookup with
status 3 and `errno` clear (but the outputs are written). -/
theorem C77_range_refused {strptime : List Char → Res DateTime} {svn : Int} {eph : DateTime} (ifrqn prn : Int) {errno : Int} (he : errno ≠ ERANGE)
    {l : List Char} (h : MwInForce strptime l svn eph) (h193 : 193 ≤ l.length) (hbad : TooLong l ∨ TooLong (l.drop 193))
    (tail : List Char) (pre : List BernRec) (hlen : pre.length < 1000)
    (hw : ∀ q ∈ pre, q.WF strptime) (hn : ∀ q ∈ pre, ¬ q.InForce svn eph) (junk : List Char) (part2 : Nat) (s : Stream) (hs : s.fail = false)
    (hc : s.content.drop part2 = blockText pre l tail) :
    ∃ fr pr, BernSays (getFrequencyChannel strptime junk part2 svn eph ifrqn prn s errno) s 3 fr pr 0 := by
  obtain ⟨lim, b, s', h1, h2, h3, _⟩ := lookup_pass (strptime := strptime) (eph := eph) (svn := svn) ifrqn prn h.line tail pre (Or.inl he) hlen hw hn junk part2 s hs hc
  have hq : strtolA (fillLine b l) = .ok (strtol (fillLine b l)) := by
    unfold strtolA; rw [if_pos (by simp [fillLine])]
  have hr : strtolA ((fillLine b l).drop 193) = .ok (strtol ((fillLine b l).drop 193)) := by
    have : (fillLine b l).drop 193 = l.drop 193 ++ NUL :: b.drop (l.length + 1) := drop_line h193
    rw [this]
    unfold strtolA; rw [if_pos (by simp)]
  have hE : strtolErr (strtol (fillLine b l)) = true ∨ strtolErr (strtol ((fillLine b l).drop 193)) = true := by
    rcases hbad with hb | hb
    · left
      obtain ⟨v, r, hv⟩ := strtol_tooLong hb (b.drop (l.length + 1))
      have : strtol (fillLine b l) = some (v, r, true) := hv
      rw [this]; rfl
    · right
      have : (fillLine b l).drop 193 = l.drop 193 ++ NUL :: b.drop (l.length + 1) := drop_line h193
      obtain ⟨v, r, hv⟩ := strtol_tooLong hb (b.drop (l.length + 1))
      rw [this, hv]; rfl
  refine ⟨toInt32 (strtolVal (strtol ((fillLine b l).drop 193))), toInt32 (strtolVal (strtol (fillLine b l))), s', ?_, h2, h3⟩
  rw [h1, bernLoop_inr (bernLine_inForce ifrqn prn he h b hq hr), if_pos hE]

/-- **C77** (what is not noticed, 1).  A record in force whose channel columns hold no integer is
answered with status 0 and channel 0. -/
theorem C77_channel_unread {strptime : List Char → Res DateTime} {svn : Int} {eph : DateTime} (ifrqn prn : Int) {errno : Int} (he : errno ≠ ERANGE)
    {l : List Char} (h : MwInForce strptime l svn eph) (h193 : 193 ≤ l.length) (hbad : NoInt (l.drop 193)) {p : Nat} (hp : NatAt l 0 p)
    (tail : List Char) (pre : List BernRec) (hlen : pre.length < 1000)
    (hw : ∀ q ∈ pre, q.WF strptime) (hn : ∀ q ∈ pre, ¬ q.InForce svn eph) (junk : List Char) (part2 : Nat) (s : Stream) (hs : s.fail = false)
    (hc : s.content.drop part2 = blockText pre l tail) :
    BernSays (getFrequencyChannel strptime junk part2 svn eph ifrqn prn s errno) s 0 0 p errno := by
  obtain ⟨lim, b, s', h1, h2, h3, _⟩ := lookup_pass (strptime := strptime) (eph := eph) (svn := svn) ifrqn prn h.line tail pre (Or.inl he) hlen hw hn junk part2 s hs hc
  obtain ⟨rp, hrp⟩ := strtol_nat (tail := b.drop (l.length + 1)) hp
  have hp' : toInt32 (p : Int) = p := toInt32_nat hp.2.choose_spec.choose_spec.choose_spec.2.2.2.2.2
  have hq : strtolA (fillLine b l) = .ok (some ((p : Int), rp, false)) := hrp
  have hr : strtolA ((fillLine b l).drop 193) = .ok none := by
    have : (fillLine b l).drop 193 = l.drop 193 ++ NUL :: b.drop (l.length + 1) := drop_line h193
    rw [this]
    unfold strtolA; rw [if_pos (by simp), strtol_noInt hbad]
  refine ⟨s', ?_, h2, h3⟩
  rw [h1, bernLoop_inr (bernLine_inForce ifrqn prn he h b hq hr), if_neg (by simp [strtolErr])]
  simp only [strtolVal, hp']
  rfl

theorem drop_past_line {l b : List Char} {n : Nat} (h : l.length < n) : (fillLine b l).drop n = b.drop n := by
  obtain ⟨k, rfl⟩ : ∃ k, n = l.length + (k + 1) := ⟨n - l.length - 1, by omega⟩
  rw [fillLine, List.drop_append, List.drop_eq_nil_of_le (by omega), List.nil_append,
    Nat.add_sub_cancel_left, List.drop_succ_cons, List.drop_drop]
  congr 1; omega

/-- **C77** (what is not noticed, 2).  A record in force whose line ends before the channel columns is
answered with status 0 and the channel of the record before it, which is another satellite's (or no
longer in force). -/
theorem C77_short_record_previous_channel {strptime : List Char → Res DateTime} {svn : Int} {eph : DateTime} (ifrqn prn : Int) {errno : Int} (he : errno ≠ ERANGE)
    {l : List Char} (h : MwInForce strptime l svn eph) (hshort : l.length < 193) {p : Nat} (hp : NatAt l 0 p)
    (tail : List Char) (pre : List BernRec) (last : BernRec) (hlen : pre.length < 999) {v : Nat} {start : DateTime} {stop : Option DateTime} {lp : Nat} {ch : Int}
    (hlast : last.mw = some (v, start, stop, lp, ch))
    (hw : ∀ q ∈ pre ++ [last], q.WF strptime) (hn : ∀ q ∈ pre ++ [last], ¬ q.InForce svn eph) (junk : List Char) (part2 : Nat) (s : Stream) (hs : s.fail = false)
    (hc : s.content.drop part2 = blockText (pre ++ [last]) l tail) :
    BernSays (getFrequencyChannel strptime junk part2 svn eph ifrqn prn s errno) s 0 ch p errno := by
  obtain ⟨lim, b, s', h1, h2, h3, h4⟩ := lookup_pass (strptime := strptime) (eph := eph) (svn := svn) ifrqn prn h.line tail (pre ++ [last]) (Or.inl he)
    (by simp; omega) hw hn junk part2 s hs hc
  obtain ⟨b', rfl⟩ := h4 last (by simp)
  obtain ⟨_, _, _, _, _, _, _, hch⟩ := (hw last (by simp)).isMw _ _ _ _ _ hlast
  obtain ⟨rp, hrp⟩ := strtol_nat (tail := (fillLine b' last.line).drop (l.length + 1)) hp
  have hp' : toInt32 (p : Int) = p := toInt32_nat hp.2.choose_spec.choose_spec.choose_spec.2.2.2.2.2
  have hq : strtolA (fillLine (fillLine b' last.line) l) = .ok (some ((p : Int), rp, false)) := hrp
  have hd : (fillLine (fillLine b' last.line) l).drop 193 = (fillLine b' last.line).drop 193 := by
    exact drop_past_line hshort
  obtain ⟨rc, hrc⟩ := strtol_int (tail := b'.drop (last.line.length + 1)) hch
  have hr : strtolA ((fillLine (fillLine b' last.line) l).drop 193) = .ok (some (ch, rc, false)) := by rw [hd]; exact hrc
  have hc' : toInt32 ch = ch := by
    obtain ⟨_, _, _, _, _, _, _, _, _, _, hlo, hhi⟩ := hch
    exact toInt32_small (by omega) (by omega)
  refine ⟨s', ?_, h2, h3⟩
  rw [h1, bernLoop_inr (bernLine_inForce ifrqn prn he h _ hq hr), if_neg (by simp [strtolErr])]
  simp only [strtolVal, hp', hc']

/-! ### Examples -/
namespace BernBadEx
open BernExample

/-- SVN columns blank, then dashes. -/
def noSvn : List Char := c!"102  MW    GLONASS-M               ----  2003 12 10 00 00 00  2009 06 17 23 59 59" ++ gap 112 ++ c!"  5  G1"
/-- SVN too long for any integer type. -/
def bigSvn : List Char := c!"102  MW    GLONASS-M        99999999999999999999  2003 12 10 00 00 00"
/-- Satellite 702: no channel, only the signals. -/
def noChan : List Char := c!"102  MW    GLONASS-M        702    ----  2003 12 10 00 00 00  2009 06 17 23 59 59" ++ gap 112 ++ c!"     G1"
/-- Satellite 702: channel too long. -/
def bigChan : List Char := c!"102  MW    GLONASS-M        702    ----  2003 12 10 00 00 00  2009 06 17 23 59 59" ++ gap 112 ++ c!" 99999999999999999999"
/-- Satellite 702: the line ends after the sensor offsets. -/
def shortRec : List Char := c!"102  MW    GLONASS-M        702    ----  2003 12 10 00 00 00  2009 06 17 23 59 59   0.0000    0.0000    2.4500"
/-- SVN and sensor number blank: the year of the start time is taken for the SVN. -/
def yearSvn : List Char := c!"102  MW    GLONASS-M                     2003 12 10 00 00 00  2009 06 17 23 59 59" ++ gap 112 ++ c!"  5  G1"

set_option maxRecDepth 20000 in
theorem noSvn_mw : MwLine noSvn := ⟨by decide, by decide, rfl, rfl⟩
set_option maxRecDepth 20000 in
theorem noSvn_bad : BadInt (noSvn.drop 28) :=
  Or.inl ⟨7, some true, noSvn.drop 36, by decide, by intro c hc; rw [show (noSvn.drop 36).head? = some '-' by decide] at hc; simp at hc; subst hc; simp [Char.isDigit]⟩
set_option maxRecDepth 20000 in
theorem bigSvn_mw : MwLine bigSvn := ⟨by decide, by decide, rfl, rfl⟩
set_option maxRecDepth 20000 in
theorem bigSvn_bad : BadInt (bigSvn.drop 28) :=
  Or.inr ⟨0, [], c!"99999999999999999999", bigSvn.drop 48, by decide, Or.inl rfl, by decide, by decide, by decide⟩

set_option maxRecDepth 20000 in
theorem inForce_of {l : List Char} (hl : MwLine l) (h82 : 82 ≤ l.length) {v : Nat} (hv : NatAt l 28 v) {a b : Int}
    (h1 : (digitsVal ((l.drop 41).take 4) : Int) = a) (h2 : (digitsVal ((l.drop 62).take 4) : Int) = b)
    (h62 : ∃ c, l[62]? = some c ∧ c ≠ ' ') {t : DateTime} (ha : 365 * a * 86400 ≤ t.total) (hb : t.total < 365 * b * 86400) :
    MwInForce years l v t := by
  obtain ⟨c, hc, hc'⟩ := h62
  refine ⟨hl, h82, ⟨v, hv, rfl⟩, ⟨365 * a, 0⟩, some ⟨365 * b, 0⟩, years_at (by omega) (by rw [h1]), 
    ⟨⟨62, c, by decide, by decide, hc, hc'⟩, years_at (by omega) (by rw [h2])⟩, ?_, ?_⟩
  · simp only [DateTime.total] at *; omega
  · intro e he; simp only [Option.some.injEq] at he; subst he; simp only [DateTime.total] at *; omega

def t05 : DateTime := ⟨365 * 2005, 0⟩
theorem t05_total : t05.total = 365 * 2005 * 86400 := by decide

set_option maxRecDepth 20000 in
theorem noChan_in : MwInForce years noChan (702 : Nat) t05 :=
  inForce_of (a := 2003) (b := 2009) ⟨by decide, by decide, rfl, rfl⟩ (by decide) (natCheck_sound (k := 0) (ds := c!"702") (by decide)) (by decide) (by decide) ⟨'2', rfl, by decide⟩
    (by rw [t05_total]; omega) (by rw [t05_total]; omega)
set_option maxRecDepth 20000 in
theorem bigChan_in : MwInForce years bigChan (702 : Nat) t05 :=
  inForce_of (a := 2003) (b := 2009) ⟨by decide, by decide, rfl, rfl⟩ (by decide) (natCheck_sound (k := 0) (ds := c!"702") (by decide)) (by decide) (by decide) ⟨'2', rfl, by decide⟩
    (by rw [t05_total]; omega) (by rw [t05_total]; omega)
set_option maxRecDepth 20000 in
theorem shortRec_in : MwInForce years shortRec (702 : Nat) t05 :=
  inForce_of (a := 2003) (b := 2009) ⟨by decide, by decide, rfl, rfl⟩ (by decide) (natCheck_sound (k := 0) (ds := c!"702") (by decide)) (by decide) (by decide) ⟨'2', rfl, by decide⟩
    (by rw [t05_total]; omega) (by rw [t05_total]; omega)

theorem recs_not (svn : Int) (hsvn : svn ≠ 701) (t : DateTime) : ∀ q ∈ recs, ¬ q.InForce svn t := by
  rintro q hq ⟨v, a, b, c, d, hm, hv, _⟩
  simp only [recs, List.mem_cons, List.not_mem_nil, or_false] at hq
  rcases hq with rfl | rfl | rfl
  · simp only [r1, Option.some.injEq, Prod.mk.injEq] at hm; omega
  · simp [r2] at hm
  · simp only [r3, Option.some.injEq, Prod.mk.injEq] at hm; omega

def file (l : List Char) : Stream := ⟨blockText recs l c!"", 0, false, false⟩

/-- The lookup of satellite 702 in the file with the records of 701 and the line `l`. -/
def look (l : List Char) : Res BernOut := getFrequencyChannel years noise 0 (702 : Nat) t05 99 98 (file l) 0

example : BernSays (look noSvn) (file noSvn) 2 99 98 0 :=
  C77_svn_refused 99 98 (by decide) noSvn_mw noSvn_bad c!"" recs (by decide) recs_wf (recs_not _ (by decide) _) noise 0 _ rfl rfl
example : BernSays (look bigSvn) (file bigSvn) 2 99 98 0 :=
  C77_svn_refused 99 98 (by decide) bigSvn_mw bigSvn_bad c!"" recs (by decide) recs_wf (recs_not _ (by decide) _) noise 0 _ rfl rfl
set_option maxRecDepth 20000 in
example : ∃ fr pr, BernSays (look bigChan) (file bigChan) 3 fr pr 0 :=
  C77_range_refused 99 98 (by decide) bigChan_in (by decide)
    (Or.inr ⟨1, [], c!"99999999999999999999", [], by decide, Or.inl rfl, by decide, by decide, by decide⟩)
    c!"" recs (by decide) recs_wf (recs_not _ (by decide) _) noise 0 _ rfl rfl
set_option maxRecDepth 20000 in
example : BernSays (look noChan) (file noChan) 0 0 (102 : Nat) 0 :=
  C77_channel_unread 99 98 (by decide) noChan_in (by decide) ⟨5, none, c!"G1", by decide, by decide⟩
    (natCheck_sound (k := 0) (ds := c!"102") (by decide))
    c!"" recs (by decide) recs_wf (recs_not _ (by decide) _) noise 0 _ rfl rfl
/-- The file says nothing about the channel of satellite 702; the answer is 7, the channel of 701. -/
example : BernSays (look shortRec) (file shortRec) 0 7 (102 : Nat) 0 :=
  C77_short_record_previous_channel 99 98 (by decide) shortRec_in (by decide) (natCheck_sound (k := 0) (ds := c!"102") (by decide))
    c!"" [r1, r2] r3 (by decide) rfl recs_wf (recs_not _ (by decide) _) noise 0 _ rfl rfl
set_option maxRecDepth 20000 in
example : BernSays (getFrequencyChannel years noise 0 (702 : Nat) t05 99 98 ⟨blockText [] noChan c!"", 0, false, false⟩ ERANGE)
    ⟨blockText [] noChan c!"", 0, false, false⟩ 2 99 98 0 :=
  C77_stale_errno 99 98 noChan_in.line c!"" noise 0 _ rfl ⟨702, natCheck_sound (k := 0) (ds := c!"702") (by decide)⟩ rfl

set_option maxRecDepth 20000 in
theorem yearSvn_in : MwInForce years yearSvn (2003 : Nat) t05 :=
  inForce_of (a := 2003) (b := 2009) ⟨by decide, by decide, rfl, rfl⟩ (by decide) (natCheck_sound (k := 13) (ds := c!"2003") (by decide)) (by decide) (by decide) ⟨'2', rfl, by decide⟩
    (by rw [t05_total]; omega) (by rw [t05_total]; omega)

end BernBadEx

/-- **C77** (what is not noticed, 3).  A record whose SVN columns (29 to 31) are blank is not refused
when the columns between are blank as well: the year of its start of validity is taken for the
SVN. -/
theorem C77_blank_svn_takes_year : ∃ (l : List Char), LineFits 255 l ∧ BlankCols l 28 31 ∧ (l.drop 41).take 4 = c!"2003" ∧ MwInForce BernExample.years l 2003 BernBadEx.t05 :=
  ⟨BernBadEx.yearSvn, BernBadEx.yearSvn_in.line.fits, BernExample.blank_dec (by decide), by decide, BernBadEx.yearSvn_in⟩

end Ggnss
