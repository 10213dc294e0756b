import Verif.Spec.AntexOffsets
import Verif.Props.AntexSoundText
import Verif.Props.AntexDamage
/-!
# C97: the offsets a query delivers stand in the file
-/
namespace Ggnss

theorem scanTo_text {n : Nat} {pat : List Char} (hp : IsCStr pat) : ∀ (fuel : Nat) (suf : List (List Char)) (buf : List Char) (s : Stream)
    (r : List Char × Stream), (∀ l ∈ suf, GridLine l) → BeforeLines suf s → atxScanTo n pat fuel buf s = .ok r →
    r.2.fail = true ∨ ∃ pre l suf' b, suf = pre ++ l :: suf' ∧ (∀ x ∈ pre, ¬ HasLabel x pat) ∧ HasLabel l pat ∧ r.1 = fillLine b l ∧ BeforeLines suf' r.2 := by
  intro fuel
  induction fuel with
  | zero => intro suf buf s r _ _ h; cases h
  | succ fuel ih =>
    intro suf buf s r hw hs h
    rw [atxScanTo] at h
    rcases getline_before hw hs n with hf | ⟨l, suf', rfl, h1, h2, h3⟩
    · simp only [hf, if_true] at h
      cases h
      exact Or.inl hf
    · have hl := hw l (by simp)
      rw [h1] at h
      simp only [((Stream.good_iff _).1 h3.1).2, Bool.false_eq_true, if_false, atxLabel_line hl.1.2.1 hl.2 hp, Res.bind_ok] at h
      by_cases hlab : HasLabel l pat
      · rw [if_pos (by simpa using hlab)] at h
        cases h
        exact Or.inr ⟨[], l, suf', buf, rfl, by simp, hlab, rfl, h3⟩
      · rw [if_neg (by simpa using hlab)] at h
        rcases ih suf' _ _ _ (fun x hx => hw x (by simp [hx])) h3 h with hf | ⟨pre, x, suf2, b, rfl, e2, e3⟩
        · exact Or.inl hf
        · refine Or.inr ⟨l :: pre, x, suf2, b, rfl, ?_, e3⟩
          intro y hy
          rcases List.mem_cons.1 hy with rfl | hy
          · exact hlab
          · exact e2 y hy

theorem scanTo_failed {n : Nat} {pat : List Char} {fuel : Nat} {buf : List Char} {s : Stream} (hs : s.fail = true) {r : List Char × Stream}
    (h : atxScanTo n pat fuel buf s = .ok r) : r.2.fail = true := by
  cases fuel with
  | zero => cases h
  | succ fuel =>
    rw [atxScanTo, Stream.getline_bad (by simp [Stream.good, hs])] at h
    simp only [if_true] at h
    cases h
    rfl

theorem expect_failed {n : Nat} {pat buf : List Char} {s : Stream} (hs : s.fail = true) {r : Bool × List Char × Stream}
    (h : atxExpect n pat buf s = .ok r) : r.1 = false := by
  unfold atxExpect at h
  rw [Stream.getline_bad (by simp [Stream.good, hs])] at h
  simp only [if_true] at h
  cases h
  rfl

/-- The array holds a line, and the stream stands behind it; or reading failed. -/
def AtHead (hline : List Char) (s : Stream) (ls : List (List Char)) : Prop :=
  s.fail = true ∨ ∃ l suf b, ls = l :: suf ∧ hline = fillLine b l ∧ BeforeLines suf s

/-- Being at a `START OF FREQUENCY` line: it is the line at hand, or the one behind a block of rms values. -/
theorem pcoAtFreq_text {fuel : Nat} {hline gline : List Char} {s : Stream} {ls : List (List Char)} (hw : ∀ l ∈ ls, GridLine l) (hs : AtHead hline s ls)
    {h' g' : List Char} {s' : Stream} (h : pcoAtFreq fuel hline gline s = .ok (.inl (h', g', s'))) :
    ∃ pre freq suf b, ls = pre ++ freq :: suf ∧ HasLabel freq c!"START OF FREQUENCY" ∧ h' = fillLine b freq ∧ BeforeLines suf s' ∧
      (pre = [] ∨ ∃ start mid stop, pre = start :: (mid ++ [stop]) ∧ HasLabel start c!"START OF FREQ RMS" ∧
        (∀ l ∈ mid, ¬ HasLabel l c!"END OF FREQ RMS") ∧ HasLabel stop c!"END OF FREQ RMS") := by
  unfold pcoAtFreq at h
  rcases hs with hf | ⟨l, suf, b, rfl, rfl, hb⟩
  · simp only [hf, if_true, Res.pure_eq, Res.bind_ok, Bool.false_eq_true, if_false] at h
    obtain ⟨x, _, h⟩ := Res.bind_eq_ok.1 h
    cases x with
    | false => cases h
    | true =>
      simp only [if_true] at h
      obtain ⟨r, hr, h⟩ := Res.bind_eq_ok.1 h
      have hrf := scanTo_failed hf hr
      obtain ⟨e, he, h⟩ := Res.bind_eq_ok.1 h
      rw [expect_failed hrf he] at h
      cases h
  · have hl := hw l (by simp)
    have hws : ∀ x ∈ suf, GridLine x := fun x hx => hw x (by simp [hx])
    simp only [((Stream.good_iff _).1 hb.1).2, Bool.false_eq_true, if_false, atxLabel_line hl.1.2.1 hl.2 (pat := c!"START OF FREQUENCY") (by decide),
      atxLabel_line hl.1.2.1 hl.2 (pat := c!"START OF FREQ RMS") (by decide), Res.bind_ok, decide_eq_true_eq] at h
    by_cases h1 : HasLabel l c!"START OF FREQUENCY"
    · rw [if_pos h1] at h
      cases h
      exact ⟨[], l, suf, b, rfl, h1, rfl, hb, Or.inl rfl⟩
    · rw [if_neg h1] at h
      by_cases h2 : HasLabel l c!"START OF FREQ RMS"
      · rw [if_pos h2] at h
        obtain ⟨r, hr, h⟩ := Res.bind_eq_ok.1 h
        obtain ⟨e, he, h⟩ := Res.bind_eq_ok.1 h
        have het : e.1 = true := by
          cases hx : e.1 with
          | true => rfl
          | false => rw [hx] at h; cases h
        rw [if_pos het] at h
        cases h
        rcases scanTo_text (by decide) fuel suf gline s r hws hb hr with hrf | ⟨mid, stop, suf2, b2, rfl, k1, k2, _, k4⟩
        · rw [expect_failed hrf he] at het; cases het
        · obtain ⟨freq, suf3, rfl, m1, m2, m3⟩ := expect_next (fun x hx => hws x (by simp [hx])) (by decide) k4 he het
          exact ⟨l :: (mid ++ [stop]), freq, suf3, _, by simp, m1, m2, m3, Or.inr ⟨l, mid, stop, rfl, h2, k1, k2⟩⟩
      · rw [if_neg h2] at h
        cases h

theorem pcoAtFreq_inr {fuel : Nat} {hline gline : List Char} {s s' : Stream} {st : Int} (h : pcoAtFreq fuel hline gline s = .ok (.inr (st, s'))) : st ≠ 0 := by
  unfold pcoAtFreq at h
  obtain ⟨x, _, h⟩ := Res.bind_eq_ok.1 h
  cases x with
  | true => cases h
  | false =>
    simp only [Bool.false_eq_true, if_false] at h
    obtain ⟨y, _, h⟩ := Res.bind_eq_ok.1 h
    cases y with
    | false => cases h; decide
    | true =>
      simp only [if_true] at h
      obtain ⟨r, _, h⟩ := Res.bind_eq_ok.1 h
      obtain ⟨e, _, h⟩ := Res.bind_eq_ok.1 h
      split at h
      · cases h
      · cases h; decide

theorem satsys_of_letter {c : Char} {sys : SatSys} (h : charToSatsys c = .ok sys) : c = satsysToChar sys := by
  by_contra hne
  by_cases hex : ∃ q, c = satsysToChar q
  · obtain ⟨q, rfl⟩ := hex
    rw [charToSatsys_letter q] at h
    cases h
    exact hne rfl
  · exact charToSatsys_none (fun q hq => hex ⟨q, hq⟩) sys h

/-- System letter and band of a frequency. -/
theorem pcoBand_text {b freq : List Char} (hl : GridLine freq) {sys : SatSys} {bn : Int} (h : pcoBand (fillLine b freq) = .ok (some (sys, bn))) :
    freq[3]? = some (satsysToChar sys) ∧ IntBegins ((freq.drop 4).take 2) bn := by
  have h60 := hl.2
  unfold pcoBand at h
  obtain ⟨c, hc, h⟩ := Res.bind_eq_ok.1 h
  have hc3 : freq[3]? = some c := by
    unfold getAt at hc
    split at hc
    · rename_i x hx
      cases hc
      rw [← hx]
      unfold fillLine
      rw [List.getElem?_append_left (by omega)]
    · cases hc
  split at h
  · rename_i sys' hsys
    split at h
    · rename_i b' hb
      cases h
      rw [drop_take_fill (by omega)] at hb
      exact ⟨by rw [hc3, satsys_of_letter hsys], stoi_begins hb⟩
    · cases h
  · cases h

/-- The offsets of the loop over the frequencies. -/
theorem pcoLoop_text {fuel : Nat} : ∀ (n : Nat) (hline gline : List Char) (list : List Pco) (s : Stream) (ls : List (List Char)) (r : Int × List Pco × Stream),
    (∀ l ∈ ls, GridLine l) → AtHead hline s ls → pcoLoop fuel n hline gline list s = .ok r →
    ∃ ps, r.2.1 = list ++ ps ∧ ps.length ≤ n ∧ (r.1 = 0 → ps.length = n) ∧ OffsetsNext ls ps := by
  intro n
  induction n with
  | zero =>
    intro hline gline list s ls r _ _ h
    cases h
    exact ⟨[], by simp, by simp, by simp, .freq _ _ (.none _)⟩
  | succ n ih =>
    intro hline gline list s ls r hw hs h
    rw [pcoLoop] at h
    obtain ⟨x, hx, h⟩ := Res.bind_eq_ok.1 h
    rcases x with ⟨h', g', s'⟩ | ⟨st, s'⟩
    · simp only at h
      obtain ⟨pre, freq, suf, b, rfl, hfl, rfl, hb, hpre⟩ := pcoAtFreq_text hw hs hx
      have close : ∀ ps, OffsetsAt (freq :: suf) ps → OffsetsNext (pre ++ freq :: suf) ps := by
        intro ps hps
        rcases hpre with rfl | ⟨start, mid, stop, rfl, p1, p2, p3⟩
        · exact .freq _ _ hps
        · have := OffsetsNext.rms start mid stop (freq :: suf) ps p1 p2 p3 hps
          simpa using this
      obtain ⟨y, hy, h⟩ := Res.bind_eq_ok.1 h
      rcases y with _ | ⟨sys, bn⟩
      · cases h
        exact ⟨[], by simp, by simp, by simp, .freq _ _ (.none _)⟩
      · simp only at h
        obtain ⟨q1, q2⟩ := pcoBand_text (hw freq (by simp)) hy
        obtain ⟨e, he, h⟩ := Res.bind_eq_ok.1 h
        by_cases het : e.1 = false
        · rw [if_pos het] at h
          cases h
          exact ⟨[], by simp, by simp, by simp, .freq _ _ (.none _)⟩
        · rw [if_neg het] at h
          have hws : ∀ x ∈ suf, GridLine x := fun x hx => hw x (by simp [hx])
          obtain ⟨neu, suf2, rfl, m1, m2, m3⟩ := expect_next hws (by decide) hb he (by simpa using het)
          have h60 := (hws neu (by simp)).2
          obtain ⟨dn, hdn, h⟩ := Res.bind_eq_ok.1 h
          obtain ⟨de, hde, h⟩ := Res.bind_eq_ok.1 h
          obtain ⟨du, hdu, h⟩ := Res.bind_eq_ok.1 h
          rw [m2, take_fill (by omega)] at hdn
          rw [m2, drop_take_fill (by omega)] at hde hdu
          have hoff : OffsetLines freq neu ⟨⟨.any, bn, '?'⟩, sys, dn, de, du⟩ :=
            ⟨rfl, hfl, q1, q2, m1, stod_begins hdn, stod_begins hde, stod_begins hdu⟩
          obtain ⟨z, hz, h⟩ := Res.bind_eq_ok.1 h
          have hws2 : ∀ x ∈ suf2, GridLine x := fun x hx => hws x (by simp [hx])
          rcases scanTo_text (by decide) fuel suf2 g' e.2.2 z hws2 m3 hz with hzf | ⟨mid, stop, suf3, b3, rfl, k1, k2, _, k4⟩
          · have hbad : (z.2.getline ATX_HEADER_CHARS).2.fail = true := by
              rw [Stream.getline_bad (by simp [Stream.good, hzf])]
            obtain ⟨ps, e1, e2, e3, e4⟩ := ih _ _ _ _ [] r (by simp) (Or.inl hbad) h
            have hps : ps = [] := by
              cases e4 with
              | freq _ _ h => cases h; rfl
            subst hps
            refine ⟨[⟨⟨.any, bn, '?'⟩, sys, dn, de, du⟩], by rw [e1]; simp, by simp, ?_, close _ (.last _ _ _ _ hoff)⟩
            intro h0
            have := e3 h0
            rw [← this]; rfl
          · have hws3 : ∀ x ∈ suf3, GridLine x := fun x hx => hws2 x (by simp [hx])
            have hat : AtHead (fillLine e.2.1 (z.2.getline ATX_HEADER_CHARS).1) (z.2.getline ATX_HEADER_CHARS).2 suf3 := by
              rcases getline_before hws3 k4 ATX_HEADER_CHARS with hf | ⟨l, suf4, rfl, i1, _, i3⟩
              · exact Or.inl hf
              · rw [i1]; exact Or.inr ⟨l, suf4, _, rfl, rfl, i3⟩
            obtain ⟨ps, e1, e2, e3, e4⟩ := ih _ _ _ _ suf3 r hws3 hat h
            refine ⟨⟨⟨.any, bn, '?'⟩, sys, dn, de, du⟩ :: ps, by rw [e1]; simp, by simp; omega, ?_, close _ (.more _ _ _ _ _ _ _ hoff k1 k2 e4)⟩
            intro h0
            have := e3 h0
            simp only [List.length_cons]
            omega
    · cases h
      refine ⟨[], by simp, by simp, ?_, .freq _ _ (.none _)⟩
      intro h0
      exact absurd h0 (pcoAtFreq_inr hx)

/-- The offsets `collect_pco` adds to an empty list, when it starts behind a `TYPE / SERIAL NO` line. -/
theorem collectPco_text {J : AtxJunk} {fuel : Nat} {s : Stream} {suf : List (List Char)} (hw : ∀ l ∈ suf, GridLine l) (hs : BeforeLines suf s)
    {r : Int × List Pco × Stream} (h : collectPco J fuel [] s = .ok r) :
    (r.1 ≠ 0 ∧ r.2.1 = []) ∨ ∃ n, RecordGives suf n r.2.1 ∧ (r.2.1.length : Int) ≤ max n 0 ∧ (r.1 = 0 → (r.2.1.length : Int) = max n 0) := by
  unfold collectPco at h
  have h := Res.noexcept_eq_ok.1 h
  obtain ⟨a, ha, h⟩ := Res.bind_eq_ok.1 h
  by_cases hat : a.1 = false
  · rw [if_pos hat] at h; cases h; exact Or.inl ⟨by simp, rfl⟩
  rw [if_neg hat] at h
  obtain ⟨meth, suf1, rfl, l1, _, b1⟩ := expect_next hw (by decide) hs ha (by simpa using hat)
  have hw1 : ∀ l ∈ suf1, GridLine l := fun l hl => hw l (by simp [hl])
  obtain ⟨c, hc, h⟩ := Res.bind_eq_ok.1 h
  by_cases hct : c.1 = false
  · rw [if_pos hct] at h; cases h; exact Or.inl ⟨by simp, rfl⟩
  rw [if_neg hct] at h
  obtain ⟨dazi, suf2, rfl, l2, _, b2⟩ := expect_next hw1 (by decide) b1 hc (by simpa using hct)
  have hw2 : ∀ l ∈ suf2, GridLine l := fun l hl => hw1 l (by simp [hl])
  obtain ⟨d, hd, h⟩ := Res.bind_eq_ok.1 h
  by_cases hdt : d.1 = false
  · rw [if_pos hdt] at h; cases h; exact Or.inl ⟨by simp, rfl⟩
  rw [if_neg hdt] at h
  obtain ⟨zen, suf3, rfl, l3, _, b3⟩ := expect_next hw2 (by decide) b2 hd (by simpa using hdt)
  have hw3 : ∀ l ∈ suf3, GridLine l := fun l hl => hw2 l (by simp [hl])
  obtain ⟨e, he, h⟩ := Res.bind_eq_ok.1 h
  by_cases het : e.1 = false
  · rw [if_pos het] at h; cases h; exact Or.inl ⟨by simp, rfl⟩
  rw [if_neg het] at h
  obtain ⟨num, suf4, rfl, l4, m4, b4⟩ := expect_next hw3 (by decide) b3 he (by simpa using het)
  have hw4 : ∀ l ∈ suf4, GridLine l := fun l hl => hw3 l (by simp [hl])
  have h60 := (hw3 num (by simp)).2
  split at h
  · rename_i nf hnf
    rw [m4, take_fill (by omega)] at hnf
    obtain ⟨z, hz, h⟩ := Res.bind_eq_ok.1 h
    rcases scanTo_text (by decide) fuel suf4 e.2.1 e.2.2 z hw4 b4 hz with hzf | ⟨opts, freq, suf5, b5, rfl, k1, k2, k3, k4⟩
    · obtain ⟨ps, e1, e2, e3, e4⟩ := pcoLoop_text _ _ _ _ _ [] r (by simp) (Or.inl hzf) h
      have hps : ps = [] := by
        cases e4 with
        | freq _ _ h => cases h; rfl
      subst hps
      simp only [List.append_nil] at e1
      right
      refine ⟨nf, ⟨meth, dazi, zen, num, [], suf4, rfl, l1, l2, l3, l4, stoi_begins hnf, by simp, ?_⟩, ?_, ?_⟩
      · rw [e1]; exact .none _
      · rw [e1]; simp
      · intro h0
        have := e3 h0
        rw [e1]
        simp only [List.length_nil] at this ⊢
        omega
    · obtain ⟨ps, e1, e2, e3, e4⟩ := pcoLoop_text _ _ _ _ _ (freq :: suf5) r (fun l hl => hw4 l (by simp at hl ⊢; tauto))
        (Or.inr ⟨freq, suf5, b5, rfl, k3, k4⟩) h
      simp only [List.nil_append] at e1
      right
      refine ⟨nf, ⟨meth, dazi, zen, num, opts, freq :: suf5, rfl, l1, l2, l3, l4, stoi_begins hnf, k1, ?_⟩, ?_, ?_⟩
      · rw [e1]
        generalize hq : freq :: suf5 = q at e4
        cases e4 with
        | freq _ _ h => rw [← hq] at h ⊢; exact h
        | rms start mid stop ls ps p1 p2 p3 p4 =>
          simp only [List.cons.injEq] at hq
          rw [hq.1] at k2
          exact absurd p1 (k2.excl (by decide) (by decide))
      · rw [e1]; omega
      · intro h0
        have := e3 h0
        rw [e1]; omega
  · cases h; exact Or.inl ⟨by simp, rfl⟩

/-! ## The search -/

/-- The line names model and radome of the antenna built from `k`, and the serial number last set by `ss`. -/
def ExactType (k : AntCtor) (ss : List (List Char)) (type : List Char) : Prop :=
  type.take 20 = specModel k ∧ (∃ c ∈ (type.drop 20).take 20, c ≠ ' ') ∧
    ∃ s, ss.getLast? = some s ∧ serialNonBlank s ∧ (type.drop 20).take 20 = padTo 20 s

/-- The line names model and radome, and no serial number. -/
def CloseType (k : AntCtor) (type : List Char) : Prop := type.take 20 = specModel k ∧ ∀ c ∈ (type.drop 20).take 20, c = ' '

/-- Behind position `q` of the file there are the lines of a record whose second line and whose lines behind that are such. -/
def RecordAt (content : List Char) (ls : List (List Char)) (q : Option Nat) (P : List Char → List (List Char) → Prop) : Prop :=
  ∃ p pre start type suf, q = some p ∧ ls = pre ++ start :: type :: suf ∧ HasLabel start c!"START OF ANTENNA" ∧
    HasLabel type c!"TYPE / SERIAL NO" ∧ P type suf ∧ content.drop p = linesText suf

theorem expect_content {n : Nat} {pat buf : List Char} {s : Stream} {r : Bool × List Char × Stream} (h : atxExpect n pat buf s = .ok r) :
    r.2.2.content = s.content := by
  unfold atxExpect at h
  simp only at h
  split at h
  · cases h; exact Stream.getline_content rfl
  · obtain ⟨e, _, h⟩ := Res.bind_eq_ok.1 h
    cases h; exact Stream.getline_content rfl

theorem readType_content {J : AtxJunk} {ant c : List Char} {s : Stream} {r : AtxType} (h : atxReadType J ant c s = .ok r) : r.strm.content = s.content := by
  unfold atxReadType at h
  obtain ⟨a, ha, h⟩ := Res.bind_eq_ok.1 h
  have ha := expect_content ha
  split at h
  · split at h <;> cases h <;> exact ha
  · obtain ⟨b, hb, h⟩ := Res.bind_eq_ok.1 h
    have hb := (expect_content hb).trans ha
    split at h
    · cases h; exact hb
    · simp only at h
      obtain ⟨_, _, h⟩ := Res.bind_eq_ok.1 h
      obtain ⟨_, _, h⟩ := Res.bind_eq_ok.1 h
      obtain ⟨_, _, h⟩ := Res.bind_eq_ok.1 h
      obtain ⟨_, _, h⟩ := Res.bind_eq_ok.1 h
      cases h; exact hb

theorem skipLoop_content : ∀ (left : Nat) (buf : List Char) (s : Stream) (r : Int × Stream), atxSkipLoop left buf s = .ok r → r.2.content = s.content := by
  intro left
  induction left with
  | zero => intro buf s r h; cases h; rfl
  | succ left ih =>
    intro buf s r h
    rw [atxSkipLoop] at h
    obtain ⟨e, _, h⟩ := Res.bind_eq_ok.1 h
    split at h
    · cases h; exact Stream.getline_content rfl
    · exact (ih _ _ _ h).trans (Stream.getline_content rfl)

/-- The first two lines of a record, when they are there. -/
theorem readType_next {J : AtxJunk} (hJ : J.WF) {ls : List (List Char)} (hw : ∀ l ∈ ls, GridLine l) {cur c : List Char} (hc : 60 ≤ c.length) {s : Stream}
    (hs : Onward ls s) {r : AtxType} (h : atxReadType J cur c s = .ok r) (h0 : r.status = 0) :
    ∃ pre start type suf, ls = pre ++ start :: type :: suf ∧ (AtxRaw.name ⟨start, type, [], []⟩).Named ∧ BeforeLines suf r.strm ∧
      AntReach r.ant (.fromCStr type) (AtxRaw.name ⟨start, type, [], []⟩).serials := by
  rcases hs with hf | ⟨pre, suf1, rfl, hb⟩
  · exfalso
    unfold atxReadType at h
    obtain ⟨a, ha, h⟩ := Res.bind_eq_ok.1 h
    rw [if_pos (expect_failed hf ha)] at h
    split at h <;> cases h <;> cases h0
  · have hw1 : ∀ l ∈ suf1, GridLine l := fun l hl => hw l (by simp [hl])
    have key : ∃ start type suf, suf1 = start :: type :: suf ∧ Labelled start c!"START OF ANTENNA" ∧ Labelled type c!"TYPE / SERIAL NO" := by
      have h' := h
      unfold atxReadType at h'
      obtain ⟨a, ha, h'⟩ := Res.bind_eq_ok.1 h'
      by_cases hat : a.1 = false
      · rw [if_pos hat] at h'
        split at h' <;> cases h' <;> cases h0
      · rw [if_neg hat] at h'
        have fits : ∀ {suf : List (List Char)} {s : Stream} {l : List Char} {suf' : List (List Char)} {pat buf : List Char} {r : Bool × List Char × Stream},
            (∀ l ∈ suf, GridLine l) → BeforeLines suf s → suf = l :: suf' → atxExpect ATX_HEADER_CHARS pat buf s = .ok r → r.1 = true → LineFits 84 l := by
          intro suf s l suf' pat buf r hw hb he hr ht
          have hl := hw l (by rw [he]; simp)
          refine ⟨hl.1.1, hl.1.2.1, ?_⟩
          unfold atxExpect at hr
          rcases getline_before hw hb ATX_HEADER_CHARS with hf | ⟨l', suf2, e1, h1, h2, h3⟩
          · simp only [hf, if_true] at hr
            cases hr; cases ht
          · rw [he] at e1
            cases e1
            exact h2
        obtain ⟨start, suf2, e1, l1, _, b1⟩ := expect_next hw1 (by decide) hb ha (by simpa using hat)
        have f1 := fits hw1 hb e1 ha (by simpa using hat)
        have hw2 : ∀ l ∈ suf2, GridLine l := fun l hl => hw1 l (by rw [e1]; simp [hl])
        obtain ⟨b, hb', h'⟩ := Res.bind_eq_ok.1 h'
        by_cases hbt : b.1 = false
        · rw [if_pos hbt] at h'
          cases h'; cases h0
        · obtain ⟨type, suf, e2, l2, _, b2⟩ := expect_next hw2 (by decide) b1 hb' (by simpa using hbt)
          have f2 := fits hw2 b1 e2 hb' (by simpa using hbt)
          exact ⟨start, type, suf, by rw [e1, e2], ⟨f1, l1⟩, ⟨f2, l2⟩⟩
    obtain ⟨start, type, suf, rfl, l1, l2⟩ := key
    have hn : (AtxRaw.name ⟨start, type, [], []⟩).Named := ⟨l1, l2⟩
    have hr : s.rest = linesText (start :: type :: suf) ++ [] := by rw [hb.2]; simp
    obtain ⟨ant, he, hreach⟩ := readType_block hJ hn (cur := cur) hc hb.1 hr
    rw [he] at h
    cases h
    refine ⟨pre, start, type, suf, rfl, hn, ⟨hb.1, ?_⟩, hreach⟩
    have := Stream.past_rest (s := s) (ls := [start, type]) (t := linesText suf) (by rw [hb.2]; simp [linesText])
    exact this

theorem matchLoop_text {J : AtxJunk} (hJ : J.WF) {ls : List (List Char)} (hw : ∀ l ∈ ls, GridLine l) {content : List Char} {antIn : List Char} {k : AntCtor}
    {ss : List (List Char)} (hi : AntReach antIn k ss) :
    ∀ (fuel : Nat) (cur best : List Char) (bp : Option Nat) (st2 : Option Int) (s : Stream) (m : AtxMatch), Onward ls s → s.content = content →
      (bp = some 0 ∨ RecordAt content ls bp (fun t _ => CloseType k t)) →
      atxMatchLoop J antIn fuel cur best bp st2 s = .ok m →
      m.strm.content = content ∧ (m.status = -1 → RecordAt content ls m.pos (fun t _ => ExactType k ss t)) ∧
        (m.status = 0 → m.pos = some 0 ∨ RecordAt content ls m.pos (fun t _ => CloseType k t)) ∧ (m.status = -1 ∨ 0 ≤ m.status) := by
  intro fuel
  induction fuel with
  | zero => intro cur best bp st2 s m _ _ _ h; cases h
  | succ fuel ih =>
    intro cur best bp st2 s m hs hc hbp h
    have done : ∀ {st : Int} {st2 : Option Int} {best : List Char} {bp : Option Nat} {s : Stream} {m : AtxMatch}, s.content = content →
        (bp = some 0 ∨ RecordAt content ls bp (fun t _ => CloseType k t)) → atxMatchEnd st st2 best bp s = .ok m →
        m.strm.content = content ∧ (m.status = -1 → RecordAt content ls m.pos (fun t _ => ExactType k ss t)) ∧
        (m.status = 0 → m.pos = some 0 ∨ RecordAt content ls m.pos (fun t _ => CloseType k t)) ∧ (m.status = -1 ∨ 0 ≤ m.status) := by
      intro st st2 best bp s m hc hbp h
      unfold atxMatchEnd at h
      split at h
      · cases h; exact ⟨hc, by simp, by simp, by simp⟩
      · split at h
        · cases h
        · split at h
          · cases h; exact ⟨hc, by simp, by simp, by simp⟩
          · cases h; exact ⟨hc, by simp, fun _ => hbp, by simp⟩
    unfold atxMatchLoop at h
    obtain ⟨r, hr, h⟩ := Res.bind_eq_ok.1 h
    have hrc := (readType_content hr).trans hc
    split at h
    · exact done hrc hbp h
    · rename_i hst
      obtain ⟨pre, start, type, suf, hls, hn, hb, hreach⟩ := readType_next hJ hw (by rw [hJ.head]; decide) hs hr (by simpa using hst)
      have htell : r.strm.tellg = (some r.strm.pos, r.strm) := tellg_good hb.1
      have hat : ∀ P : List Char → List (List Char) → Prop, P type suf → RecordAt content ls (some r.strm.pos) P := by
        intro P hP
        refine ⟨_, pre, start, type, suf, rfl, hls, hn.start.2, hn.type.2, hP, ?_⟩
        rw [← hrc]
        exact hb.2
      obtain ⟨x, hs1, hs2⟩ := same_iff hn hreach hi
      have hcm := C13_compare_model hreach hi
      have hmod : specModel (.fromCStr type) = (AtxRaw.name ⟨start, type, [], []⟩).model := model_eq hn
      rw [hmod] at hcm
      obtain ⟨_, _, _, hsr, hh1, hh2⟩ := hreach.shape
      rw [serial_nonblank hn] at hh2
      rw [hs1, Res.bind_ok] at h
      by_cases hx : x = true
      · rw [if_pos hx, htell] at h
        cases h
        obtain ⟨e1, e2, e3⟩ := hs2.1 hx
        refine ⟨hrc, fun _ => hat _ ⟨e1, ?_, e3⟩, by simp, by simp⟩
        unfold AtxBlock.NoSerial at e2
        push Not at e2
        exact e2
      · rw [if_neg hx, hcm, Res.bind_ok] at h
        obtain ⟨hsv, hhs, h⟩ := Res.bind_eq_ok.1 h
        simp only at h
        -- where the search goes on, and which record is remembered
        have hb2 : ∀ b : List Char × Option Nat × Stream,
            b = (if (decide ((AtxRaw.name ⟨start, type, [], []⟩).model = specModel k) && !hsv) = true then (r.ant, r.strm.tellg) else (best, (bp, r.strm))) →
            b.2.2 = r.strm ∧ (b.2.1 = some 0 ∨ RecordAt content ls b.2.1 (fun t _ => CloseType k t)) := by
          intro b hbq
          by_cases hq : (decide ((AtxRaw.name ⟨start, type, [], []⟩).model = specModel k) && !hsv) = true
          · rw [if_pos hq, htell] at hbq
            subst hbq
            refine ⟨rfl, Or.inr (hat _ ?_)⟩
            simp only [Bool.and_eq_true, decide_eq_true_eq, Bool.not_eq_eq_eq_not, Bool.not_true] at hq
            refine ⟨hq.1, ?_⟩
            rw [if_pos (decide_eq_true hq.1), hh1] at hhs
            cases hhs
            have : ¬ ¬ (AtxRaw.name ⟨start, type, [], []⟩).NoSerial := fun hne => by
              have := hh2.2 hne
              rw [hq.2] at this
              cases this
            exact not_not.1 this
          · rw [if_neg hq] at hbq
            subst hbq
            exact ⟨rfl, hbp⟩
        generalize hbb : (if (decide ((AtxRaw.name ⟨start, type, [], []⟩).model = specModel k) && !hsv) = true then (r.ant, r.strm.tellg) else (best, (bp, r.strm))) = b at h
        obtain ⟨q1, q2⟩ := hb2 b hbb.symm
        rw [q1] at h
        obtain ⟨kk, hk, h⟩ := Res.bind_eq_ok.1 h
        have hws : ∀ l ∈ suf, GridLine l := fun l hl => hw l (by rw [hls]; simp [hl])
        have hk2 : Onward ls kk.2 := by
          have := skipLoop_text hws 5000 _ _ _ (Or.inr ⟨[], suf, rfl, hb⟩) hk
          have := this.mono (pre := pre ++ [start, type])
          rw [hls]
          simpa using this
        have hkc := (skipLoop_content _ _ _ _ hk).trans hrc
        split at h
        · exact done hkc q2 h
        · exact ih _ _ _ _ _ _ hk2 hkc q2 h

theorem collectPco_failed {J : AtxJunk} {fuel : Nat} {s : Stream} (hs : s.fail = true) {r : Int × List Pco × Stream} (h : collectPco J fuel [] s = .ok r) :
    r.1 ≠ 0 ∧ r.2.1 = [] := by
  unfold collectPco at h
  have h := Res.noexcept_eq_ok.1 h
  obtain ⟨a, ha, h⟩ := Res.bind_eq_ok.1 h
  rw [if_pos (expect_failed hs ha)] at h
  cases h
  exact ⟨by simp, rfl⟩

/-- Collecting at a record that was found. -/
theorem collect_at {J : AtxJunk} {fuel : Nat} {ls : List (List Char)} (hw : ∀ l ∈ ls, GridLine l) {content : List Char} {q : Option Nat} {P : List Char → List (List Char) → Prop}
    (hq : RecordAt content ls q P) {s : Stream} (hc : s.content = content) {r : Int × List Pco × Stream} (h : collectPco J fuel [] (atxSeek s q) = .ok r) :
    (r.1 ≠ 0 ∧ r.2.1 = []) ∨ ∃ pre start type suf n, ls = pre ++ start :: type :: suf ∧ HasLabel start c!"START OF ANTENNA" ∧
      HasLabel type c!"TYPE / SERIAL NO" ∧ P type suf ∧ RecordGives suf n r.2.1 ∧ (r.2.1.length : Int) ≤ max n 0 ∧ (r.1 = 0 → (r.2.1.length : Int) = max n 0) := by
  obtain ⟨p, pre, start, type, suf, rfl, hls, h1, h2, h3, h4⟩ := hq
  by_cases hf : (atxSeek s (some p)).fail = true
  · exact Or.inl (collectPco_failed hf h)
  · have hsf : s.fail = false := by
      simp only [atxSeek, Stream.seekg] at hf
      cases hx : s.fail with
      | false => rfl
      | true => exfalso; apply hf; simp [hx]
    obtain ⟨g1, g2, g3, g4⟩ := seekg_good hsf p
    have hb : BeforeLines suf (atxSeek s (some p)) := ⟨g1, by show (s.seekg p).rest = _; rw [g4, hc, h4]⟩
    rcases collectPco_text (fun l hl => hw l (by rw [hls]; simp [hl])) hb h with h | ⟨n, e1, e2, e3⟩
    · exact Or.inl h
    · exact Or.inr ⟨pre, start, type, suf, n, hls, h1, h2, h3, e1, e2, e3⟩

/-- **C97**, receiver antennas (partial: the frequencies are shown to stand behind the line that names the antenna, not to stand before the
end of its record: `C97_borrowed_offsets`).  A file whose first line is not a `METH / BY / # / DATE` line and whose lines behind the header have 60
to 511 chars and are otherwise arbitrary.  Whatever `get_antenna_pco` for a receiver antenna returns: either no offsets and a nonzero
status; or every offset stands in the file, in the order returned, behind a line that names the antenna (its serial number too, or, unless
the serial number must match, none); there are not more of them than the record announces, and if the status is 0 there are exactly as many. -/
theorem C97_receiver_partial {J : AtxJunk} (hJ : J.WF) {fuel : Nat} {f f' : AtxFile} {p : Nat}
    {ls : List (List Char)} (hfail : f.strm.fail = false) (hp : f.endOfHead = some p) (hc : f.strm.content.drop p = linesText ls)
    (hw : ∀ l ∈ ls, GridLine l) (hfirst : FirstLineOK f.strm.content) {antIn : List Char} {k : AntCtor} {ss : List (List Char)} (hi : AntReach antIn k ss)
    {must : Bool} {st : Int} {list : List Pco} (h : atxPcoReceiver J fuel f antIn must = .ok (st, list, f')) :
    (st ≠ 0 ∧ list = []) ∨ ∃ pre start type suf n, ls = pre ++ start :: type :: suf ∧ HasLabel start c!"START OF ANTENNA" ∧
      HasLabel type c!"TYPE / SERIAL NO" ∧ (ExactType k ss type ∨ (must = false ∧ CloseType k type)) ∧ RecordGives suf n list ∧
      (list.length : Int) ≤ max n 0 ∧ (st = 0 → (list.length : Int) = max n 0) := by
  unfold atxPcoReceiver at h
  obtain ⟨m, hm, h⟩ := Res.bind_eq_ok.1 h
  unfold atxFindMatch at hm
  have hm := Res.noexcept_eq_ok.1 hm
  obtain ⟨cur, _, hm⟩ := Res.bind_eq_ok.1 hm
  have hs : Onward ls (atxSeek f.strm f.endOfHead) := by
    rw [hp]
    refine Or.inr ⟨[], ls, rfl, ?_, ?_⟩
    · simp [atxSeek, Stream.seekg, hfail, Stream.good]
    · simp only [atxSeek, Stream.seekg, hfail]
      simpa [Stream.rest] using hc
  obtain ⟨m1, m2, m3, m4⟩ := matchLoop_text hJ hw hi _ _ _ _ _ _ _ hs (atxSeek_content _ _) (Or.inl rfl) hm
  split at h
  · rename_i hpos
    cases h
    exact Or.inl ⟨by omega, rfl⟩
  · rename_i hpos
    split at h
    · cases h
      exact Or.inl ⟨by decide, rfl⟩
    · rename_i hmust
      obtain ⟨c, hcol, h⟩ := Res.bind_eq_ok.1 h
      cases h
      rcases m4 with h1 | h1
      · rcases collect_at hw (m2 h1) m1 hcol with h | ⟨pre, start, type, suf, n, e1, e2, e3, e4, e5⟩
        · exact Or.inl h
        · exact Or.inr ⟨pre, start, type, suf, n, e1, e2, e3, Or.inl e4, e5⟩
      · have h0 : m.status = 0 := by omega
        have hmf : must = false := by
          cases must with
          | false => rfl
          | true => exact absurd ⟨h0, rfl⟩ hmust
        rcases m3 h0 with hq | hq
        · left
          rw [hq] at hcol
          by_cases hf : (atxSeek m.strm (some 0)).fail = true
          · exact collectPco_failed hf hcol
          · have hsf : m.strm.fail = false := by
              simp only [atxSeek, Stream.seekg] at hf
              cases hx : m.strm.fail with
              | false => rfl
              | true => exfalso; apply hf; simp [hx]
            obtain ⟨g1, g2, g3, g4⟩ := seekg_good hsf 0
            obtain ⟨s', hs', _⟩ := collectPco_first (J := J) (fuel := fuel) g1 g3 (by rw [g2, m1]; exact hfirst)
            have hcol : collectPco J fuel [] (m.strm.seekg 0) = .ok c := hcol
            rw [hs'] at hcol
            cases hcol
            exact ⟨by simp, rfl⟩
        · rcases collect_at hw hq m1 hcol with h | ⟨pre, start, type, suf, n, e1, e2, e3, e4, e5⟩
          · exact Or.inl h
          · exact Or.inr ⟨pre, start, type, suf, n, e1, e2, e3, Or.inr ⟨hmf, e4⟩, e5⟩

/-! ## Satellites -/

theorem ctiLoop_content {strptime : List Char → Res DateTime} {eph : DateTime} : ∀ (fuel : Nat) (buf : List Char) (fr un : Option DateTime) (s : Stream)
    (r : Int × Stream), ctiLoop strptime eph fuel buf fr un s = .ok r → r.2.content = s.content := by
  intro fuel
  induction fuel with
  | zero => intro buf fr un s r h; cases h
  | succ fuel ih =>
    intro buf fr un s r h
    rw [ctiLoop] at h
    obtain ⟨x, _, h⟩ := Res.bind_eq_ok.1 h
    rcases x with ⟨fr', un'⟩ | st
    · simp only at h
      split at h
      · cases h; exact Stream.getline_content rfl
      · obtain ⟨e, _, h⟩ := Res.bind_eq_ok.1 h
        split at h
        · cases h; exact Stream.getline_content rfl
        · exact (ih _ _ _ _ _ h).trans (Stream.getline_content rfl)
    · cases h; exact Stream.getline_content rfl

theorem cti_content {strptime : List Char → Res DateTime} {J : AtxJunk} {fuel : Nat} {eph : DateTime} {s : Stream} {r : Int × Stream}
    (h : checkTimeInterval strptime J fuel eph s = .ok r) : r.2.content = s.content := by
  unfold checkTimeInterval at h
  have h := Res.noexcept_eq_ok.1 h
  obtain ⟨a, ha, h⟩ := Res.bind_eq_ok.1 h
  split at h
  · cases h; exact expect_content ha
  · exact (ctiLoop_content _ _ _ _ _ _ h).trans (expect_content ha)

theorem satTest_content {strptime : List Char → Res DateTime} {J : AtxJunk} {fuel : Nat} {prn : Int} {ss : SatSys} {eph : DateTime} {c : List Char}
    {sat : AtxSat} {s : Stream} {m : Bool × AtxSat × Stream} (h : atxSatTest strptime J fuel prn ss eph c sat s = .ok m) : m.2.2.content = s.content := by
  unfold atxSatTest at h
  obtain ⟨x, _, h⟩ := Res.bind_eq_ok.1 h
  split at h
  · obtain ⟨t, ht, h⟩ := Res.bind_eq_ok.1 h
    cases h
    exact cti_content ht
  · cases h; rfl

/-- The `TYPE / SERIAL NO` line names the satellite, and the lines behind it begin with `METH / BY / # / DATE` and an interval of validity,
both ends included, that holds `eph`. -/
def SatRecord (strptime : List Char → Res DateTime) (ss : SatSys) (prn : Int) (eph : DateTime) (type : List Char) (suf : List (List Char)) : Prop :=
  type[20]? = some (satsysToChar ss) ∧ IntBegins ((type.drop 21).take 5) prn ∧
    ∃ meth D post d u, suf = meth :: (D ++ post) ∧ HasLabel meth c!"METH / BY / # / DATE" ∧ ValidRun strptime none none D d u ∧
      d.total ≤ eph.total ∧ ∀ e, u = some e → eph.total ≤ e.total

theorem satLoop_at {strptime : List Char → Res DateTime} {J : AtxJunk} {prn : Int} {ss : SatSys} {eph : DateTime} {ls : List (List Char)} {content : List Char}
    (hw : ∀ l ∈ ls, GridLine l) :
    ∀ (fuel : Nat) (cur c : List Char) (sat : AtxSat) (pos : Option Nat) (st2 : Option Int) (s : Stream) (o : AtxSatOut), Onward ls s → s.content = content →
      atxSatLoop strptime J prn ss eph fuel cur c sat pos st2 s = .ok o →
      o.status ≥ 0 ∧ (o.status = 0 → o.strm.content = content ∧ o.sat.prn = prn ∧ o.sat.sys = ss ∧ RecordAt content ls o.pos (SatRecord strptime ss prn eph)) := by
  intro fuel
  induction fuel with
  | zero => intro cur c sat pos st2 s o _ _ h; cases h
  | succ fuel ih =>
    intro cur c sat pos st2 s o hs hcs h
    have done : ∀ {st : Int} {st2 : Option Int} {pos : Option Nat} {sat : AtxSat} {s : Stream} {o : AtxSatOut}, atxSatEnd st st2 pos sat s = .ok o →
        o.status ≥ 0 ∧ (o.status = 0 → o.strm.content = content ∧ o.sat.prn = prn ∧ o.sat.sys = ss ∧ RecordAt content ls o.pos (SatRecord strptime ss prn eph)) := by
      intro st st2 pos sat s o h
      refine ⟨?_, fun h0 => absurd h0 (atxSatEnd_ne h)⟩
      unfold atxSatEnd at h
      split at h
      · cases h; simp
      · split at h
        · cases h
        · split at h <;> cases h <;> simp
    unfold atxSatLoop at h
    obtain ⟨r, hr, h⟩ := Res.bind_eq_ok.1 h
    have hrc := (readType_content hr).trans hcs
    split at h
    · exact done h
    · rename_i hst
      obtain ⟨pre, start, type, suf, rfl, hl1, hl2, hc, hb⟩ := readType_text hw hs hr (by simpa using hst)
      have hty := hw type (by simp)
      have hws : ∀ l ∈ suf, GridLine l := fun l hl => hw l (by simp [hl])
      obtain ⟨m, hm, h⟩ := Res.bind_eq_ok.1 h
      have htell : r.strm.tellg = (some r.strm.pos, r.strm) := tellg_good hb.1
      rw [htell] at hm h
      have hmc := (satTest_content hm).trans hrc
      split at h
      · rename_i ht
        obtain ⟨h1, h2, h3, h4⟩ := atxSatTest_true hm ht
        cases h
        obtain ⟨q1, q2⟩ := resolve_text h3
        obtain ⟨_, k⟩ := cti_text hws hb h4
        refine ⟨by simp, fun _ => ⟨hmc, h1, h2, r.strm.pos, pre, start, type, suf, rfl, rfl, hl1, hl2, ⟨?_, ?_, k rfl⟩, ?_⟩⟩
        · have h20 : type[20]? = r.c[20]? := by
            have := congrArg (fun x => x[20]?) hc
            simp only [List.getElem?_take_of_lt (show 20 < 60 by decide)] at this
            exact this.symm
          rw [h20, q1, h2]
        · have h21 : (type.drop 21).take 5 = (r.c.drop 21).take 5 := by
            have := congrArg (fun x => (x.drop 21).take 5) hc
            simp only [List.drop_take, List.take_take] at this
            exact this.symm
          rw [h21, ← h1]
          exact q2
        · rw [← hrc]; exact hb.2
      · obtain ⟨k, hk, h⟩ := Res.bind_eq_ok.1 h
        have hm2 : Onward suf m.2.2 := by
          unfold atxSatTest at hm
          obtain ⟨x, hx, hm⟩ := Res.bind_eq_ok.1 hm
          split at hm
          · obtain ⟨t, ht, hm⟩ := Res.bind_eq_ok.1 hm
            cases hm
            exact (cti_text hws hb ht).1
          · cases hm
            exact Or.inr ⟨[], suf, rfl, hb⟩
        have hk2 : Onward (pre ++ start :: type :: suf) k.2 := by
          have := skipLoop_text hws 5000 _ _ _ hm2 hk
          have := this.mono (pre := pre ++ [start, type])
          simpa using this
        have hkc := (skipLoop_content _ _ _ _ hk).trans hmc
        split at h
        · exact done h
        · exact ih _ _ _ _ _ _ _ hk2 hkc h

/-- **C97**, satellite antennas (partial in the same sense).  Whatever `get_antenna_pco` for a satellite and an epoch returns: either no offsets and a
nonzero status; or every offset stands in the file, in the order returned, behind a line that names the satellite, in whose record the lines
`VALID FROM` and `VALID UNTIL` give an interval that holds the epoch; there are not more of them than the record announces, and if the status is 0
there are exactly as many. -/
theorem C97_satellite_partial {strptime : List Char → Res DateTime} {J : AtxJunk} {cospar : List Char} {fuel : Nat} {f f' : AtxFile} {p : Nat}
    {ls : List (List Char)} (hfail : f.strm.fail = false) (hp : f.endOfHead = some p) (hc : f.strm.content.drop p = linesText ls)
    (hw : ∀ l ∈ ls, GridLine l) {prn : Int} {ss : SatSys} {eph : DateTime} {sv : Option AtxSat} {st : Int} {list : List Pco}
    (h : atxPcoSatellite strptime J cospar fuel f prn ss eph = .ok (st, list, sv, f')) :
    (st ≠ 0 ∧ list = []) ∨ ∃ pre start type suf n, ls = pre ++ start :: type :: suf ∧ HasLabel start c!"START OF ANTENNA" ∧
      HasLabel type c!"TYPE / SERIAL NO" ∧ SatRecord strptime ss prn eph type suf ∧ RecordGives suf n list ∧
      (list.length : Int) ≤ max n 0 ∧ (st = 0 → (list.length : Int) = max n 0) := by
  unfold atxPcoSatellite at h
  obtain ⟨o, ho, h⟩ := Res.bind_eq_ok.1 h
  unfold atxFindSat at ho
  have ho := Res.noexcept_eq_ok.1 ho
  obtain ⟨cur, _, ho⟩ := Res.bind_eq_ok.1 ho
  have hs : Onward ls (atxSeek f.strm f.endOfHead) := by
    rw [hp]
    refine Or.inr ⟨[], ls, rfl, ?_, ?_⟩
    · simp [atxSeek, Stream.seekg, hfail, Stream.good]
    · simp only [atxSeek, Stream.seekg, hfail]
      simpa [Stream.rest] using hc
  obtain ⟨h1, h2⟩ := satLoop_at hw _ _ _ _ _ _ _ _ hs (atxSeek_content _ _) ho
  split at h
  · cases h
    exact Or.inl ⟨by omega, rfl⟩
  · obtain ⟨c, hcol, h⟩ := Res.bind_eq_ok.1 h
    cases h
    obtain ⟨k1, _, _, k4⟩ := h2 (by omega)
    exact collect_at hw k4 k1 hcol

/-! ## Offsets of another record -/

/-- The head of a record announces the frequencies `f :: fs`; anything but a frequency may come before them. -/
theorem collect_loose {J : AtxJunk} {meth dazi zen num : List Char} {opts : List (List Char)} {f : AtxFreq} {fs : List AtxFreq} {last : List Char}
    (h1 : Labelled meth c!"METH / BY / # / DATE") (h2 : Labelled dazi c!"DAZI") (h3 : Labelled zen c!"ZEN1 / ZEN2 / DZEN")
    (h4 : Labelled num c!"# OF FREQUENCIES") (hn : NatAt (num.take 6) 0 (fs.length + 1))
    (ho : ∀ l ∈ opts, LineFits 84 l ∧ 60 ≤ l.length ∧ ¬ HasLabel l c!"START OF FREQUENCY") (hf : ∀ q ∈ f :: fs, q.WF)
    (hlast : Labelled last c!"END OF ANTENNA") {fuel : Nat} {s : Stream} {t : List Char} (hg : s.good = true)
    (hr : s.rest = linesText ([meth, dazi, zen, num] ++ opts ++ ((f :: fs).map (·.lines)).flatten ++ [last]) ++ t) (hfuel : s.rest.length < fuel) :
    ∃ l s', collectPco J fuel [] s = .ok (0, l, s') ∧ l.map Pco.flat = (f :: fs).map (·.offset) := by
  have hff : f.WF := hf f (by simp)
  have hbody : [meth, dazi, zen, num] ++ opts ++ ((f :: fs).map (·.lines)).flatten ++ [last] = meth :: dazi :: zen :: num :: ((opts ++ [f.start]) ++
      (f.neu :: (f.pattern ++ f.stop :: (f.rmsLines ++ (fs.map (·.lines)).flatten ++ [last])))) := by
    simp [AtxFreq.lines_cons]
  rw [hbody] at hr
  have r1 := rest_cons hr
  have r2 := rest_cons r1
  have r3 := rest_cons r2
  have r4 := rest_cons r3
  have hn60 := h4.2.long (by decide)
  have hle : ∀ {l : List Char} {ls : List (List Char)} {s : Stream}, s.rest = linesText (l :: ls) ++ t →
      (s.past [l]).rest.length ≤ s.rest.length := by
    intro l ls s h
    rw [rest_cons h, h, linesText_cons]; simp; omega
  have hlen := Nat.le_trans (hle r3) (Nat.le_trans (hle r2) (Nat.le_trans (hle r1) (hle hr)))
  have hm1 := expect_labelled (buf := J.head s.pos) hg hr h1 (by decide) (by decide)
  have hm2 := expect_labelled (buf := fillLine (J.head s.pos) meth) (s := s.past [meth]) hg r1 h2 (by decide) (by decide)
  have hm3 := expect_labelled (buf := fillLine (fillLine (J.head s.pos) meth) dazi) (s := (s.past [meth]).past [dazi]) hg r2
    h3 (by decide) (by decide)
  have hm4 := expect_labelled (buf := fillLine (fillLine (fillLine (J.head s.pos) meth) dazi) zen)
    (s := ((s.past [meth]).past [dazi]).past [zen]) hg r3 h4 (by decide) (by decide)
  have hg4 : ((((s.past [meth]).past [dazi]).past [zen]).past [num]).good = true := hg
  generalize hs4 : (((s.past [meth]).past [dazi]).past [zen]).past [num] = s4 at *
  rw [linesText_append, List.append_assoc] at r4
  obtain ⟨hb, hsc⟩ := scanTo_lines (n := ATX_HEADER_CHARS) (pat := c!"START OF FREQUENCY") (by decide) (last := f.start)
      (t := linesText (f.neu :: (f.pattern ++ f.stop :: (f.rmsLines ++ (fs.map (·.lines)).flatten ++ [last]))) ++ t)
      ⟨hff.start.1, Nat.le_of_lt (hff.start.2.long (by decide)), hff.start.2⟩ opts ho fuel
      (fillLine (fillLine (fillLine (fillLine (J.head s.pos) meth) dazi) zen) num) s4 hg4 r4
      (by
        have := length_linesText opts
        rw [r4, linesText_append] at hlen
        simp at hlen this
        omega)
  have hr5 := Stream.past_rest r4
  have hlen5 : (s4.past (opts ++ [f.start])).rest.length ≤ s4.rest.length := by
    rw [hr5, r4]; simp
  obtain ⟨l, s', e1, e2, e3, e4⟩ := pcoLoop_freqs (fuel := fuel) last hlast t fs (fun q hq => hf q (by simp [hq])) f hff
    (fillLine hb f.start) (J.grid s.pos) [] (s4.past (opts ++ [f.start])) hg4
    (Or.inl ⟨hb, rfl, hr5⟩) (by omega)
  refine ⟨l, s', ?_, e2⟩
  unfold collectPco
  rw [hm1, Res.bind_ok]
  simp only [Bool.true_eq_false, if_false]
  rw [hm2, Res.bind_ok]
  simp only [Bool.true_eq_false, if_false]
  rw [hm3, Res.bind_ok]
  simp only [Bool.true_eq_false, if_false]
  rw [hm4, Res.bind_ok]
  simp only [Bool.true_eq_false, if_false]
  rw [take_fill (by omega), stoi_nat hn]
  simp only [hsc, Res.bind_ok, Int.toNat_natCast]
  rw [e1]
  simp

/-- **C97, why partial** (the offsets of another antenna).  The first record of a file is that of the antenna asked for, and has lost its
frequencies; the record behind it is intact, belongs to whatever antenna, and has as many frequencies as the first announces.  The query
returns status 0 and the offsets of the second antenna. -/
theorem C97_borrowed_offsets {strptime : List Char → Res DateTime} {J : AtxJunk} (hJ : J.WF) {r : AtxRaw} (hr : r.WF) {b : AtxBlock} (hb : b.WF strptime)
    {meth dazi zen num : List Char} {opts : List (List Char)} (hin : r.inner = [meth, dazi, zen, num] ++ opts)
    (h1 : Labelled meth c!"METH / BY / # / DATE") (h2 : Labelled dazi c!"DAZI") (h3 : Labelled zen c!"ZEN1 / ZEN2 / DZEN")
    (h4 : Labelled num c!"# OF FREQUENCIES") (hn : NatAt (num.take 6) 0 b.freqs.length)
    (ho : ∀ l ∈ opts, LineFits 84 l ∧ ¬ HasLabel l c!"START OF FREQUENCY")
    {antIn : List Char} {k : AntCtor} {ss : List (List Char)} (hi : AntReach antIn k ss) (hx : r.Exact k ss)
    {f : AtxFile} {p : Nat} {t : List Char} (hfail : f.strm.fail = false) (hp : f.endOfHead = some p)
    (hc : f.strm.content.drop p = linesText (r.lines ++ b.lines) ++ t) (must : Bool) {fuel : Nat} (hfuel : f.strm.content.length < fuel) :
    ∃ l f', atxPcoReceiver J fuel f antIn must = .ok (0, l, f') ∧ l.map Pco.flat = b.offsets := by
  obtain ⟨fuel, rfl⟩ : ∃ n, fuel = n + 1 := ⟨fuel - 1, by omega⟩
  obtain ⟨g1, g2, g3, g4⟩ := seekg_good hfail p
  have hr0 : (f.strm.seekg p).rest = linesText (r.name.start :: r.name.type :: (r.body ++ b.lines)) ++ t := by
    rw [g4, hc]; simp [AtxRaw.lines, AtxRaw.name]
  obtain ⟨ant, he, hreach⟩ := readType_block hJ hr.named (cur := List.replicate 20 ' ' ++ NUL :: (J.ant p).drop 21) (c := J.head p) (by rw [hJ.head]; decide) g1 hr0
  obtain ⟨x, hs1, hs2⟩ := same_iff hr.named hreach hi
  have hfind : atxFindMatch J (fuel + 1) f antIn = .ok ⟨-1, ant, some ((f.strm.seekg p).past [r.name.start, r.name.type]).pos, (f.strm.seekg p).past [r.name.start, r.name.type]⟩ := by
    unfold atxFindMatch
    simp only [hp, atxSeek, g3, antInit_eq (J.ant p) (hJ.ant p), Res.bind_ok]
    unfold atxMatchLoop
    rw [g3, he, Res.bind_ok]
    simp only [ne_eq, not_true_eq_false, if_false, hs1, Res.bind_ok, hs2.2 hx, if_true]
    rw [tellg_good (by exact g1)]
    rfl
  unfold atxPcoReceiver
  rw [hfind, Res.bind_ok]
  simp only [show ¬ ((-1 : Int) > 0) by decide, if_false, show ¬ ((-1 : Int) = 0 ∧ must = true) by simp, atxSeek]
  have hg : ((f.strm.seekg p).past [r.name.start, r.name.type]).good = true := g1
  rw [seekg_self hg]
  have hrest : ((f.strm.seekg p).past [r.name.start, r.name.type]).rest = linesText (r.body ++ b.lines) ++ t := by
    apply Stream.past_rest
    rw [hr0]
    show linesText ([_, _] ++ _) ++ t = _
    rw [linesText_append]; simp
  have hcont : ((f.strm.seekg p).past [r.name.start, r.name.type]).content = f.strm.content := g2
  obtain ⟨q, qs, hq⟩ : ∃ q qs, b.freqs = q :: qs := by
    cases hf : b.freqs with
    | nil => exact absurd hf hb.some_
    | cons q qs => exact ⟨q, qs, rfl⟩
  have lab : ∀ {l p : List Char}, Labelled l p → p ≠ [] → ¬ p <+: c!"START OF FREQUENCY" → ¬ c!"START OF FREQUENCY" <+: p →
      LineFits 84 l ∧ 60 ≤ l.length ∧ ¬ HasLabel l c!"START OF FREQUENCY" :=
    fun h hp a1 a2 => ⟨h.1, Nat.le_of_lt (h.2.long hp), h.2.excl a1 a2⟩
  obtain ⟨l, s', e1, e2⟩ := collect_loose (J := J) (opts := opts ++ r.last :: b.start :: b.type :: b.top) (f := q) (fs := qs) (last := b.last) h1 h2 h3 h4
    (by rw [hq] at hn; exact hn)
    (by
      intro l hl
      simp only [List.mem_append, List.mem_cons] at hl
      rcases hl with hl | rfl | rfl | rfl | hl
      · exact ⟨(ho l hl).1, ((hr.inner l (by rw [hin]; simp [hl])).1).2, (ho l hl).2⟩
      · exact lab hr.last (by decide) (by decide) (by decide)
      · exact lab hb.start (by decide) (by decide) (by decide)
      · exact lab hb.type (by decide) (by decide) (by decide)
      · unfold AtxBlock.top at hl
        simp only [List.mem_append, List.mem_cons, List.not_mem_nil, or_false] at hl
        rcases hl with (rfl | rfl | rfl | rfl) | hl
        · exact lab hb.meth (by decide) (by decide) (by decide)
        · exact lab hb.dazi (by decide) (by decide) (by decide)
        · exact lab hb.zen (by decide) (by decide) (by decide)
        · exact lab hb.num (by decide) (by decide) (by decide)
        · simp only [List.mem_map] at hl
          obtain ⟨o, ho', rfl⟩ := hl
          obtain ⟨i1, i2, i3⟩ := AtxOpt.inner (hb.opts o ho')
          exact ⟨i3, i1.1.2, i2⟩)
    (fun x hx => hb.freqs x (by rw [hq]; exact hx)) hb.last hg (fuel := fuel + 1) (t := t)
    (by
      rw [hrest]
      simp [AtxRaw.body, hin, AtxBlock.lines, AtxBlock.body, AtxBlock.top, hq])
    (by
      have : ((f.strm.seekg p).past [r.name.start, r.name.type]).rest.length ≤ ((f.strm.seekg p).past [r.name.start, r.name.type]).content.length := by
        simp [Stream.rest]
      rw [hcont] at this
      omega)
  rw [e1, Res.bind_ok]
  exact ⟨l, _, rfl, by rw [e2, AtxBlock.offsets, hq]⟩

end Ggnss
