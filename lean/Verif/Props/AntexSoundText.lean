import Verif.Spec.AntexSound
import Verif.Lemmas.NumText
import Verif.Props.AntexSound
import Verif.Props.AntexSatBad
/-!
# C37 for arbitrary lines: what a file must contain when a satellite was found in it
-/
namespace Ggnss

/-- The stream stands before the lines `suf`. -/
def BeforeLines (suf : List (List Char)) (s : Stream) : Prop := s.good = true ∧ s.rest = linesText suf

theorem getline_before {suf : List (List Char)} {s : Stream} (hw : ∀ l ∈ suf, GridLine l) (h : BeforeLines suf s) (n : Nat) :
    (s.getline n).2.fail = true ∨ ∃ l suf', suf = l :: suf' ∧ s.getline n = (l, s.past [l]) ∧ l.length ≤ n - 1 ∧ BeforeLines suf' (s.past [l]) := by
  cases suf with
  | nil =>
    left
    rw [Stream.getline_last (l := []) h.1 (by rw [h.2]; rfl) (by simp) (by simp)]
    rfl
  | cons l suf' =>
    have hl := hw l (by simp)
    have hr : s.rest = linesText (l :: suf') ++ [] := by rw [h.2]; simp
    by_cases hn : l.length ≤ n - 1
    · right
      refine ⟨l, suf', rfl, getline_past h.1 hr hl.1.1 hn, hn, h.1, ?_⟩
      have := rest_cons hr
      simpa using this
    · left
      rw [Stream.getline_long (l := l) (tail := linesText suf') h.1 (by rw [h.2, linesText_cons]) hl.1.1 (by omega)]

/-- The state of the loop over the lines of an interval when the label of the line in the array has been dealt with. -/
structure CtiDone (buf : List Char) (fr un : Option DateTime) : Prop where
  freq : atxLabel buf c!"START OF FREQUENCY" ≠ .ok true
  from_ : atxLabel buf c!"VALID FROM" = .ok true → un = none
  until_ : atxLabel buf c!"VALID FROM" = .ok false → atxLabel buf c!"VALID UNTIL" = .ok true → fr = none
  notBoth : (fr.isSome && un.isSome) = false

theorem atxLabel_nul (buf p : List Char) : atxLabel (fillLine buf []) p = atxLabel buf p := by
  unfold atxLabel fillLine
  cases buf with
  | nil => simp
  | cons c b => simp

/-- After the end of the file the loop does not find an interval. -/
theorem ctiLoop_dead {strptime : List Char → Res DateTime} {eph : DateTime} : ∀ (fuel : Nat) (buf : List Char) (fr un : Option DateTime) (s : Stream)
    (r : Int × Stream), s.good = false → CtiDone buf fr un → ctiLoop strptime eph fuel buf fr un s = .ok r → r.1 ≠ 0 ∧ r.2.fail = true := by
  intro fuel
  induction fuel with
  | zero => intro buf fr un s r _ _ h; cases h
  | succ fuel ih =>
    intro buf fr un s r hs hd h
    rw [ctiLoop, Stream.getline_bad hs] at h
    simp only at h
    obtain ⟨x, hx, h⟩ := Res.bind_eq_ok.1 h
    have hs' : ({ s with fail := true } : Stream).good = false := by simp [Stream.good]
    unfold ctiLine at hx
    simp only [atxLabel_nul] at hx h
    obtain ⟨b, hb, hx⟩ := Res.bind_eq_ok.1 hx
    cases b with
    | true =>
      simp only [if_true] at hx
      split at hx
      · rename_i d hdate
        cases hx
        have hun := hd.from_ hb
        subst hun
        simp only [Option.isSome_none, Bool.and_false, Bool.false_eq_true, if_false] at h
        obtain ⟨e, he, h⟩ := Res.bind_eq_ok.1 h
        cases e with
        | true => exact absurd he hd.freq
        | false =>
          simp only [Bool.false_eq_true, if_false] at h
          refine ih _ _ _ _ _ hs' ⟨?_, ?_, ?_, rfl⟩ h
          · rw [atxLabel_nul]; exact hd.freq
          · intro _; rfl
          · rw [atxLabel_nul, hb]; intro h; cases h
      · cases hx; cases h; exact ⟨by simp, rfl⟩
      all_goals cases hx
    | false =>
      simp only [Bool.false_eq_true, if_false] at hx
      obtain ⟨b2, hb2, hx⟩ := Res.bind_eq_ok.1 hx
      cases b2 with
      | true =>
        simp only [if_true] at hx
        split at hx
        · rename_i d hdate
          cases hx
          have hfr := hd.until_ hb hb2
          subst hfr
          simp only [Option.isSome_none, Bool.false_and, Bool.false_eq_true, if_false] at h
          obtain ⟨e, he, h⟩ := Res.bind_eq_ok.1 h
          cases e with
          | true => exact absurd he hd.freq
          | false =>
            simp only [Bool.false_eq_true, if_false] at h
            refine ih _ _ _ _ _ hs' ⟨?_, ?_, ?_, rfl⟩ h
            · rw [atxLabel_nul]; exact hd.freq
            · rw [atxLabel_nul, hb]; intro h; cases h
            · intro _ _; rfl
        · cases hx; cases h; exact ⟨by simp, rfl⟩
        all_goals cases hx
      | false =>
        simp only [Bool.false_eq_true, if_false, Res.pure_eq, Res.ok.injEq] at hx
        subst hx
        simp only [hd.notBoth, Bool.false_eq_true, if_false] at h
        obtain ⟨e, he, h⟩ := Res.bind_eq_ok.1 h
        cases e with
        | true => exact absurd he hd.freq
        | false =>
          simp only [Bool.false_eq_true, if_false] at h
          refine ih _ _ _ _ _ hs' ⟨?_, ?_, ?_, hd.notBoth⟩ h
          · rw [atxLabel_nul]; exact hd.freq
          · rw [atxLabel_nul]; exact hd.from_
          · rw [atxLabel_nul, atxLabel_nul]; exact hd.until_

/-- Where the stream is when it has not failed. -/
def Onward (ls : List (List Char)) (s : Stream) : Prop := s.fail = true ∨ ∃ pre suf, ls = pre ++ suf ∧ BeforeLines suf s

theorem verdict_zero {eph : DateTime} {fr un : Option DateTime} (h : ctiVerdict eph fr un = 0) :
    ∃ d, fr = some d ∧ d.total ≤ eph.total ∧ ∀ e, un = some e → eph.total ≤ e.total := by
  cases fr with
  | none => simp [ctiVerdict] at h
  | some d =>
    cases un with
    | none =>
      simp only [ctiVerdict] at h
      split at h
      · rename_i hd; exact ⟨d, rfl, hd, by simp⟩
      · cases h
    | some e =>
      simp only [ctiVerdict] at h
      split at h
      · rename_i hd; exact ⟨d, rfl, hd.1, by rintro _ ⟨⟩; exact hd.2⟩
      · cases h

/-- The loop over the lines of an interval. -/
theorem ctiLoop_text {strptime : List Char → Res DateTime} {eph : DateTime} : ∀ (fuel : Nat) (suf : List (List Char)) (buf : List Char)
    (fr un : Option DateTime) (s : Stream) (r : Int × Stream), (∀ l ∈ suf, GridLine l) → BeforeLines suf s → CtiDone buf fr un →
    ctiLoop strptime eph fuel buf fr un s = .ok r →
    Onward suf r.2 ∧ (r.1 = 0 → ∃ D post d u, suf = D ++ post ∧ ValidRun strptime fr un D d u ∧ d.total ≤ eph.total ∧ ∀ e, u = some e → eph.total ≤ e.total) := by
  intro fuel
  induction fuel with
  | zero => intro suf buf fr un s r _ _ _ h; cases h
  | succ fuel ih =>
    intro suf buf fr un s r hw hs hd h
    rcases suf with _ | ⟨l, suf'⟩
    · -- end of the file
      have hg := Stream.getline_last (n := ATX_GRID_CHARS) (l := []) hs.1 (by rw [hs.2]; rfl) (by simp) (by simp)
      have key : r.1 ≠ 0 ∧ r.2.fail = true := by
        have hbad : ({ s with eof := true, fail := true } : Stream).good = false := by simp [Stream.good]
        refine ctiLoop_dead (strptime := strptime) (eph := eph) (fuel + 1) buf fr un { s with eof := true, fail := true } r hbad hd ?_
        rw [← h, ctiLoop, ctiLoop, hg, Stream.getline_bad hbad]
        rfl
      exact ⟨Or.inl key.2, fun h0 => absurd h0 key.1⟩
    · have hl := hw l (by simp)
      have hw' : ∀ x ∈ suf', GridLine x := fun x hx => hw x (by simp [hx])
      have hr : s.rest = linesText (l :: suf') ++ [] := by rw [hs.2]; simp
      have hgl := getline_past (n := ATX_GRID_CHARS) hs.1 hr hl.1.1 hl.1.2.2
      have hb' : BeforeLines suf' (s.past [l]) := ⟨hs.1, by simpa using rest_cons hr⟩
      have hon : Onward (l :: suf') (s.past [l]) := Or.inr ⟨[l], suf', rfl, hb'⟩
      rw [ctiLoop, hgl] at h
      simp only at h
      obtain ⟨x, hx, h⟩ := Res.bind_eq_ok.1 h
      unfold ctiLine at hx
      simp only [atxLabel_line hl.1.2.1 hl.2 (pat := c!"VALID FROM") (by decide), atxLabel_line hl.1.2.1 hl.2 (pat := c!"VALID UNTIL") (by decide),
        Res.bind_ok, decide_eq_true_eq] at hx
      have lift : ∀ {r : Int × Stream}, Onward suf' r.2 → Onward (l :: suf') r.2 := by
        rintro r (h | ⟨pre, suf, e, h⟩)
        · exact Or.inl h
        · exact Or.inr ⟨l :: pre, suf, by rw [e]; rfl, h⟩
      -- what happens after the dates are updated to `fr'`, `un'`
      have rest : ∀ fr' un' : Option DateTime,
          (¬ HasLabel l c!"START OF FREQUENCY" → (fr'.isSome && un'.isSome) = false → CtiDone (fillLine buf l) fr' un') →
          (∀ D d u, ValidRun strptime fr' un' D d u → ¬ HasLabel l c!"START OF FREQUENCY" ∨ ((fr'.isSome && un'.isSome) = true ∧ D = []) → ValidRun strptime fr un (l :: D) d u) →
          (HasLabel l c!"START OF FREQUENCY" → (fr'.isSome && un'.isSome) = false → ∀ d, fr' = some d → ValidRun strptime fr un [l] d un') →
          (if (fr'.isSome && un'.isSome) = true then pure (ctiVerdict eph fr' un', s.past [l])
            else do
              let e ← atxLabel (fillLine buf l) c!"START OF FREQUENCY"
              if e = true then pure (ctiVerdict eph fr' un', s.past [l])
              else ctiLoop strptime eph fuel (fillLine buf l) fr' un' (s.past [l])) = Res.ok r →
          Onward (l :: suf') r.2 ∧ (r.1 = 0 → ∃ D post d u, l :: suf' = D ++ post ∧ ValidRun strptime fr un D d u ∧ d.total ≤ eph.total ∧ ∀ e, u = some e → eph.total ≤ e.total) := by
        intro fr' un' c1 c2 c3 h
        by_cases hb : (fr'.isSome && un'.isSome) = true
        · rw [if_pos hb] at h
          cases h
          refine ⟨hon, fun h0 => ?_⟩
          obtain ⟨d, h1, h2, h3⟩ := verdict_zero h0
          obtain ⟨e, he⟩ := Option.isSome_iff_exists.1 (by simpa using (Bool.and_eq_true _ _ ▸ hb).2 : un'.isSome = true)
          refine ⟨[l], suf', d, un', rfl, c2 [] d un' ?_ (Or.inr ⟨hb, rfl⟩), h2, h3⟩
          rw [h1, he]
          exact .both d e
        · rw [if_neg hb, atxLabel_line hl.1.2.1 hl.2 (by decide), Res.bind_ok] at h
          have hb' : (fr'.isSome && un'.isSome) = false := by simpa using hb
          by_cases hf : HasLabel l c!"START OF FREQUENCY"
          · rw [if_pos (by simpa using hf)] at h
            cases h
            refine ⟨hon, fun h0 => ?_⟩
            obtain ⟨d, h1, h2, h3⟩ := verdict_zero h0
            exact ⟨[l], suf', d, un', rfl, c3 hf hb' d h1, h2, h3⟩
          · rw [if_neg (by simpa using hf)] at h
            obtain ⟨k1, k2⟩ := ih suf' _ _ _ _ _ hw' ‹BeforeLines suf' (s.past [l])› (c1 hf hb') h
            refine ⟨lift k1, fun h0 => ?_⟩
            obtain ⟨D, post, d, u, e1, e2, e3⟩ := k2 h0
            exact ⟨l :: D, post, d, u, by rw [e1]; rfl, c2 D d u e2 (Or.inl hf), e3⟩
      have lab : ∀ p : List Char, IsCStr p → atxLabel (fillLine buf l) p = .ok (decide (HasLabel l p)) := fun p hp => atxLabel_line hl.1.2.1 hl.2 hp
      by_cases h1 : HasLabel l c!"VALID FROM"
      · rw [if_pos h1] at hx
        have nf : ¬ HasLabel l c!"START OF FREQUENCY" := h1.excl (by decide) (by decide)
        split at hx
        · rename_i d hdate
          cases hx
          refine rest (some d) un ?_ ?_ (fun h => absurd h nf) h
          · intro _ hnb
            refine ⟨by rw [lab _ (by decide)]; simpa using nf, ?_, ?_, hnb⟩
            · intro _; simpa using hnb
            · rw [lab _ (by decide)]; intro h; simp [h1] at h
          · intro D d' u hv _
            exact .from_ fr un l D d' d u h1 ⟨_, hdate⟩ hv
        · cases hx; cases h; exact ⟨hon, by simp⟩
        all_goals cases hx
      · rw [if_neg h1] at hx
        by_cases h2 : HasLabel l c!"VALID UNTIL"
        · rw [if_pos h2] at hx
          have nf : ¬ HasLabel l c!"START OF FREQUENCY" := h2.excl (by decide) (by decide)
          split at hx
          · rename_i d hdate
            cases hx
            refine rest fr (some d) ?_ ?_ (fun h => absurd h nf) h
            · intro _ hnb
              refine ⟨by rw [lab _ (by decide)]; simpa using nf, ?_, ?_, hnb⟩
              · rw [lab _ (by decide)]; intro h; simp [h1] at h
              · intro _ _; simpa using hnb
            · intro D d' u hv _
              exact .until_ fr un l D d' d u h2 ⟨_, hdate⟩ hv
          · cases hx; cases h; exact ⟨hon, by simp⟩
          all_goals cases hx
        · rw [if_neg h2] at hx
          cases hx
          refine rest fr un ?_ ?_ ?_ h
          · intro nf hnb
            refine ⟨by rw [lab _ (by decide)]; simpa using nf, ?_, ?_, hnb⟩
            · rw [lab _ (by decide)]; intro h; simp [h1] at h
            · rw [lab _ (by decide), lab _ (by decide)]; intro _ h; simp [h2] at h
          · intro D d u hv hc
            rcases hc with hc | ⟨hc, _⟩
            · exact .other fr un l D d u h1 h2 hc hv
            · rw [hd.notBoth] at hc; cases hc
          · intro hf hnb d hfr
            subst hfr
            have : un = none := by simpa using hnb
            subst this
            exact .freq d l hf

theorem Onward.mono {ls : List (List Char)} {pre : List (List Char)} {s : Stream} (h : Onward ls s) : Onward (pre ++ ls) s := by
  rcases h with h | ⟨a, b, e, h⟩
  · exact Or.inl h
  · exact Or.inr ⟨pre ++ a, b, by rw [e]; simp, h⟩

/-- A line that is required: when it is there, it has the label. -/
theorem expect_text {suf : List (List Char)} (hw : ∀ l ∈ suf, GridLine l) {n : Nat} {pat buf : List Char} (hp : IsCStr pat) {s : Stream}
    (hs : Onward suf s) {r : Bool × List Char × Stream} (h : atxExpect n pat buf s = .ok r) :
    Onward suf r.2.2 ∧ (r.1 = true → ∃ pre l suf', suf = pre ++ l :: suf' ∧ HasLabel l pat ∧ r.2.1 = fillLine buf l ∧ BeforeLines suf' r.2.2) := by
  unfold atxExpect at h
  have bad : (s.getline n).2.fail = true → Onward suf r.2.2 ∧ (r.1 = true → ∃ pre l suf', suf = pre ++ l :: suf' ∧ HasLabel l pat ∧ r.2.1 = fillLine buf l ∧ BeforeLines suf' r.2.2) := by
    intro hf
    simp only [hf, if_true] at h
    cases h
    exact ⟨Or.inl hf, by simp⟩
  rcases hs with hf | ⟨pre, suf1, rfl, hb⟩
  · apply bad
    rw [Stream.getline_bad (by simp [Stream.good, hf])]
  · rcases getline_before (fun l hl => hw l (by simp [hl])) hb n with hf | ⟨l, suf', rfl, h1, h2, h3⟩
    · exact bad hf
    · have hl := hw l (by simp)
      rw [h1] at h
      simp only [((Stream.good_iff _).1 h3.1).2, Bool.false_eq_true, if_false, atxLabel_line hl.1.2.1 hl.2 hp, Res.bind_ok] at h
      cases h
      refine ⟨Or.inr ⟨pre ++ [l], suf', by simp, h3⟩, ?_⟩
      intro ht
      exact ⟨pre, l, suf', rfl, by simpa using ht, rfl, h3⟩

theorem expect_next {suf : List (List Char)} (hw : ∀ l ∈ suf, GridLine l) {n : Nat} {pat buf : List Char} (hp : IsCStr pat) {s : Stream}
    (hs : BeforeLines suf s) {r : Bool × List Char × Stream} (h : atxExpect n pat buf s = .ok r) (ht : r.1 = true) :
    ∃ l suf', suf = l :: suf' ∧ HasLabel l pat ∧ r.2.1 = fillLine buf l ∧ BeforeLines suf' r.2.2 := by
  unfold atxExpect at h
  rcases getline_before hw hs n with hf | ⟨l, suf', rfl, h1, h2, h3⟩
  · simp only [hf, if_true] at h
    cases h
    cases ht
  · have hl := hw l (by simp)
    rw [h1] at h
    simp only [((Stream.good_iff _).1 h3.1).2, Bool.false_eq_true, if_false, atxLabel_line hl.1.2.1 hl.2 hp, Res.bind_ok] at h
    cases h
    exact ⟨l, suf', rfl, by simpa using ht, rfl, h3⟩

/-- The two lines that begin a record. -/
theorem readType_text {J : AtxJunk} {ls : List (List Char)} (hw : ∀ l ∈ ls, GridLine l) {ant c : List Char} {s : Stream} (hs : Onward ls s)
    {r : AtxType} (h : atxReadType J ant c s = .ok r) (h0 : r.status = 0) :
    ∃ pre start type suf, ls = pre ++ start :: type :: suf ∧ HasLabel start c!"START OF ANTENNA" ∧ HasLabel type c!"TYPE / SERIAL NO" ∧
      r.c.take 60 = type.take 60 ∧ BeforeLines suf r.strm := by
  unfold atxReadType at h
  obtain ⟨a, ha, h⟩ := Res.bind_eq_ok.1 h
  obtain ⟨ha1, ha2⟩ := expect_text hw (by decide) hs ha
  by_cases hat : a.1 = false
  · rw [if_pos hat] at h
    split at h <;> cases h <;> simp at h0
  · rw [if_neg hat] at h
    obtain ⟨pre, start, suf1, rfl, hl1, _, hb1⟩ := ha2 (by simpa using hat)
    obtain ⟨b, hb, h⟩ := Res.bind_eq_ok.1 h
    by_cases hbt : b.1 = false
    · rw [if_pos hbt] at h
      cases h; simp at h0
    · rw [if_neg hbt] at h
      obtain ⟨type, suf, rfl, hl2, hbuf, hb2⟩ := expect_next (fun l hl => hw l (by simp [hl])) (by decide) hb1 hb (by simpa using hbt)
      simp only at h
      obtain ⟨str, _, h⟩ := Res.bind_eq_ok.1 h
      obtain ⟨ant1, _, h⟩ := Res.bind_eq_ok.1 h
      obtain ⟨ant2, _, h⟩ := Res.bind_eq_ok.1 h
      obtain ⟨c', hc', h⟩ := Res.bind_eq_ok.1 h
      cases h
      refine ⟨pre, start, type, suf, by simp, hl1, hl2, ?_, hb2⟩
      have hty := hw type (by simp)
      unfold memcpyAt at hc'
      split at hc'
      · cases hc'
        have e60 : (b.2.1.take 60) = type.take 60 := by rw [hbuf]; exact take_fill hty.2
        have l60 : (type.take 60).length = 60 := by simp; exact hty.2
        show (List.take 0 c ++ b.2.1.take 60 ++ List.drop (0 + (b.2.1.take 60).length) c).take 60 = _
        rw [e60, List.take_zero, List.nil_append, List.take_append_of_le_length (by rw [l60]), List.take_take, Nat.min_self]
      · cases hc'

theorem skipLoop_text {ls : List (List Char)} (hw : ∀ l ∈ ls, GridLine l) : ∀ (left : Nat) (buf : List Char) (s : Stream) (r : Int × Stream),
    Onward ls s → atxSkipLoop left buf s = .ok r → Onward ls r.2 := by
  intro left
  induction left with
  | zero => intro buf s r hs h; cases h; exact hs
  | succ left ih =>
    intro buf s r hs h
    rw [atxSkipLoop] at h
    obtain ⟨e, _, h⟩ := Res.bind_eq_ok.1 h
    have hs' : Onward ls (s.getline ATX_GRID_CHARS).2 := by
      rcases hs with hf | ⟨pre, suf, rfl, hb⟩
      · left; rw [Stream.getline_bad (by simp [Stream.good, hf])]
      · rcases getline_before (fun l hl => hw l (by simp [hl])) hb ATX_GRID_CHARS with hf | ⟨l, suf', rfl, h1, _, h3⟩
        · exact Or.inl hf
        · rw [h1]; exact Or.inr ⟨pre ++ [l], suf', by simp, h3⟩
    split at h
    · cases h; exact hs'
    · exact ih _ _ _ hs' h

/-- The interval of a record that begins with these lines. -/
theorem cti_text {strptime : List Char → Res DateTime} {J : AtxJunk} {fuel : Nat} {eph : DateTime} {suf : List (List Char)} (hw : ∀ l ∈ suf, GridLine l)
    {s : Stream} (hs : BeforeLines suf s) {r : Int × Stream} (h : checkTimeInterval strptime J fuel eph s = .ok r) :
    Onward suf r.2 ∧ (r.1 = 0 → ∃ meth D post d u, suf = meth :: (D ++ post) ∧ HasLabel meth c!"METH / BY / # / DATE" ∧
      ValidRun strptime none none D d u ∧ d.total ≤ eph.total ∧ ∀ e, u = some e → eph.total ≤ e.total) := by
  unfold checkTimeInterval at h
  have h := Res.noexcept_eq_ok.1 h
  obtain ⟨a, ha, h⟩ := Res.bind_eq_ok.1 h
  obtain ⟨ha1, _⟩ := expect_text hw (by decide) (Or.inr ⟨[], suf, rfl, hs⟩) ha
  by_cases hat : a.1 = false
  · rw [if_pos hat] at h
    cases h
    exact ⟨ha1, by simp⟩
  · rw [if_neg hat] at h
    obtain ⟨meth, suf', rfl, hm, hbuf, hb⟩ := expect_next hw (by decide) hs ha (by simpa using hat)
    have hl := hw meth (by simp)
    have lab : ∀ p : List Char, IsCStr p → ¬ HasLabel meth p → atxLabel a.2.1 p = .ok false := by
      intro p hp hn
      rw [hbuf, atxLabel_line hl.1.2.1 hl.2 hp]; simp [hn]
    have n1 := lab c!"START OF FREQUENCY" (by decide) (hm.excl (by decide) (by decide))
    have n2 := lab c!"VALID FROM" (by decide) (hm.excl (by decide) (by decide))
    have n3 := lab c!"VALID UNTIL" (by decide) (hm.excl (by decide) (by decide))
    obtain ⟨k1, k2⟩ := ctiLoop_text fuel suf' a.2.1 none none a.2.2 r (fun l hl => hw l (by simp [hl])) hb
      ⟨by rw [n1]; simp, by rw [n2]; simp, by rw [n3]; simp, rfl⟩ h
    refine ⟨k1.mono (pre := [meth]), fun h0 => ?_⟩
    obtain ⟨D, post, d, u, e1, e2⟩ := k2 h0
    exact ⟨meth, D, post, d, u, by rw [e1], hm, e2⟩

/-- The satellite a line names. -/
theorem resolve_text {c : List Char} {sat0 sat : AtxSat} (h : atxResolve c sat0 = .ok (0, sat)) :
    c[20]? = some (satsysToChar sat.sys) ∧ IntBegins ((c.drop 21).take 5) sat.prn := by
  unfold atxResolve at h
  obtain ⟨str, _, h⟩ := Res.bind_eq_ok.1 h
  split at h
  · cases h
  · obtain ⟨a, _, h⟩ := Res.bind_eq_ok.1 h
    simp only at h
    obtain ⟨c20, h20, h⟩ := Res.bind_eq_ok.1 h
    split at h
    · obtain ⟨x, hx, h⟩ := Res.bind_eq_ok.1 h
      unfold atxSysPrn at hx
      rw [h20, Res.bind_ok] at hx
      have hc20 : c[20]? = some c20 := by
        unfold getAt at h20
        split at h20
        · cases h20; assumption
        · cases h20
      have hkeep : ∀ {s1 : AtxSat}, (do match ← atxSvn c s1 with
            | none => pure (10, s1)
            | some sat => do let sat ← atxCospar c sat; pure (0, sat)) = Res.ok ((0 : Int), sat) → sat.sys = s1.sys ∧ sat.prn = s1.prn := by
        intro s1 h
        obtain ⟨y, hy, h⟩ := Res.bind_eq_ok.1 h
        cases y with
        | none => cases h
        | some s2 =>
          simp only at h
          obtain ⟨s3, h3, h⟩ := Res.bind_eq_ok.1 h
          cases h
          have k2 : s2.sys = s1.sys ∧ s2.prn = s1.prn := by
            unfold atxSvn at hy
            obtain ⟨e, _, hy⟩ := Res.bind_eq_ok.1 hy
            split at hy
            · cases hy; exact ⟨rfl, rfl⟩
            · obtain ⟨u, _, hy⟩ := Res.bind_eq_ok.1 hy
              obtain ⟨w, _, hy⟩ := Res.bind_eq_ok.1 hy
              split at hy
              · cases hy
              · split at hy
                · cases hy; exact ⟨rfl, rfl⟩
                · cases hy
          have k3 : sat.sys = s2.sys ∧ sat.prn = s2.prn := by
            unfold atxCospar at h3
            obtain ⟨e, _, h3⟩ := Res.bind_eq_ok.1 h3
            split at h3 <;> cases h3 <;> exact ⟨rfl, rfl⟩
          exact ⟨k3.1.trans k2.1, k3.2.trans k2.2⟩
      cases hs : charToSatsys c20 with
      | ok sys =>
        rw [hs] at hx
        simp only at hx
        have hletter : c20 = satsysToChar sys := by
          by_contra hne
          have := charToSatsys_letter sys
          by_cases hex : ∃ q, c20 = satsysToChar q
          · obtain ⟨q, rfl⟩ := hex
            rw [charToSatsys_letter q] at hs
            cases hs
            exact hne rfl
          · exact charToSatsys_none (fun q hq => hex ⟨q, hq⟩) sys hs
        cases hi : stoi ((c.drop 21).take 5) with
        | ok p =>
          rw [hi] at hx
          cases hx
          obtain ⟨k1, k2⟩ := hkeep h
          rw [hc20, hletter, k1, k2]
          exact ⟨rfl, stoi_begins hi⟩
        | _ => rw [hi] at hx; cases hx; cases h
      | _ => rw [hs] at hx; cases hx; cases h
    · cases h

theorem satLoop_text {strptime : List Char → Res DateTime} {J : AtxJunk} {prn : Int} {ss : SatSys} {eph : DateTime} {ls : List (List Char)}
    (hw : ∀ l ∈ ls, GridLine l) :
    ∀ (fuel : Nat) (cur c : List Char) (sat : AtxSat) (pos : Option Nat) (st2 : Option Int) (s : Stream) (o : AtxSatOut), Onward ls s →
      atxSatLoop strptime J prn ss eph fuel cur c sat pos st2 s = .ok o → o.status = 0 →
      o.sat.prn = prn ∧ o.sat.sys = ss ∧ ∃ d u, SatSeen strptime ls ss prn d u ∧ d.total ≤ eph.total ∧ ∀ e, u = some e → eph.total ≤ e.total := by
  intro fuel
  induction fuel with
  | zero => intro cur c sat pos st2 s o _ h; cases h
  | succ fuel ih =>
    intro cur c sat pos st2 s o hs h h0
    unfold atxSatLoop at h
    obtain ⟨r, hr, h⟩ := Res.bind_eq_ok.1 h
    split at h
    · exact absurd h0 (atxSatEnd_ne h)
    · rename_i hst
      obtain ⟨pre, start, type, suf, rfl, hl1, hl2, hc, hb⟩ := readType_text hw hs hr (by simpa using hst)
      have hty := hw type (by simp)
      have hws : ∀ l ∈ suf, GridLine l := fun l hl => hw l (by simp [hl])
      obtain ⟨m, hm, h⟩ := Res.bind_eq_ok.1 h
      have htell : r.strm.tellg.2 = r.strm := by rw [tellg_good hb.1]
      rw [htell] at hm
      split at h
      · rename_i ht
        obtain ⟨h1, h2, h3, h4⟩ := atxSatTest_true hm ht
        cases h
        obtain ⟨q1, q2⟩ := resolve_text h3
        obtain ⟨_, k⟩ := cti_text hws hb h4
        obtain ⟨meth, D, post, d, u, rfl, k2, k3, k4⟩ := k rfl
        refine ⟨h1, h2, d, u, ⟨pre, start, type, meth, D, post, rfl, hl1, hl2, ?_, ?_, k2, k3⟩, k4⟩
        · have h20 : type[20]? = r.c[20]? := by
            have := congrArg (fun x => x[20]?) hc
            simp only [List.getElem?_take_of_lt (show 20 < 60 by decide)] at this
            exact this.symm
          rw [h20, q1, h2]
        · have h21 : (type.drop 21).take 5 = (r.c.drop 21).take 5 := by
            have := congrArg (fun x => (x.drop 21).take 5) hc
            simp only [List.drop_take, List.take_take] at this
            exact this.symm
          rw [h21, ← h1]
          exact q2
      · obtain ⟨k, hk, h⟩ := Res.bind_eq_ok.1 h
        have hm2 : Onward suf m.2.2 := by
          unfold atxSatTest at hm
          obtain ⟨x, hx, hm⟩ := Res.bind_eq_ok.1 hm
          split at hm
          · obtain ⟨t, ht, hm⟩ := Res.bind_eq_ok.1 hm
            cases hm
            exact (cti_text hws hb ht).1
          · cases hm
            exact Or.inr ⟨[], suf, rfl, hb⟩
        have hk2 : Onward (pre ++ start :: type :: suf) k.2 := by
          have := skipLoop_text hws 5000 _ _ _ hm2 hk
          have := this.mono (pre := pre ++ [start, type])
          simpa using this
        split at h
        · exact absurd h0 (atxSatEnd_ne h)
        · exact ih _ _ _ _ _ _ _ hk2 h h0

/-- **C37**, arbitrary lines.  A file whose lines behind the header have 60 to 511 chars and are otherwise arbitrary.  When a query for
satellite `prn` of system `ss` at `eph` is answered (status 0), then it is answered with that satellite, and the file does have a record that
names it and gives an interval of validity, both ends included, that holds `eph`. -/
theorem C37_sound_text {strptime : List Char → Res DateTime} {J : AtxJunk} {cospar : List Char} {fuel : Nat} {f f' : AtxFile} {p : Nat}
    {ls : List (List Char)} (hfail : f.strm.fail = false) (hp : f.endOfHead = some p) (hc : f.strm.content.drop p = linesText ls)
    (hw : ∀ l ∈ ls, GridLine l) {prn : Int} {ss : SatSys} {eph : DateTime} {sv : Option AtxSat}
    (h : atxSatInfo strptime J cospar fuel f prn ss eph = .ok (0, sv, f')) :
    ∃ sat, sv = some sat ∧ sat.prn = prn ∧ sat.sys = ss ∧
      ∃ d u, SatSeen strptime ls ss prn d u ∧ d.total ≤ eph.total ∧ ∀ e, u = some e → eph.total ≤ e.total := by
  unfold atxSatInfo at h
  obtain ⟨o, ho, h⟩ := Res.bind_eq_ok.1 h
  have h := Res.ok.inj h
  simp only [Prod.mk.injEq] at h
  obtain ⟨h0, h1, h2⟩ := h
  rw [if_pos h0] at h1
  unfold atxFindSat at ho
  have ho := Res.noexcept_eq_ok.1 ho
  obtain ⟨cur, _, ho⟩ := Res.bind_eq_ok.1 ho
  have hs : Onward ls (atxSeek f.strm f.endOfHead) := by
    rw [hp]
    refine Or.inr ⟨[], ls, rfl, ?_, ?_⟩
    · simp [atxSeek, Stream.seekg, hfail, Stream.good]
    · simp only [atxSeek, Stream.seekg, hfail]
      simpa [Stream.rest] using hc
  obtain ⟨k1, k2, k3⟩ := satLoop_text hw _ _ _ _ _ _ _ _ hs ho h0
  exact ⟨_, h1.symm, k1, k2, k3⟩

end Ggnss
