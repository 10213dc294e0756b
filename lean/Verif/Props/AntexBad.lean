import Verif.Props.AntexHist
/-!
# ANTEX: damaged records are refused
-/
namespace Ggnss

/-- The label columns of the array are not "END OF ANTENNA" and stay so when nothing more is read. -/
theorem skip_stale : ∀ (left : Nat) (buf : List Char) (s : Stream), (s.good = false ∨ s.rest = []) →
    atxLabel buf c!"END OF ANTENNA" = .ok false → ∃ s', atxSkipLoop left buf s = .ok (1, s') := by
  intro left
  induction left with
  | zero => intro buf s _ _; exact ⟨s, rfl⟩
  | succ left ih =>
    intro buf s hs hb
    have hgl : ∃ s', s.getline ATX_GRID_CHARS = ([], s') ∧ (s'.good = false ∨ s'.rest = []) := by
      by_cases hg : s.good = true
      · rcases hs with h | h
        · rw [hg] at h; cases h
        · exact ⟨_, Stream.getline_last hg h (by simp) (by simp), Or.inl (by simp [Stream.good])⟩
      · exact ⟨_, Stream.getline_bad (by simpa using hg), Or.inl (by simp [Stream.good])⟩
    obtain ⟨s', e1, e2⟩ := hgl
    have hl : atxLabel (fillLine buf []) c!"END OF ANTENNA" = .ok false := by
      unfold atxLabel at hb ⊢
      rw [show (fillLine buf []).drop 60 = buf.drop 60 by simp [fillLine]]
      exact hb
    unfold atxSkipLoop
    simp only [e1, hl, Res.bind_ok, Bool.false_eq_true, if_false]
    exact ih _ s' e2 hl

theorem skip_truncated : ∀ (ls : List (List Char)) (left : Nat) (buf : List Char) (s : Stream), s.good = true → s.rest = linesText ls →
    (∀ l ∈ ls, GridLine l ∧ ¬ HasLabel l c!"END OF ANTENNA") → (ls ≠ [] ∨ atxLabel buf c!"END OF ANTENNA" = .ok false) →
    ∃ s', atxSkipLoop left buf s = .ok (1, s') := by
  intro ls
  induction ls with
  | nil =>
    intro left buf s _ hr _ hb
    exact skip_stale left buf s (Or.inr hr) (by rcases hb with h | h; exact absurd rfl h; exact h)
  | cons l ls ih =>
    intro left buf s hg hr hls _
    cases left with
    | zero => exact ⟨s, rfl⟩
    | succ left =>
      obtain ⟨⟨h1, h60⟩, h2⟩ := hls l (by simp)
      have hr' : s.rest = linesText (l :: ls) ++ [] := by rw [hr]; simp
      have hlab := atxLabel_line (buf := buf) (pat := c!"END OF ANTENNA") h1.2.1 h60 (by decide)
      rw [decide_eq_false h2] at hlab
      unfold atxSkipLoop
      simp only [getline_past (n := ATX_GRID_CHARS) hg hr' h1.1 (by have := h1.2.2; unfold ATX_GRID_CHARS; omega), hlab, Res.bind_ok,
        Bool.false_eq_true, if_false]
      exact ih left _ (s.past [l]) hg (by have := rest_cons hr'; simpa using this) (fun x hx => hls x (by simp [hx])) (Or.inr hlab)

/-- **C53/C35** (damage is reported).  The file ends inside its first record, which is not (exactly) the
antenna asked for: the query reports 1, even when that record has the model asked for. -/
theorem C53_truncated_record_refused {strptime : List Char → Res DateTime} {J : AtxJunk} (hJ : J.WF) {b : AtxBlock} (h : b.WF strptime)
    {ls : List (List Char)} (hne : ls ≠ []) (hls : ∀ l ∈ ls, GridLine l ∧ ¬ HasLabel l c!"END OF ANTENNA") {f : AtxFile} {p : Nat}
    (hp : f.endOfHead = some p) (hfail : f.strm.fail = false) (hc : f.strm.content.drop p = linesText (b.start :: b.type :: ls))
    {ant : List Char} {k : AntCtor} {ss : List (List Char)} (ha : AntReach ant k ss) (hx : ¬ b.Exact k ss) (must : Bool) (fuel : Nat) :
    ∃ f', atxPcoReceiver J (fuel + 1) f ant must = .ok (1, [], f') := by
  obtain ⟨hg, hcc, hpos, hr⟩ := seekg_good hfail p
  rw [hc] at hr
  have hr' : (f.strm.seekg p).rest = linesText [b.start, b.type] ++ linesText ls := by
    rw [hr, ← linesText_append]; rfl
  obtain ⟨an, he, hreach⟩ := readType_block hJ h.named (cur := List.replicate 20 ' ' ++ NUL :: (J.ant p).drop 21) (c := J.head (f.strm.seekg p).pos)
    (ls := ls) (t := []) (by rw [hJ.head]; decide) hg (by rw [hr]; simp)
  have hg2 : ((f.strm.seekg p).past [b.start, b.type]).good = true := hg
  have hr2 := Stream.past_rest hr'
  obtain ⟨r, hs1, hs2⟩ := same_iff h.named hreach ha
  have hrf : r = false := by cases r with
    | false => rfl
    | true => exact absurd (hs2.1 rfl) hx
  subst hrf
  have hcm := C13_compare_model hreach ha
  obtain ⟨_, _, _, hs, hh1, hh2⟩ := hreach.shape
  obtain ⟨s', hskip⟩ := skip_truncated ls 5000 (J.grid ((f.strm.seekg p).past [b.start, b.type]).pos) _ hg2 hr2 hls (Or.inl hne)
  unfold atxPcoReceiver atxFindMatch
  simp only [hp, atxSeek, hpos, antInit_eq (J.ant p) (hJ.ant p), Res.bind_ok]
  rw [hpos] at he
  unfold atxMatchLoop
  have hres : (if decide (specModel (AntCtor.fromCStr b.type) = specModel k) = true then antHasSerial an else pure true) =
      Res.ok (if decide (specModel (AntCtor.fromCStr b.type) = specModel k) = true then hs else true) := by
    split
    · exact hh1
    · rfl
  simp only [hpos, he, Res.bind_ok, ne_eq, not_true_eq_false, if_false, hs1, Bool.false_eq_true, hcm, hres]
  have hb2 : ∀ (c : Bool) (x : List Char), (if c = true then (x, ((f.strm.seekg p).past [b.start, b.type]).tellg)
      else (List.replicate 20 ' ' ++ NUL :: (J.ant p).drop 21, (some 0, (f.strm.seekg p).past [b.start, b.type]))).2.2 =
      (f.strm.seekg p).past [b.start, b.type] := by
    intro c x
    rw [tellg_good hg2]
    cases c <;> rfl
  unfold atxSkip
  simp only [hb2, hskip, Res.bind_ok, atxMatchEnd, ne_eq, one_ne_zero, not_false_eq_true, if_true]
  exact ⟨_, rfl⟩

/-- **C37** (damage).  A record whose third line is not METH / BY / # / DATE is never taken for a valid
one, whatever dates follow. -/
theorem C37_no_method_line {strptime : List Char → Res DateTime} {J : AtxJunk} {l : List Char} (hl : GridLine l)
    (hm : ¬ HasLabel l c!"METH / BY / # / DATE") (eph : DateTime) {s : Stream} {t : List Char} (hg : s.good = true)
    (hr : s.rest = linesText [l] ++ t) (fuel : Nat) : checkTimeInterval strptime J fuel eph s = .ok (10, s.past [l]) := by
  unfold checkTimeInterval
  rw [expect_line (n := ATX_GRID_CHARS) hg hr hl.1 hl.2 (by decide), decide_eq_false hm, Res.bind_ok]
  rfl

end Ggnss
