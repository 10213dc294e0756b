import Verif.Spec.HeadEnd
import Verif.Props.NavHead
import Verif.Props.AntexCut
import Verif.Props.AntexAny
import Verif.Props.ObsHeadAny
/-!
# C90: no reader opens a file whose header has no end
-/
namespace Ggnss

/-- If the stream is good it stands at the beginning of a line. -/
def AtStart (s : Stream) : Prop := s.good = true → ∃ a, s.content = a ++ s.rest ∧ (a = [] ∨ a.getLast? = some '\n')

theorem getline_textLine {s : Stream} (h : AtStart s) (n : Nat) :
    AtStart (s.getline n).2 ∧ (s.getline n).2.content = s.content ∧ ((s.getline n).1 = [] ∨ ∃ l, TextLine s.content l ∧ (s.getline n).1 <+: l) := by
  refine ⟨?_, Stream.getline_content (s := s) (n := n) (l := (s.getline n).1) (s' := (s.getline n).2) rfl, ?_⟩
  · intro hg
    obtain ⟨k1, _, _, k4⟩ := Stream.getline_ok (s := s) (n := n) (l := (s.getline n).1) (s' := (s.getline n).2) rfl ((Stream.good_iff _).1 hg).2
    obtain ⟨a, ha, _⟩ := h k1
    rcases k4 with ⟨_, _, he, _⟩ | ⟨tail, hr, hs⟩
    · rw [Stream.good_iff] at hg; rw [hg.1] at he; cases he
    · rw [hs]
      have hrest := Stream.adv_rest_append (s := s) (a := (s.getline n).1 ++ ['\n']) (b := tail) (by rw [hr]; simp)
      refine ⟨a ++ ((s.getline n).1 ++ ['\n']), ?_, Or.inr (by simp)⟩
      show s.content = _
      rw [show (s.getline n).1.length + 1 = ((s.getline n).1 ++ ['\n']).length by simp, hrest, ha, hr]
      simp
  · by_cases hg : s.good = true
    · right
      obtain ⟨a, ha, hA⟩ := h hg
      refine ⟨s.rest.takeWhile (fun c => decide (c ≠ '\n')), ⟨a, s.rest.dropWhile (fun c => decide (c ≠ '\n')), ?_, hA, ?_, ?_⟩, ?_⟩
      · rw [List.takeWhile_append_dropWhile]; exact ha
      · intro hm
        have := List.mem_takeWhile_imp (p := fun c => decide (c ≠ '\n')) hm
        simp at this
      · cases hd : s.rest.dropWhile (fun c => decide (c ≠ '\n')) with
        | nil => exact Or.inl rfl
        | cons x xs =>
          right
          have := List.head?_dropWhile_not (fun c => decide (c ≠ '\n')) s.rest
          rw [hd] at this
          simp at this
          simpa using this
      · unfold Stream.getline
        rw [if_pos hg]
        simp only
        split
        · split <;> exact List.prefix_refl _
        · exact List.take_prefix _ _
    · left
      rw [Stream.getline_bad (by simpa using hg)]

/-- The comparison of an array with a label at column 61. -/
def ShowsLabel (buf pat : List Char) : Prop := strncmpEq pat.length (buf.drop 60) (cArr pat) = .ok true

theorem fill_keeps {l buf pat : List Char} (hp : NUL ∉ pat) (hl : ¬ HasLabel l pat) (hb : ¬ ShowsLabel buf pat ∨ 60 ≤ l.length) : ¬ ShowsLabel (fillLine buf l) pat := by
  intro hs
  by_cases h60 : 60 ≤ l.length
  · have hpre := strncmpEq_true hp hs
    rw [fillLine, List.drop_append_of_le_length h60] at hpre
    apply hl
    rcases List.prefix_or_prefix_of_prefix hpre (show l.drop 60 <+: l.drop 60 ++ NUL :: buf.drop (l.length + 1) from ⟨_, rfl⟩) with h | h
    · exact h
    · obtain ⟨t, ht⟩ := h
      cases t with
      | nil => exact ⟨[], by simpa using ht.symm⟩
      | cons x xs =>
        exfalso
        rw [← ht] at hpre
        obtain ⟨w, hw⟩ := hpre
        rw [List.append_assoc] at hw
        have := List.append_cancel_left hw
        simp only [List.cons_append, List.cons.injEq] at this
        apply hp
        rw [← ht, ← this.1]
        simp
  · rcases hb with hb | hb
    · apply hb
      have hd : (fillLine buf l).drop 60 = buf.drop 60 := by
        obtain ⟨k, hk⟩ : ∃ k, 60 = l.length + (k + 1) := ⟨60 - l.length - 1, by omega⟩
        rw [fillLine, List.drop_append, List.drop_eq_nil_of_le (by omega), List.nil_append]
        rw [show 60 - l.length = k + 1 by omega, List.drop_succ_cons, List.drop_drop]
        congr 1; omega
      unfold ShowsLabel at hs ⊢
      rwa [hd] at hs
    · exact absurd hb h60

theorem HasLabel.mono {x l pat : List Char} (h : x <+: l) (hx : HasLabel x pat) : HasLabel l pat := by
  obtain ⟨t, rfl⟩ := h
  unfold HasLabel at hx ⊢
  rw [List.drop_append]
  exact List.IsPrefix.trans hx ⟨_, rfl⟩

theorem getline_noEnd {s : Stream} (h : AtStart s) (hc : ¬ HeaderEnds s.content) (n : Nat) : ¬ HasLabel (s.getline n).1 c!"END OF HEADER" := by
  intro hl
  rcases (getline_textLine h n).2.2 with h0 | ⟨l, h1, h2⟩
  · rw [h0] at hl
    revert hl; decide
  · exact hc ⟨l, h1, hl.mono h2⟩

theorem END_nul : NUL ∉ c!"END OF HEADER" := by decide

theorem navSkip_noEnd : ∀ (left : Nat) (buf : List Char) (s : Stream) (r : Nat × Stream), AtStart s → ¬ HeaderEnds s.content → ¬ ShowsLabel buf c!"END OF HEADER" →
    navSkipHeader left buf s = .ok r → r.1 = 0 := by
  intro left
  induction left with
  | zero => intro buf s r _ _ _ h; simp only [navSkipHeader, Res.ok.injEq] at h; rw [← h]
  | succ left ih =>
    intro buf s r ha hc hb h
    unfold navSkipHeader at h
    obtain ⟨e, he, h⟩ := Res.bind_eq_ok.1 h
    cases e with
    | true => exact absurd he hb
    | false =>
      simp only [Bool.false_eq_true, if_false] at h
      obtain ⟨k1, k2, _⟩ := getline_textLine ha NAV_HEADER_CHARS
      exact ih _ _ r k1 (by rw [k2]; exact hc) (fill_keeps END_nul (getline_noEnd ha hc _) (Or.inl hb)) h

theorem atxSkip_noEnd : ∀ (left : Nat) (buf : List Char) (s : Stream) (r : Nat × Stream), AtStart s → ¬ HeaderEnds s.content → ¬ ShowsLabel buf c!"END OF HEADER" →
    atxSkipHeader left buf s = .ok r → r.1 = 0 := by
  intro left
  induction left with
  | zero => intro buf s r _ _ _ h; simp only [atxSkipHeader, Res.ok.injEq] at h; rw [← h]
  | succ left ih =>
    intro buf s r ha hc hb h
    unfold atxSkipHeader at h
    obtain ⟨e, he, h⟩ := Res.bind_eq_ok.1 h
    cases e with
    | true => exact absurd he hb
    | false =>
      simp only [Bool.false_eq_true, if_false] at h
      obtain ⟨k1, k2, _⟩ := getline_textLine ha ATX_HEADER_CHARS
      exact ih _ _ r k1 (by rw [k2]; exact hc) (fill_keeps END_nul (getline_noEnd ha hc _) (Or.inl hb)) h

theorem start_of (content : List Char) : AtStart ⟨content, 0, false, false⟩ := fun _ => ⟨[], by simp [Stream.rest], Or.inl rfl⟩

theorem first_shows {junk content : List Char} (hc : ¬ HeaderEnds content) (hj : NotByChance junk content) {n : Nat} (hn : 61 ≤ n) :
    ¬ ShowsLabel (fillLine junk ((⟨content, 0, false, false⟩ : Stream).getline n).1) c!"END OF HEADER" := by
  refine fill_keeps END_nul (getline_noEnd (start_of content) hc n) ?_
  rcases hj with hj | hj
  · left
    exact fun hs => hj (strncmpEq_true END_nul hs)
  · right
    unfold Stream.getline
    rw [if_pos (show (⟨content, 0, false, false⟩ : Stream).good = true from rfl)]
    have hr : (⟨content, 0, false, false⟩ : Stream).rest = content := by simp [Stream.rest]
    simp only [hr]
    split
    · split <;> exact hj
    · rw [List.length_take]
      omega

/-- **C90** (navigation).  A file without a line that has END OF HEADER in its columns is never opened: the constructor throws `std::runtime_error`, whatever the
bytes of the file. -/
theorem C90_navigation {junk : List Char} (hJ : junk.length = 85) {content : List Char} (hc : ¬ HeaderEnds content) (hj : NotByChance junk content) :
    navOpen junk content = .throw .runtime_error := by
  rcases C56_open_any hJ content with ⟨f, h⟩ | h
  · exfalso
    unfold navOpen at h
    obtain ⟨r, hr, h⟩ := Res.bind_eq_ok.1 h
    have hr0 : r.1 = 0 := by
      by_contra hne
      rw [if_pos hne] at h
      cases h
    unfold navReadHeader at hr
    have hr := Res.noexcept_eq_ok.1 hr
    have hsk : (⟨content, 0, false, false⟩ : Stream).seekg 0 = ⟨content, 0, false, false⟩ := rfl
    simp only [hsk] at hr
    have hs1 := first_shows (n := NAV_HEADER_CHARS) hc hj (by decide)
    obtain ⟨k1, k2, _⟩ := getline_textLine (start_of content) NAV_HEADER_CHARS
    generalize (⟨content, 0, false, false⟩ : Stream).getline NAV_HEADER_CHARS = g at *
    have k2 : g.2.content = content := k2
    obtain ⟨v, _, hr⟩ := Res.bind_eq_ok.1 hr
    cases v with
    | none => simp only [Res.pure_eq, Res.ok.injEq] at hr; rw [← hr] at hr0; cases hr0
    | some v =>
      simp only at hr
      obtain ⟨c20, _, hr⟩ := Res.bind_eq_ok.1 hr
      split at hr
      · simp only [Res.pure_eq, Res.ok.injEq] at hr; rw [← hr] at hr0; cases hr0
      · obtain ⟨c40, _, hr⟩ := Res.bind_eq_ok.1 hr
        split at hr
        · obtain ⟨q, hq, hr⟩ := Res.bind_eq_ok.1 hr
          have hc' : ¬ HeaderEnds g.2.content := by rw [k2]; exact hc
          obtain ⟨m1, m2, _⟩ := getline_textLine k1 NAV_HEADER_CHARS
          have hq0 := navSkip_noEnd 1000 _ _ q m1 (by rw [m2]; exact hc') (fill_keeps END_nul (getline_noEnd k1 hc' _) (Or.inl hs1)) hq
          rw [if_pos hq0] at hr
          simp only [Res.pure_eq, Res.ok.injEq] at hr; rw [← hr] at hr0; cases hr0
        · simp only [Res.pure_eq, Res.ok.injEq] at hr; rw [← hr] at hr0; cases hr0
  · exact h

theorem setAt_shows {buf b pat : List Char} (h : setAt buf 15 NUL = .ok b) (hs : ¬ ShowsLabel buf pat) : ¬ ShowsLabel b pat := by
  have hd : b.drop 60 = buf.drop 60 := by
    unfold setAt at h
    by_cases hl : 15 + [NUL].length ≤ buf.length
    · rw [memcpyAt_ok hl] at h
      simp only [Res.ok.injEq] at h
      rw [← h]
      simp only [List.length_cons, List.length_nil] at hl
      have h16 : (buf.take 15 ++ [NUL]).length = 16 := by simp; omega
      rw [List.drop_append, List.drop_eq_nil_of_le (by omega), h16, List.nil_append, List.drop_drop]
      rfl
    · unfold memcpyAt at h
      simp only [hl, if_false] at h
      cases h
  unfold ShowsLabel at hs ⊢
  rwa [hd]

/-- **C90** (ANTEX).  The same for `Antex`. -/
theorem C90_antex {J : AtxJunk} (hJ : J.WF) {content : List Char} (hc : ¬ HeaderEnds content) (hj : NotByChance (J.head 0) content) :
    atxOpen J content = .throw .runtime_error := by
  rcases C52_open_any hJ content with ⟨f, h⟩ | h
  · exfalso
    unfold atxOpen at h
    obtain ⟨r, hr, h⟩ := Res.bind_eq_ok.1 h
    have hr0 : r.1 = 0 := by
      by_contra hne
      rw [if_pos hne] at h
      cases h
    unfold atxReadHeader at hr
    have hsk : (⟨content, 0, false, false⟩ : Stream).seekg 0 = ⟨content, 0, false, false⟩ := rfl
    simp only [hsk] at hr
    have hs1 := first_shows (n := ATX_HEADER_CHARS) hc hj (by decide)
    obtain ⟨k1, k2, _⟩ := getline_textLine (start_of content) ATX_HEADER_CHARS
    generalize (⟨content, 0, false, false⟩ : Stream).getline ATX_HEADER_CHARS = g at *
    have k2 : g.2.content = content := k2
    have hr := Res.noexcept_eq_ok.1 hr
    obtain ⟨b, hb, hr⟩ := Res.bind_eq_ok.1 hr
    have hs1 := setAt_shows hb hs1
    obtain ⟨v, _, hr⟩ := Res.bind_eq_ok.1 hr
    rcases v with _ | v <;> simp only at hr
    all_goals
      split at hr
      · simp only [Res.pure_eq, Res.ok.injEq] at hr; rw [← hr] at hr0; cases hr0
      · obtain ⟨c20, _, hr⟩ := Res.bind_eq_ok.1 hr
        split at hr
        · obtain ⟨c0, _, hr⟩ := Res.bind_eq_ok.1 hr
          have hc' : ¬ HeaderEnds g.2.content := by rw [k2]; exact hc
          obtain ⟨m1, m2, _⟩ := getline_textLine k1 ATX_HEADER_CHARS
          have hs2 := fill_keeps END_nul (getline_noEnd k1 hc' ATX_HEADER_CHARS) (Or.inl hs1)
          split at hr
          · simp only [Res.pure_eq, Res.ok.injEq] at hr; rw [← hr] at hr0; cases hr0
          · obtain ⟨q, hq, hz⟩ := Res.bind_eq_ok.1 hr
            generalize g.2.getline ATX_HEADER_CHARS = g' at *
            have hc'' : ¬ HeaderEnds g'.2.content := by rw [m2]; exact hc'
            obtain ⟨n1, n2, _⟩ := getline_textLine m1 ATX_HEADER_CHARS
            have hq0 := atxSkip_noEnd 1000 _ _ q n1 (by rw [n2]; exact hc'') (fill_keeps END_nul (getline_noEnd m1 hc'' _) (Or.inl hs2)) hq
            rw [if_pos hq0] at hz
            simp only [Res.pure_eq, Res.ok.injEq] at hz; rw [← hz] at hr0; cases hr0
        · simp only [Res.pure_eq, Res.ok.injEq] at hr; rw [← hr] at hr0; cases hr0
  · exact h

/-- The streams a reader of lines can come to. -/
def Keeps (s s' : Stream) : Prop := AtStart s' ∧ s'.content = s.content

theorem obsTypesLoop_keeps : ∀ (n k : Nat) (line : List Char) (acc : List ObsCode) (s : Stream) (r : (Int ⊕ List ObsCode) × Stream), AtStart s →
    obsTypesLoop n k line acc s = .ok r → Keeps s r.2 := by
  intro n
  induction n with
  | zero => intro k line acc s r ha h; simp only [obsTypesLoop, Res.ok.injEq] at h; rw [← h]; exact ⟨ha, rfl⟩
  | succ n ih =>
    intro k line acc s r ha h
    unfold obsTypesLoop at h
    obtain ⟨t, _, h⟩ := Res.bind_eq_ok.1 h
    split at h
    · split at h
      · obtain ⟨k1, k2, _⟩ := getline_textLine ha OBS_HEADER_CHARS
        obtain ⟨e, _, h⟩ := Res.bind_eq_ok.1 h
        split at h
        · obtain ⟨m1, m2⟩ := ih _ _ _ _ r k1 h
          exact ⟨m1, m2.trans k2⟩
        · simp only [Res.pure_eq, Res.ok.injEq] at h; rw [← h]; exact ⟨k1, k2⟩
      · exact ih _ _ _ _ r ha h
    · simp only [Res.pure_eq, Res.ok.injEq] at h; rw [← h]; exact ⟨ha, rfl⟩
    · cases h

theorem obsTypesResolve_keeps {e0 : Bool} {line : List Char} {obst : ObsTypes} {s : Stream} {r : Int × ObsTypes × Stream} (ha : AtStart s)
    (h : obsTypesResolve e0 line obst s = .ok r) : Keeps s r.2.2 := by
  unfold obsTypesResolve at h
  have h := Res.noexcept_eq_ok.1 h
  obtain ⟨c, _, h⟩ := Res.bind_eq_ok.1 h
  obtain ⟨sys, _, h⟩ := Res.bind_eq_ok.1 h
  split at h
  · simp only [Res.pure_eq, Res.ok.injEq] at h; rw [← h]; exact ⟨ha, rfl⟩
  · obtain ⟨p, _, h⟩ := Res.bind_eq_ok.1 h
    simp only at h
    split at h
    · simp only [Res.pure_eq, Res.ok.injEq] at h; rw [← h]; exact ⟨ha, rfl⟩
    · obtain ⟨q, hq, h⟩ := Res.bind_eq_ok.1 h
      have hk := obsTypesLoop_keeps _ _ _ _ _ q ha hq
      split at h
      · simp only [Res.pure_eq, Res.ok.injEq] at h; rw [← h]; exact hk
      · split at h <;> (simp only [Res.pure_eq, Res.ok.injEq] at h; rw [← h]; exact hk)

theorem obsHeadLine_keeps {strptime : List Char → Res DateTime} {gAnt : Nat → List Char} {e0 : Bool} {line : List Char} {o : ObsFileObj} {s : Stream}
    {r : Int × ObsFileObj × Stream} (ha : AtStart s) (h : obsHeadLine strptime gAnt e0 line o s = .ok r) : Keeps s r.2.2 := by
  have hk : Keeps s s := ⟨ha, rfl⟩
  unfold obsHeadLine at h
  iterate 9
    obtain ⟨e, _, h⟩ := Res.bind_eq_ok.1 h
    split at h
    · first
        | (obtain ⟨t, _, h⟩ := Res.bind_eq_ok.1 h
           simp only [Res.pure_eq, Res.ok.injEq] at h; rw [← h]; exact hk)
        | (obtain ⟨t, _, h⟩ := Res.bind_eq_ok.1 h
           obtain ⟨t, _, h⟩ := Res.bind_eq_ok.1 h
           simp only [Res.pure_eq, Res.ok.injEq] at h; rw [← h]; exact hk)
        | (obtain ⟨t, _, h⟩ := Res.bind_eq_ok.1 h
           split at h <;> (simp only [Res.pure_eq, Res.ok.injEq] at h; rw [← h]; exact hk))
        | (obtain ⟨t, ht, h⟩ := Res.bind_eq_ok.1 h
           simp only [Res.pure_eq, Res.ok.injEq] at h; rw [← h]; exact obsTypesResolve_keeps ha ht)
        | (split at h <;> first | (simp only [Res.pure_eq, Res.ok.injEq] at h; rw [← h]; exact hk) | cases h)
  simp only [Res.pure_eq, Res.ok.injEq] at h; rw [← h]; exact hk

theorem obsLoop_noEnd {strptime : List Char → Res DateTime} {gAnt : Nat → List Char} {e0 : Bool} : ∀ (left : Nat) (buf : List Char) (o : ObsFileObj) (s : Stream)
    (r : Int × Nat × ObsFileObj × Stream), AtStart s → ¬ HeaderEnds s.content → ¬ ShowsLabel buf c!"END OF HEADER" →
    obsHeadLoop strptime gAnt e0 left buf o s = .ok r → r.1 = 0 → r.2.1 = 0 := by
  intro left
  induction left with
  | zero => intro buf o s r _ _ _ h _; simp only [obsHeadLoop, Res.ok.injEq] at h; rw [← h]
  | succ left ih =>
    intro buf o s r ha hc hb h h0
    unfold obsHeadLoop at h
    obtain ⟨e, he, h⟩ := Res.bind_eq_ok.1 h
    cases e with
    | true => exact absurd he hb
    | false =>
      simp only [Bool.false_eq_true, if_false] at h
      obtain ⟨k1, k2, _⟩ := getline_textLine ha OBS_HEADER_CHARS
      have hf := fill_keeps END_nul (getline_noEnd ha hc OBS_HEADER_CHARS) (Or.inl hb)
      generalize s.getline OBS_HEADER_CHARS = g at *
      obtain ⟨q, hq, h⟩ := Res.bind_eq_ok.1 h
      obtain ⟨m1, m2⟩ := obsHeadLine_keeps k1 hq
      split at h
      · rename_i hne
        simp only [Res.pure_eq, Res.ok.injEq] at h
        rw [← h] at h0
        exact absurd h0 hne
      · exact ih _ _ _ r m1 (by rw [m2, k2]; exact hc) hf h h0

/-- **C90** (observations).  The constructor does not return. -/
theorem C90_observation {strptime : List Char → Res DateTime} {gAnt : Nat → List Char} {e0 : Bool} {g0 junk : List Char} {buf0 : Nat → List Char}
    {content : List Char} (hc : ¬ HeaderEnds content) (hj : NotByChance junk content) :
    ¬ ∃ r, obsOpen strptime gAnt e0 g0 junk buf0 content = .ok r := by
  rintro ⟨f, h⟩
  unfold obsOpen at h
  obtain ⟨a, _, h⟩ := Res.bind_eq_ok.1 h
  obtain ⟨r, hr, h⟩ := Res.bind_eq_ok.1 h
  have hr0 : r.1 = 0 := by
    by_contra hne
    rw [if_pos hne] at h
    cases h
  unfold obsReadHeader at hr
  have hr := Res.noexcept_eq_ok.1 hr
  have hsk : (⟨content, 0, false, false⟩ : Stream).seekg 0 = ⟨content, 0, false, false⟩ := rfl
  simp only [hsk] at hr
  have hs1 := first_shows (n := OBS_HEADER_CHARS) hc hj (by decide)
  obtain ⟨k1, k2, _⟩ := getline_textLine (start_of content) OBS_HEADER_CHARS
  generalize (⟨content, 0, false, false⟩ : Stream).getline OBS_HEADER_CHARS = g at *
  have k2 : g.2.content = content := k2
  obtain ⟨v, _, hr⟩ := Res.bind_eq_ok.1 hr
  cases v with
  | none => simp only [Res.pure_eq, Res.ok.injEq] at hr; rw [← hr] at hr0; cases hr0
  | some v =>
    simp only at hr
    obtain ⟨c20, _, hr⟩ := Res.bind_eq_ok.1 hr
    split at hr
    · simp only [Res.pure_eq, Res.ok.injEq] at hr; rw [← hr] at hr0; cases hr0
    · obtain ⟨c40, _, hr⟩ := Res.bind_eq_ok.1 hr
      split at hr
      · obtain ⟨q, hq, hr⟩ := Res.bind_eq_ok.1 hr
        have hc' : ¬ HeaderEnds g.2.content := by rw [k2]; exact hc
        obtain ⟨m1, m2, _⟩ := getline_textLine k1 OBS_HEADER_CHARS
        have hq0 := obsLoop_noEnd 1000 _ _ _ q m1 (by rw [m2]; exact hc') (fill_keeps END_nul (getline_noEnd k1 hc' _) (Or.inl hs1)) hq
        split at hr
        · rename_i hne
          simp only [Res.pure_eq, Res.ok.injEq] at hr; rw [← hr] at hr0; exact hne hr0
        · rename_i hne
          rw [if_pos (hq0 (by simpa using hne))] at hr
          simp only [Res.pure_eq, Res.ok.injEq] at hr; rw [← hr] at hr0; cases hr0
      · simp only [Res.pure_eq, Res.ok.injEq] at hr; rw [← hr] at hr0; cases hr0

/-- **C90** (observations, with C60).  When the first line has 60 to 84 chars the refusal is `std::runtime_error`, or the process ends. -/
theorem C90_observation_refused {strptime : List Char → Res DateTime} (hS : ∀ b, NUL ∈ b → Sane (strptime b)) {gAnt : Nat → List Char}
    (hgA : ∀ k, (gAnt k).length = 41) (e0 : Bool) {g0 junk : List Char} (hg0 : g0.length = 41) (hJ : junk.length = 85)
    (buf0 : Nat → List Char) {first : List Char} (h1 : LineFits 84 first ∧ 60 ≤ first.length) {content : List Char}
    (hc : ¬ HeaderEnds (first ++ '\n' :: content)) :
    obsOpen strptime gAnt e0 g0 junk buf0 (first ++ '\n' :: content) = .throw .runtime_error ∨
      obsOpen strptime gAnt e0 g0 junk buf0 (first ++ '\n' :: content) = .terminate := by
  rcases C60_open_any_partial hS hgA e0 hg0 hJ buf0 h1 content with h | h | h
  · refine absurd h (C90_observation hc (Or.inr ?_))
    rw [Stream.takeWhile_line _ _ h1.1.1]
    exact h1.2
  · exact Or.inl h
  · exact Or.inr h

/-! ## Truncated headers -/

theorem cut_at_newline {l b x t : List Char} (hl : '\n' ∉ l) (hb : b = [] ∨ b.head? = some '\n') (hx : '\n' ∉ x) (h : l ++ b = x ++ '\n' :: t) : l = x := by
  rcases hb with rfl | hb
  · exfalso; apply hl
    rw [List.append_nil] at h
    rw [h]; simp
  · cases b with
    | nil => cases hb
    | cons c b =>
      simp only [List.head?_cons, Option.some.injEq] at hb
      subst hb
      have h1 := Stream.takeWhile_line l b hl
      rw [h, Stream.takeWhile_line x t hx] at h1
      exact h1.symm

theorem TextLine.cons {x t l : List Char} (hx : '\n' ∉ x) (h : TextLine (x ++ '\n' :: t) l) : l = x ∨ TextLine t l := by
  obtain ⟨a, b, h1, h2, h3, h4⟩ := h
  rcases h2 with rfl | h2
  · left
    exact cut_at_newline h3 h4 hx (by simpa using h1.symm)
  · right
    have hn : '\n' ∈ a := List.mem_of_getLast? h2
    have hlen : x.length < a.length := by
      by_contra hle
      have hpre : a <+: x := by
        have e1 : a <+: x ++ '\n' :: t := ⟨_, h1.symm⟩
        rcases List.prefix_or_prefix_of_prefix e1 (List.prefix_append x _) with h | h
        · exact h
        · have := h.length_le
          have hxa := h.eq_of_length (by omega)
          rw [hxa]
      exact hx (hpre.subset hn)
    have hpre : x ++ ['\n'] <+: a := by
      have e1 : a <+: x ++ '\n' :: t := ⟨_, h1.symm⟩
      have e2 : x ++ ['\n'] <+: x ++ '\n' :: t := ⟨t, by simp⟩
      rcases List.prefix_or_prefix_of_prefix e1 e2 with h | h
      · have := h.length_le
        have he := h.eq_of_length (by simp at *; omega)
        rw [he]
      · exact h
    obtain ⟨a', rfl⟩ := hpre
    refine ⟨a', b, ?_, ?_, h3, h4⟩
    · have : x ++ '\n' :: t = x ++ '\n' :: (a' ++ (l ++ b)) := by rw [h1]; simp
      simpa using this
    · cases a' with
      | nil => exact Or.inl rfl
      | cons c a' =>
        right
        rw [List.getLast?_append_of_ne_nil _ (by simp)] at h2
        exact h2

theorem TextLine.last {u l : List Char} (hu : '\n' ∉ u) (h : TextLine u l) : l = u := by
  obtain ⟨a, b, h1, h2, h3, h4⟩ := h
  have ha : a = [] := by
    rcases h2 with h2 | h2
    · exact h2
    · exfalso; apply hu; rw [h1]; exact List.mem_append_left _ (List.mem_of_getLast? h2)
  have hb : b = [] := by
    rcases h4 with h4 | h4
    · exact h4
    · exfalso; apply hu; rw [h1]; exact List.mem_append_right _ (List.mem_append_right _ (List.mem_of_head? h4))
  subst ha hb
  simpa using h1.symm

/-- The lines of a text given line by line. -/
theorem TextLine.lines {u l : List Char} (hu : '\n' ∉ u) : ∀ {ls : List (List Char)}, (∀ x ∈ ls, '\n' ∉ x) → TextLine (linesText ls ++ u) l → l ∈ ls ∨ l = u := by
  intro ls
  induction ls with
  | nil => intro _ h; exact Or.inr (TextLine.last hu (by simpa [linesText] using h))
  | cons x ls ih =>
    intro hls h
    have e : linesText (x :: ls) ++ u = x ++ '\n' :: (linesText ls ++ u) := by simp [linesText]
    rw [e] at h
    rcases TextLine.cons (hls x (by simp)) h with h | h
    · exact Or.inl (by simp [h])
    · rcases ih (fun y hy => hls y (by simp [hy])) h with h | h
      · exact Or.inl (by simp [h])
      · exact Or.inr h

theorem HeaderEnds.mono {p q : List Char} (h : p <+: q) (hp : HeaderEnds p) : HeaderEnds q := by
  obtain ⟨t, rfl⟩ := h
  obtain ⟨l, ⟨a, b, h1, h2, h3, h4⟩, hl⟩ := hp
  rcases h4 with rfl | h4
  · refine ⟨l ++ t.takeWhile (fun c => decide (c ≠ '\n')), ⟨a, t.dropWhile (fun c => decide (c ≠ '\n')), ?_, h2, ?_, ?_⟩, hl.mono (List.prefix_append _ _)⟩
    · rw [h1]; simp only [List.append_nil, List.append_assoc]; rw [List.takeWhile_append_dropWhile]
    · intro hm
      rcases List.mem_append.1 hm with hm | hm
      · exact h3 hm
      · have := List.mem_takeWhile_imp (p := fun c => decide (c ≠ '\n')) hm
        simp at this
    · cases hd : t.dropWhile (fun c => decide (c ≠ '\n')) with
      | nil => exact Or.inl rfl
      | cons x xs =>
        right
        have := List.head?_dropWhile_not (fun c => decide (c ≠ '\n')) t
        rw [hd] at this
        simp at this
        simpa using this
  · refine ⟨l, ⟨a, b ++ t, by rw [h1]; simp, h2, h3, Or.inr ?_⟩, hl⟩
    cases b with
    | nil => cases h4
    | cons c b => simpa using h4

/-- The first line of a beginning of a text that starts with a long line. -/
theorem first_reach {x t p : List Char} (hx : '\n' ∉ x) (hl : 60 ≤ x.length) (hp : p <+: x ++ '\n' :: t) (h : 60 ≤ p.length) :
    60 ≤ (p.takeWhile (fun c => decide (c ≠ '\n'))).length := by
  rcases List.prefix_or_prefix_of_prefix hp (List.prefix_append x _) with h1 | h1
  · rw [List.takeWhile_eq_self_iff.2]
    · exact h
    · intro c hc
      have : c ≠ '\n' := fun e => hx (h1.subset (e ▸ hc))
      simpa using this
  · obtain ⟨w, rfl⟩ := h1
    rw [List.takeWhile_append_of_pos]
    · simp; omega
    · intro c hc
      have : c ≠ '\n' := fun e => hx (e ▸ hc)
      simpa using this

/-- A header given line by line that stops before, or within, the END OF HEADER label has no end. -/
theorem noEnd_lines {ls : List (List Char)} {last p : List Char} (h1 : ∀ x ∈ ls, '\n' ∉ x ∧ ¬ HasLabel x c!"END OF HEADER") (h2 : '\n' ∉ last)
    (hp : p <+: linesText ls ++ last.take 72) : ¬ HeaderEnds p := by
  intro h
  obtain ⟨l, hl, hL⟩ := h.mono hp
  rcases TextLine.lines (fun hm => h2 (List.mem_of_mem_take hm)) (fun x hx => (h1 x hx).1) hl with h | h
  · exact (h1 l h).2 hL
  · rw [h] at hL
    have := hL.length_le
    simp at this
    omega

theorem HasLabel.nil : ¬ HasLabel [] c!"END OF HEADER" := by decide

/-- **C90** (a navigation file cut in its header).  Wherever the writer stopped before the END OF HEADER label was complete — between lines or within one,
at least the first 60 chars being there — the constructor throws. -/
theorem C90_navigation_cut {junk : List Char} (hJ : junk.length = 85) {h : NavHeader} (hw : h.WF) {p : List Char}
    (hp : p <+: linesText (h.first :: h.others) ++ h.last.take 72) (h60 : 60 ≤ p.length) : navOpen junk p = .throw .runtime_error := by
  refine C90_navigation hJ (noEnd_lines ?_ hw.last.1.1 hp) (Or.inr ?_)
  · intro x hx
    rcases List.mem_cons.1 hx with rfl | hx
    · exact ⟨hw.first.1.1, hw.first.2.2⟩
    · exact ⟨(hw.others x hx).1.1, (hw.others x hx).2⟩
  · have e : linesText (h.first :: h.others) ++ h.last.take 72 = h.first ++ '\n' :: (linesText h.others ++ h.last.take 72) := by simp [linesText]
    rw [e] at hp
    exact first_reach hw.first.1.1 hw.first.2.1 hp h60

/-- **C90** (an ANTEX file cut in its header). -/
theorem C90_antex_cut {J : AtxJunk} (hJ : J.WF) {h : AtxHeader} (hw : h.WF) (h1 : ¬ HasLabel h.first c!"END OF HEADER")
    (h2 : ¬ HasLabel h.second c!"END OF HEADER") {p : List Char}
    (hp : p <+: linesText (h.first :: h.second :: h.others) ++ h.last.take 72) (h60 : 60 ≤ p.length) : atxOpen J p = .throw .runtime_error := by
  refine C90_antex hJ (noEnd_lines ?_ hw.last.1.1 hp) (Or.inr ?_)
  · intro x hx
    rcases List.mem_cons.1 hx with rfl | hx
    · exact ⟨hw.first.1.1, h1⟩
    · rcases List.mem_cons.1 hx with rfl | hx
      · exact ⟨hw.second.1.1, h2⟩
      · exact ⟨(hw.others x hx).1.1, (hw.others x hx).2.2⟩
  · have e : linesText (h.first :: h.second :: h.others) ++ h.last.take 72 = h.first ++ '\n' :: (linesText (h.second :: h.others) ++ h.last.take 72) := by
      simp [linesText]
    rw [e] at hp
    exact first_reach hw.first.1.1 hw.first.2.1 hp h60

/-- No line of an entry of an observation header has the END OF HEADER label. -/
theorem item_noEnd {i : ObsItem} {strptime : List Char → Res DateTime} (h : i.Says strptime) {l : List Char} (hl : l ∈ i.lines) :
    '\n' ∉ l ∧ ¬ HasLabel l c!"END OF HEADER" := by
  by_cases hn : i.types? = none
  · obtain ⟨x, h1, h2, _, h4⟩ := ObsItem.single h hn
    rw [h1] at hl
    simp only [List.mem_singleton] at hl
    subst hl
    exact ⟨h2.1, h4⟩
  · cases i with
    | types e =>
      have hlab := h.1.labelled l hl
      exact ⟨hlab.1.1, hlab.2.excl (by decide) (by decide)⟩
    | _ => exact absurd rfl hn

/-- **C90** (an observation file cut in its header): the constructor does not return. -/
theorem C90_observation_cut {strptime : List Char → Res DateTime} {gAnt : Nat → List Char} {e0 : Bool} {g0 junk : List Char} {buf0 : Nat → List Char}
    {h : ObsHeader} (hw : h.WF strptime) (h1 : ¬ HasLabel h.first c!"END OF HEADER") {p : List Char}
    (hp : p <+: linesText (h.first :: h.second :: (h.items.map (·.lines)).flatten) ++ h.last.take 72) (h60 : 60 ≤ p.length) :
    ¬ ∃ r, obsOpen strptime gAnt e0 g0 junk buf0 p = .ok r := by
  refine C90_observation (noEnd_lines ?_ hw.last.1.1 hp) (Or.inr ?_)
  · intro x hx
    rcases List.mem_cons.1 hx with rfl | hx
    · exact ⟨hw.first.1.1, h1⟩
    · rcases List.mem_cons.1 hx with rfl | hx
      · exact ⟨hw.second.1.1, hw.second.2.2⟩
      · obtain ⟨ls, hls, hx⟩ := List.mem_flatten.1 hx
        obtain ⟨i, hi, rfl⟩ := List.mem_map.1 hls
        exact item_noEnd (hw.wf i hi) hx
  · have e : linesText (h.first :: h.second :: (h.items.map (·.lines)).flatten) ++ h.last.take 72 =
        h.first ++ '\n' :: (linesText (h.second :: (h.items.map (·.lines)).flatten) ++ h.last.take 72) := by simp [linesText]
    rw [e] at hp
    exact first_reach hw.first.1.1 hw.first.2 hp h60

/-- **C90** (where an exception is not what the user gets).  An observation file that ends within the columns before the label of the line that follows a
list of observation types (or right after that list), with a first char that is no system letter, ends the process: the label of the list is still in the
array, and the exception of the letter cannot leave the reader. -/
theorem C90_observation_cut_terminates {strptime : List Char → Res DateTime} {gAnt : Nat → List Char} (hgA : ∀ k, (gAnt k).length = 41)
    {g0 : List Char} (hg0 : g0.length = 41) (junk : List Char) (buf0 : Nat → List Char) {version : Numeral} {sys : SatSys}
    {first second : List Char} {items : List ObsItem} {e : TypesEntry}
    (h : HeadPrefix strptime version sys first second (items ++ [.types e])) (h1 : e.codes.length < 13) {u : List Char}
    (hu : LineFits 84 u ∧ u.length < 60) (hbad : ∀ q, u[0]? ≠ some (satsysToChar q)) :
    obsOpen strptime gAnt false g0 junk buf0 (linesText (prefixLines first second (items ++ [.types e])) ++ u) = .terminate := by
  obtain ⟨hsh, hne⟩ := (h.items_ok (.types e) (by simp)).1
  have hpre : HeadPrefix strptime version sys first second items :=
    ⟨h.first_ok, h.version_ok, h.kind_ok, h.sys_ok, h.second_ok, fun i hi => h.items_ok i (by simp [hi]), by
      have := h.once_ok; rw [List.filterMap_append, List.pairwise_append] at this; exact this.1, by have := h.few_ok; simp at this; omega⟩
  have hpos : 0 < e.codes.length := List.length_pos_iff.2 hne
  obtain ⟨l, hls⟩ : ∃ l, e.lines = [l] := by
    have hcnt := hsh.count
    rw [show (e.codes.length + 12) / 13 = 1 by omega] at hcnt
    exact List.length_eq_one_iff.1 hcnt
  have hct : linesText (prefixLines first second (items ++ [.types e])) ++ u = linesText (prefixLines first second items) ++ (linesText [l] ++ u) := by
    unfold prefixLines
    simp [linesText, ObsItem.lines, hls]
  rw [hct]
  obtain ⟨o, line, s, k, hg, hr, _, he, ht, ho⟩ := obsOpen_prefix (gAnt := gAnt) hgA hg0 junk buf0 hpre (linesText [l] ++ u)
  have hr' : s.rest = linesText (ObsItem.types e).lines ++ u := by
    rw [hr, show (ObsItem.types e).lines = [l] from hls]
  obtain ⟨o1, line1, e1, e2, e3, _, e5⟩ := obsHeadLoop_item hgA (h.items_ok (.types e) (by simp)).1 (h.items_ok (.types e) (by simp)).2 ht
    (by
      intro x hx
      have := h.once_ok
      rw [List.filterMap_append, List.pairwise_append] at this
      apply lookup_none_of_keys
      intro y hy
      exact this.2.2 y hy x (by simp [hx])) (k + 9) he hg hr'
  rw [ho, show k + 10 = (k + 9) + 1 from rfl, e1]
  have hl1 := e5 l hls
  subst hl1
  have hlab := hsh.labelled l (by rw [hls]; simp)
  have hdrop : (fillLine (fillLine line l) u).drop 60 = (fillLine line l).drop 60 := by
    rw [show fillLine (fillLine line l) u = u ++ NUL :: (fillLine line l).drop (u.length + 1) from rfl]
    rw [List.drop_append, List.drop_eq_nil_of_le (by omega)]
    obtain ⟨j, hj⟩ : ∃ j, 60 - u.length = j + 1 := ⟨60 - u.length - 1, by omega⟩
    rw [hj, List.drop_succ_cons, List.nil_append, List.drop_drop]
    congr 1; omega
  have hlab2 : LabelsAre (fillLine (fillLine line l) u) (· = c!"SYS / # / OBS TYPES") := by
    have := labelsAre_labelled hlab (by decide) line
    intro q hq
    unfold obsLabel
    rw [hdrop]
    exact this q hq
  have hgl := Stream.getline_last (n := OBS_HEADER_CHARS) (Stream.past_good s (ObsItem.types e).lines hg) (Stream.past_rest hr') hu.1.1
    (by have := hu.1.2.2; simpa [OBS_HEADER_CHARS] using this)
  rw [show k + 9 = (k + 8) + 1 from rfl, obsHeadLoop, e3, Res.bind_ok]
  simp only [Bool.false_eq_true, if_false]
  rw [hgl]
  simp only
  rw [headLine_types hlab2]
  unfold obsTypesResolve
  obtain ⟨c, hc, hthrow⟩ : ∃ c, getAt (fillLine (fillLine line l) u) 0 = .ok c ∧ charToSatsys c = .throw .runtime_error := by
    cases u with
    | nil => exact ⟨NUL, rfl, rfl⟩
    | cons c u =>
      refine ⟨c, rfl, ?_⟩
      rcases C01_total c with ⟨q, _, hq⟩ | ⟨hq, _⟩
      · exfalso; apply hbad q; rw [hq]; rfl
      · exact hq
  rw [hc, Res.bind_ok, hthrow]
  rfl

/-! ## What the remaining bytes of the array do

The array is not initialised: with a first line of fewer than 60 chars the columns of the label are what the memory held. -/

/-- A file of 45 chars, without any END OF HEADER. -/
def tinyFile : List Char := c!"     3.04           N                   G\nab\n"
/-- Memory that happens to hold END OF HEADER from byte 60 on. -/
def tinyJunk : List Char := List.replicate 60 NUL ++ c!"END OF HEADER" ++ List.replicate 12 NUL

end Ggnss
