import Verif.Props.AntexDamage
import Verif.Props.AntexAny
/-!
# C81: an ANTEX file that ends early

The file may end anywhere inside the record asked for (after its `METH / BY / # / DATE` line), also in
the middle of a line.
-/
namespace Ggnss

/-- Nothing more can be read. -/
def Spent (s : Stream) : Prop := s.good = false ∨ s.rest = []

theorem getline_spent {s : Stream} (h : Spent s) (n : Nat) : ∃ s', s.getline n = ([], s') ∧ s'.fail = true ∧ s'.content = s.content := by
  by_cases hg : s.good = true
  · rcases h with h | h
    · rw [hg] at h; cases h
    · exact ⟨_, Stream.getline_last hg h (by simp) (by simp), rfl, rfl⟩
  · exact ⟨_, Stream.getline_bad (by simpa using hg), rfl, rfl⟩

theorem spent_of_fail {s : Stream} (h : s.fail = true) : Spent s := Or.inl (by simp [Stream.good, h])

theorem expect_spent {s : Stream} (h : Spent s) (n : Nat) (pat buf : List Char) :
    ∃ s', atxExpect n pat buf s = .ok (false, fillLine buf [], s') ∧ s'.content = s.content := by
  obtain ⟨s', e1, e2, e3⟩ := getline_spent h n
  unfold atxExpect
  simp only [e1, e2, if_true]
  exact ⟨s', rfl, e3⟩

theorem scanTo_spent {s : Stream} (h : Spent s) {fuel : Nat} (hf : 0 < fuel) (n : Nat) (pat buf : List Char) :
    ∃ s', atxScanTo n pat fuel buf s = .ok (fillLine buf [], s') ∧ Spent s' ∧ s'.content = s.content := by
  obtain ⟨fuel, rfl⟩ : ∃ k, fuel = k + 1 := ⟨fuel - 1, by omega⟩
  obtain ⟨s', e1, e2, e3⟩ := getline_spent h n
  unfold atxScanTo
  simp only [e1, e2, if_true]
  exact ⟨s', rfl, spent_of_fail e2, e3⟩

theorem fill_len85 {buf l : List Char} (hb : buf.length = 85) (hl : l.length ≤ 84) : (fillLine buf l).length = 85 := fill_length (n := 84) hb hl

/-- Nothing more can be read: no offsets any more. -/
theorem pcoBand_85 {hline : List Char} (h : hline.length = 85) : ∃ r, pcoBand hline = .ok r := by
  unfold pcoBand
  rw [getAt_lt (by omega : 3 < hline.length), Res.bind_ok]
  cases charToSatsys hline[3] with
  | ok sys =>
    simp only
    cases stoi ((hline.drop 4).take 2) with
    | ok b => exact ⟨_, rfl⟩
    | _ => exact ⟨_, rfl⟩
  | _ => exact ⟨_, rfl⟩

/-- Being at a frequency line with nothing behind it. -/
theorem pcoTail_spent {fuel n : Nat} {hline gline : List Char} {list : List Pco} {s s0 : Stream} {h0 g0 : List Char} (hh : hline.length = 85)
    (hs : Spent s) (he : pcoAtFreq fuel h0 g0 s0 = .ok (.inl (hline, gline, s))) :
    ∃ st s', pcoLoop fuel (n + 1) h0 g0 list s0 = .ok (st, list, s') ∧ st ≠ 0 ∧ s'.content = s.content := by
  obtain ⟨r, hr⟩ := pcoBand_85 hh
  rw [pcoLoop, he, Res.bind_ok]
  simp only [hr, Res.bind_ok]
  cases r with
  | none => exact ⟨6, s, rfl, by decide, rfl⟩
  | some r =>
    obtain ⟨s', e1, e2⟩ := expect_spent hs ATX_HEADER_CHARS c!"NORTH / EAST / UP" hline
    simp only [e1, Res.bind_ok]
    exact ⟨7, s', rfl, by decide, e2⟩

theorem pcoLoop_spent {fuel n : Nat} (hf : 0 < fuel) {hline gline : List Char} {list : List Pco} {s : Stream} (hh : hline.length = 85)
    (hs : Spent s) : ∃ st s', pcoLoop fuel n hline gline list s = .ok (st, list, s') ∧ (st = 0 → n = 0) ∧ s'.content = s.content := by
  cases n with
  | zero => exact ⟨0, s, rfl, fun _ => rfl, rfl⟩
  | succ n =>
    obtain ⟨b1, h1⟩ := atxLabel_any (buf := hline) (pat := c!"START OF FREQUENCY") (by rw [hh]; decide)
    obtain ⟨b2, h2⟩ := atxLabel_any (buf := hline) (pat := c!"START OF FREQ RMS") (by rw [hh]; decide)
    have key : (pcoAtFreq fuel hline gline s = .ok (.inl (hline, gline, s))) ∨
        ∃ st s', pcoAtFreq fuel hline gline s = .ok (.inr (st, s')) ∧ st ≠ 0 ∧ s'.content = s.content := by
      unfold pcoAtFreq
      rw [show (if s.fail = true then (pure false : Res Bool) else atxLabel hline c!"START OF FREQUENCY") =
        .ok (if s.fail = true then false else b1) by split <;> simp [*], Res.bind_ok]
      generalize (if s.fail = true then false else b1) = bb
      split
      · exact Or.inl rfl
      · rw [h2, Res.bind_ok]
        right
        split
        · obtain ⟨s1, e1, e2, e3⟩ := scanTo_spent hs hf ATX_GRID_CHARS c!"END OF FREQ RMS" gline
          obtain ⟨s2, e4, e5⟩ := expect_spent e2 ATX_HEADER_CHARS c!"START OF FREQUENCY" hline
          rw [e1, Res.bind_ok, e4, Res.bind_ok]
          exact ⟨11, s2, rfl, by decide, e5.trans e3⟩
        · exact ⟨5, s, rfl, by decide, rfl⟩
    rcases key with h | ⟨st, s', h, h', h''⟩
    · obtain ⟨st, s', k1, k2, k3⟩ := pcoTail_spent (n := n) (list := list) hh hs h
      exact ⟨st, s', k1, fun h => absurd h k2, k3⟩
    · rw [pcoLoop, h, Res.bind_ok]
      exact ⟨st, s', rfl, fun h => absurd h h', h''⟩

/-! ## Reading a text that is cut -/

theorem cut_cons {t l : List Char} {ls : List (List Char)} (h : t <+: linesText (l :: ls)) :
    t <+: l ∨ ∃ t', t = l ++ '\n' :: t' ∧ t' <+: linesText ls := by
  rw [linesText_cons] at h
  by_cases hl : t.length ≤ l.length
  · left
    have := List.prefix_of_prefix_length_le h (show l <+: l ++ '\n' :: linesText ls from ⟨_, rfl⟩) hl
    exact this
  · right
    obtain ⟨u, hu⟩ := h
    have h1 : l ++ ['\n'] <+: t := by
      apply List.prefix_of_prefix_length_le (l₃ := t ++ u) _ ⟨u, rfl⟩ (by simp; omega)
      rw [hu]; exact ⟨linesText ls, by simp⟩
    obtain ⟨t', ht'⟩ := h1
    refine ⟨t', by rw [← ht']; simp, u, ?_⟩
    rw [← ht'] at hu
    simpa using hu

theorem getline_cut {s : Stream} {l : List Char} {ls : List (List Char)} {n : Nat} (hg : s.good = true) (hr : s.rest <+: linesText (l :: ls))
    (hl : LineFits (n - 1) l) :
    (s.getline n = (l, s.past [l]) ∧ (s.past [l]).rest <+: linesText ls ∧ (s.past [l]).rest.length < s.rest.length ∧
      s.rest = l ++ '\n' :: (s.past [l]).rest) ∨
    ∃ p s', p <+: l ∧ s.getline n = (p, s') ∧ s'.good = false ∧ s'.fail = p.isEmpty ∧ s'.content = s.content ∧ s.rest = p := by
  rcases cut_cons hr with h | ⟨t', h1, h2⟩
  · right
    have hnl : '\n' ∉ s.rest := fun hm => hl.1 (h.subset hm)
    refine ⟨s.rest, _, h, Stream.getline_last hg rfl hnl (Nat.le_trans h.length_le hl.2.2), by simp [Stream.good], rfl, rfl, rfl⟩
  · left
    have hr' : s.rest = linesText [l] ++ t' := by rw [h1, linesText_one]; simp
    have hr2 := Stream.past_rest hr'
    refine ⟨getline_past hg hr' hl.1 hl.2.2, by rw [hr2]; exact h2, ?_, by rw [hr2]; exact h1⟩
    rw [hr2, h1]; simp; omega

theorem strncmpEq_true {pat : List Char} (hp : NUL ∉ pat) : ∀ {a : List Char}, strncmpEq pat.length a (cArr pat) = .ok true → pat <+: a := by
  induction pat with
  | nil => intro a _; simp
  | cons p ps ih =>
    intro a h
    cases a with
    | nil => simp [strncmpEq] at h
    | cons x xs =>
      simp only [List.length_cons, cArr, List.cons_append, strncmpEq] at h
      split at h
      · rename_i hx
        subst hx
        rw [if_neg (by intro h0; apply hp; rw [h0]; simp)] at h
        obtain ⟨u, hu⟩ := ih (fun hm => hp (by simp [hm])) h
        exact ⟨u, by rw [← hu]; simp⟩
      · cases h

/-- A line cut short passes for the whole line only if its label is all there (the array keeps the end of
the line before, which has another label). -/
theorem partial_label {buf p pat : List Char} (hp : NUL ∉ pat) {c d : Char} (hb : buf[60]? = some c) (hd : pat.head? = some d) (hne : c ≠ d)
    (h : atxLabel (fillLine buf p) pat = .ok true) : 60 + pat.length ≤ p.length := by
  have hpre := strncmpEq_true hp h
  have hget : ∀ i < pat.length, (fillLine buf p)[60 + i]? = pat[i]? := by
    intro i hi
    obtain ⟨u, hu⟩ := hpre
    rw [← List.getElem?_drop, ← hu, List.getElem?_append_left hi]
  by_contra hlt
  have hlt : p.length < 60 + pat.length := by omega
  by_cases h60 : p.length < 60
  · have h0 := hget 0 (by cases pat with | nil => simp at hd | cons _ _ => simp)
    have : (fillLine buf p)[60 + 0]? = some c := by
      unfold fillLine
      rw [List.getElem?_append_right (by omega), show 60 + 0 - p.length = (59 - p.length) + 1 by omega, List.getElem?_cons_succ,
        List.getElem?_drop, show p.length + 1 + (59 - p.length) = 60 by omega, hb]
    rw [this, ← List.head?_eq_getElem?, hd] at h0
    exact hne (Option.some.inj h0)
  · have hi : p.length - 60 < pat.length := by omega
    have h0 := hget (p.length - 60) hi
    have : (fillLine buf p)[60 + (p.length - 60)]? = some NUL := by
      unfold fillLine
      rw [List.getElem?_append_right (by omega), show 60 + (p.length - 60) - p.length = 0 by omega]; rfl
    rw [this] at h0
    exact hp (List.mem_of_getElem? h0.symm)

/-- A labelled line is expected: it is there, or the text ends in it. -/
theorem expect_cut {s : Stream} {l : List Char} {ls : List (List Char)} {buf pat : List Char} (hg : s.good = true)
    (hr : s.rest <+: linesText (l :: ls)) (hl : Labelled l pat) (hp : IsCStr pat) (hne : pat ≠ []) (hlen : 60 + pat.length ≤ 85)
    (hbuf : buf.length = 85) {c d : Char} (hb : buf[60]? = some c) (hd : pat.head? = some d) (hcd : c ≠ d) :
    (atxExpect ATX_HEADER_CHARS pat buf s = .ok (true, fillLine buf l, s.past [l]) ∧ (s.past [l]).rest <+: linesText ls ∧
      (s.past [l]).rest.length < s.rest.length) ∨
    ∃ b p s', atxExpect ATX_HEADER_CHARS pat buf s = .ok (b, fillLine buf p, s') ∧ Spent s' ∧ s'.content = s.content ∧ p <+: l ∧
      (b = true → 60 + pat.length ≤ p.length) := by
  have h60 := hl.2.long hne
  rcases getline_cut (n := ATX_HEADER_CHARS) hg hr hl.1 with ⟨h1, h2, h3, h4⟩ | ⟨p, s', h1, h2, h3, h4, h5, _⟩
  · left
    refine ⟨?_, h2, h3⟩
    exact expect_labelled (ls := []) (t := (s.past [l]).rest) hg (by rw [linesText_one]; simpa using h4) hl hp hne
  · right
    unfold atxExpect
    simp only [h2]
    by_cases hf : s'.fail = true
    · rw [if_pos hf]
      exact ⟨false, p, s', rfl, Or.inl h3, h5, h1, by simp⟩
    · rw [if_neg hf]
      have hpl : p.length ≤ 84 := Nat.le_trans h1.length_le hl.1.2.2
      obtain ⟨b, hb'⟩ := atxLabel_any (buf := fillLine buf p) (pat := pat) (by rw [fill_len85 hbuf hpl]; exact hlen)
      rw [hb', Res.bind_ok]
      refine ⟨b, p, s', rfl, Or.inl h3, h5, h1, ?_⟩
      rintro rfl
      exact partial_label hp hb hd hcd hb'

/-- Lines are skipped up to a labelled one: it is found, or the text ends before. -/
theorem scanTo_cut {pat : List Char} {n : Nat} (hp : IsCStr pat) (hn : 60 + pat.length ≤ n) {last : List Char} {more : List (List Char)}
    (hlast : LineFits (n - 1) last ∧ 60 ≤ last.length ∧ HasLabel last pat) :
    ∀ (ls : List (List Char)), (∀ l ∈ ls, LineFits (n - 1) l ∧ 60 ≤ l.length ∧ ¬ HasLabel l pat) →
    ∀ (fuel : Nat) (buf : List Char) (s : Stream), s.good = true → buf.length = n → s.rest <+: linesText (ls ++ last :: more) →
      s.rest.length < fuel →
    (∃ buf' s', atxScanTo n pat fuel buf s = .ok (fillLine buf' last, s') ∧ s'.good = true ∧ s'.rest <+: linesText more ∧
      s'.rest.length < s.rest.length ∧ s'.content = s.content ∧ buf'.length = n) ∨
    ∃ buf' s', atxScanTo n pat fuel buf s = .ok (buf', s') ∧ buf'.length = n ∧ Spent s' ∧ s'.content = s.content := by
  have hpos : 0 < n := by omega
  have hfl : ∀ {buf p : List Char}, buf.length = n → p.length ≤ n - 1 → (fillLine buf p).length = n := by
    intro buf p h1 h2
    have := fill_length (n := n - 1) (buf := buf) (l := p) (by omega) h2
    omega
  have cutLine : ∀ (l : List Char), LineFits (n - 1) l → ∀ (fuel : Nat) (buf : List Char) (s : Stream), buf.length = n →
      s.rest.length < fuel → ∀ (p : List Char) (s' : Stream), p <+: l → s.getline n = (p, s') → s'.good = false → s'.fail = p.isEmpty →
      s'.content = s.content → s.rest = p →
      ∃ buf' s', atxScanTo n pat fuel buf s = .ok (buf', s') ∧ buf'.length = n ∧ Spent s' ∧ s'.content = s.content := by
    intro l hl fuel buf s hb hf p s' h1 h2 h3 h4 h5 h6
    obtain ⟨fuel, rfl⟩ : ∃ k, fuel = k + 1 := ⟨fuel - 1, by omega⟩
    have hlen : (fillLine buf p).length = n := hfl hb (Nat.le_trans h1.length_le hl.2.2)
    unfold atxScanTo
    simp only [h2]
    split
    · exact ⟨_, s', rfl, hlen, Or.inl h3, h5⟩
    · rename_i hnf
      obtain ⟨b, hb'⟩ := atxLabel_any (buf := fillLine buf p) (pat := pat) (by omega)
      rw [hb', Res.bind_ok]
      split
      · exact ⟨_, s', rfl, hlen, Or.inl h3, h5⟩
      · have hp0 : 0 < p.length := by
          cases p with
          | nil => simp at h4; exact absurd h4 hnf
          | cons _ _ => simp
        obtain ⟨s2, e1, e2, e3⟩ := scanTo_spent (Or.inl h3) (show 0 < fuel by rw [h6] at hf; omega) n pat (fillLine buf p)
        exact ⟨_, s2, e1, hfl hlen (by simp), e2, e3.trans h5⟩
  intro ls
  induction ls with
  | nil =>
    intro _ fuel buf s hg hb hr hf
    rcases getline_cut (n := n) (ls := more) hg hr hlast.1 with ⟨h1, h2, h3, h4⟩ | ⟨p, s', h1, h2, h3, h4, h5, h6⟩
    · left
      obtain ⟨buf', e⟩ := scanTo_lines (n := n) hp (t := (s.past [last]).rest) hlast [] (by simp) fuel buf s hg
        (by rw [List.nil_append, linesText_one]; simpa using h4) (by simp; omega)
      obtain ⟨fuel, rfl⟩ : ∃ k, fuel = k + 1 := ⟨fuel - 1, by omega⟩
      have hff : (s.past [last]).fail = false := ((Stream.good_iff s).1 hg).2
      unfold atxScanTo
      simp only [h1, hff, atxLabel_line hlast.1.2.1 hlast.2.1 hp, Res.bind_ok, Res.pure_eq, Bool.false_eq_true, if_false]
      rw [if_pos (decide_eq_true hlast.2.2)]
      exact ⟨buf, _, rfl, hg, h2, h3, rfl, hb⟩
    · exact Or.inr (cutLine last hlast.1 fuel buf s hb hf p s' h1 h2 h3 h4 h5 h6)
  | cons l ls ih =>
    intro hw fuel buf s hg hb hr hf
    obtain ⟨hl1, hl2, hl3⟩ := hw l (by simp)
    rcases getline_cut (n := n) (ls := ls ++ last :: more) hg hr hl1 with ⟨h1, h2, h3, h4⟩ | ⟨p, s', h1, h2, h3, h4, h5, h6⟩
    · obtain ⟨fuel, rfl⟩ : ∃ k, fuel = k + 1 := ⟨fuel - 1, by omega⟩
      have hff : (s.past [l]).fail = false := ((Stream.good_iff s).1 hg).2
      unfold atxScanTo
      simp only [h1, hff, atxLabel_line hl1.2.1 hl2 hp, Res.bind_ok, Res.pure_eq, Bool.false_eq_true, if_false]
      rw [if_neg (by simp [hl3])]
      rcases ih (fun x hx => hw x (by simp [hx])) fuel (fillLine buf l) (s.past [l]) hg (hfl hb hl1.2.2) h2 (by omega) with
        ⟨b', s', e1, e2, e3, e4, e5, e6⟩ | ⟨b', s', e1, e2, e3, e4⟩
      · exact Or.inl ⟨b', s', e1, e2, e3, by omega, e5, e6⟩
      · exact Or.inr ⟨b', s', e1, e2, e3, e4⟩
    · exact Or.inr (cutLine l hl1 fuel buf s hb hf p s' h1 h2 h3 h4 h5 h6)

/-! ## The frequencies -/

/-- The reader before line `x`, as `AtLine`, in a text that is cut. -/
def AtLineCut (rms : Bool) (x : List Char) (hline : List Char) (s : Stream) (lines : List (List Char)) : Prop :=
  if rms = true then
    ∃ buf a ls b, hline = fillLine buf a ∧ Labelled a c!"START OF FREQ RMS" ∧ Labelled b c!"END OF FREQ RMS" ∧
      (∀ l ∈ ls, GridLine l ∧ ¬ HasLabel l c!"END OF FREQ RMS") ∧ s.rest <+: linesText (ls ++ b :: x :: lines)
  else ∃ buf, hline = fillLine buf x ∧ s.rest <+: linesText lines

theorem col60_label {l p buf : List Char} {c : Char} (h : HasLabel l p) (hc : p.head? = some c) : (fillLine buf l)[60]? = some c := by
  have h60 : 60 < l.length := h.long (by rintro rfl; simp at hc)
  unfold fillLine
  rw [List.getElem?_append_left h60]
  obtain ⟨u, hu⟩ := h
  have : l[60]? = (l.drop 60)[0]? := by rw [List.getElem?_drop]
  rw [this, ← hu]
  cases p with
  | nil => simp at hc
  | cons d ds => simp at hc ⊢; exact hc

theorem pcoAtFreq_cut {rms : Bool} {x : List Char} (hx : Labelled x c!"START OF FREQUENCY") {fuel : Nat} {hline gline : List Char}
    {s : Stream} {lines : List (List Char)} (ha : AtLineCut rms x hline s lines) (hg : s.good = true) (hfuel : s.rest.length < fuel)
    (hh : hline.length = 85) (hgl : gline.length = 512) :
    (∃ buf gline' s', pcoAtFreq fuel hline gline s = .ok (.inl (fillLine buf x, gline', s')) ∧ s'.good = true ∧ s'.content = s.content ∧
      s'.rest <+: linesText lines ∧ s'.rest.length ≤ s.rest.length ∧ (fillLine buf x).length = 85 ∧ gline'.length = 512) ∨
    (∃ h' g' s', pcoAtFreq fuel hline gline s = .ok (.inl (h', g', s')) ∧ h'.length = 85 ∧ Spent s' ∧ s'.content = s.content) ∨
    (∃ st s', pcoAtFreq fuel hline gline s = .ok (.inr (st, s')) ∧ st ≠ 0 ∧ s'.content = s.content) := by
  have hnf : s.fail = false := ((Stream.good_iff s).1 hg).2
  have hx60 := hx.2.long (by decide)
  unfold pcoAtFreq
  unfold AtLineCut at ha
  split at ha
  · obtain ⟨buf, a, ls, b, rfl, h1, h2, h3, hr⟩ := ha
    have ha60 := h1.2.long (by decide)
    have hb60 := h2.2.long (by decide)
    have hxa : ¬ HasLabel a c!"START OF FREQUENCY" := h1.2.excl (by decide) (by decide)
    simp only [hnf, Bool.false_eq_true, if_false, atxLabel_line h1.1.2.1 (Nat.le_of_lt ha60) (by decide : IsCStr c!"START OF FREQUENCY"),
      decide_eq_false hxa, atxLabel_line h1.1.2.1 (Nat.le_of_lt ha60) (by decide : IsCStr c!"START OF FREQ RMS"),
      decide_eq_true h1.2, Res.bind_ok, if_true]
    rcases scanTo_cut (n := ATX_GRID_CHARS) (pat := c!"END OF FREQ RMS") (by decide) (by decide) (last := b) (more := x :: lines)
      ⟨(GridLine.of_labelled h2 (by decide)).1, Nat.le_of_lt hb60, h2.2⟩ ls
      (fun l hl => ⟨(h3 l hl).1.1, (h3 l hl).1.2, (h3 l hl).2⟩) fuel gline s hg hgl hr hfuel with
      ⟨b', s1, e1, e2, e3, e4, e5, e6⟩ | ⟨b', s1, e1, e2, e3, e4⟩
    · rw [e1, Res.bind_ok]
      have hgl' : (fillLine b' b).length = 512 := fill_length (n := 511) e6 (GridLine.of_labelled h2 (by decide)).1.2.2
      rcases getline_cut (n := ATX_HEADER_CHARS) e2 e3 hx.1 with ⟨i1, i2, i3, i4⟩ | ⟨p, s', i1, i2, i3, i4, i5, i6⟩
      · left
        rw [expect_labelled (ls := []) (t := (s1.past [x]).rest) e2 (by rw [linesText_one]; simpa using i4) hx (by decide) (by decide), Res.bind_ok]
        exact ⟨_, _, s1.past [x], rfl, e2, e5, i2, by omega, fill_len85 hh hx.1.2.2, hgl'⟩
      · right
        have hpl : p.length ≤ 84 := Nat.le_trans i1.length_le hx.1.2.2
        have hl85 : (fillLine (fillLine buf a) p).length = 85 := fill_len85 hh hpl
        unfold atxExpect
        simp only [i2]
        cases hsf : s'.fail with
        | true =>
          right
          simp only [if_true, Res.pure_eq, Res.bind_ok, Bool.false_eq_true, if_false]
          exact ⟨11, s', rfl, by decide, i5.trans e5⟩
        | false =>
          obtain ⟨bb, hbb⟩ := atxLabel_any (buf := fillLine (fillLine buf a) p) (pat := c!"START OF FREQUENCY") (by rw [hl85]; decide)
          simp only [Bool.false_eq_true, if_false, hbb, Res.bind_ok, Res.pure_eq]
          cases bb with
          | true =>
            left
            exact ⟨_, _, s', rfl, hl85, Or.inl i3, i5.trans e5⟩
          | false =>
            right
            exact ⟨11, s', rfl, by decide, i5.trans e5⟩
    · right; right
      obtain ⟨s2, f1, f2⟩ := expect_spent e3 ATX_HEADER_CHARS c!"START OF FREQUENCY" (fillLine buf a)
      rw [e1, Res.bind_ok, f1, Res.bind_ok]
      exact ⟨11, s2, rfl, by decide, f2.trans e4⟩
  · obtain ⟨buf, rfl, hr⟩ := ha
    left
    simp only [hnf, Bool.false_eq_true, if_false, atxLabel_line hx.1.2.1 (Nat.le_of_lt hx60) (by decide : IsCStr c!"START OF FREQUENCY"), Res.bind_ok]
    rw [if_pos (decide_eq_true hx.2)]
    exact ⟨buf, gline, s, rfl, hg, rfl, hr, Nat.le_refl _, hh, hgl⟩

/-- One frequency of a text that is cut. -/
theorem pcoStep_cut {f : AtxFreq} (h : f.WF) {fuel n : Nat} {hline gline : List Char} {list : List Pco} {s : Stream} {rms : Bool} {x : List Char}
    {xs : List (List Char)} (hx : LineFits 84 x) (hg : s.good = true)
    (ha : AtLineCut rms f.start hline s (f.neu :: (f.pattern ++ f.stop :: x :: xs))) (hfuel : s.rest.length < fuel)
    (hh : hline.length = 85) (hgl : gline.length = 512) :
    (∃ st s', pcoLoop fuel (n + 1) hline gline list s = .ok (st, list, s') ∧ st ≠ 0 ∧ s'.content = s.content) ∨
    ∃ p, p.flat = f.offset ∧
      ((∃ buf gline' s', pcoLoop fuel (n + 1) hline gline list s = pcoLoop fuel n (fillLine buf x) gline' (list ++ [p]) s' ∧
        s'.good = true ∧ s'.content = s.content ∧ s'.rest <+: linesText xs ∧ s'.rest.length ≤ s.rest.length ∧ (fillLine buf x).length = 85 ∧
        gline'.length = 512) ∨
       (∃ hline' gline' s', pcoLoop fuel (n + 1) hline gline list s = pcoLoop fuel n hline' gline' (list ++ [p]) s' ∧ hline'.length = 85 ∧
        Spent s' ∧ s'.content = s.content)) := by
  have hn60 := h.neu.2.long (by decide)
  have hs60 := h.stop.2.long (by decide)
  rcases pcoAtFreq_cut h.start ha hg hfuel hh hgl with ⟨buf, g1, s1, e1, e2, e3, e4, e5, e6, e7⟩ | ⟨h', g', s1, e1, e2, e3, e4⟩ | ⟨st, s1, e1, e2, e3⟩
  rotate_left
  · left
    obtain ⟨st, s2, k1, k2, k3⟩ := pcoTail_spent (n := n) (list := list) e2 e3 e1
    exact ⟨st, s2, k1, k2, k3.trans e4⟩
  · left
    rw [pcoLoop, e1, Res.bind_ok]
    exact ⟨st, s1, rfl, e2, e3⟩
  rw [pcoLoop, e1, Res.bind_ok]
  simp only [pcoBand_freq h, Res.bind_ok]
  rcases expect_cut (buf := fillLine buf f.start) e2 e4 h.neu (by decide) (by decide) (by decide) e6 (col60_label h.start.2 rfl) rfl (by decide) with
    ⟨i1, i2, i3⟩ | ⟨b, p, s2, i1, i2, i3, i4, i5⟩
  · right
    rw [i1, Res.bind_ok]
    simp only [Bool.true_eq_false, if_false]
    rw [take_fill (by omega), drop_take_fill (by omega), drop_take_fill (by omega), stod_num h.north, stod_num h.east, stod_num h.up]
    simp only [Res.bind_ok]
    refine ⟨⟨⟨.any, f.band, '?'⟩, f.sys, f.north.value, f.east.value, f.up.value⟩, rfl, ?_⟩
    have hh2 : (fillLine (fillLine buf f.start) f.neu).length = 85 := fill_len85 e6 h.neu.1.2.2
    rcases scanTo_cut (n := ATX_GRID_CHARS) (pat := c!"END OF FREQUENCY") (by decide) (by decide) (last := f.stop) (more := x :: xs)
      ⟨(GridLine.of_labelled h.stop (by decide)).1, Nat.le_of_lt hs60, h.stop.2⟩ f.pattern
      (fun l hl => ⟨(h.pattern l hl).1.1, (h.pattern l hl).1.2, (h.pattern l hl).2.1⟩) fuel g1 (s1.past [f.neu]) e2 e7 i2 (by omega) with
      ⟨b', s3, j1, j2, j3, j4, j5, j6⟩ | ⟨b', s3, j1, j2, j3, j4⟩
    · have hgl' : (fillLine b' f.stop).length = 512 := fill_length (n := 511) j6 (GridLine.of_labelled h.stop (by decide)).1.2.2
      simp only [j1, Res.bind_ok]
      rcases getline_cut (n := ATX_HEADER_CHARS) j2 j3 hx with ⟨k1, k2, k3, k4⟩ | ⟨p, s', k1, k2, k3, k4, k5, k6⟩
      · left
        rw [k1]
        exact ⟨_, _, s3.past [x], rfl, j2, j5.trans e3, k2, by omega, fill_len85 hh2 hx.2.2, hgl'⟩
      · right
        rw [k2]
        exact ⟨_, _, s', rfl, fill_len85 hh2 (Nat.le_trans k1.length_le hx.2.2), Or.inl k3, by rw [k5, j5]; exact e3⟩
    · right
      obtain ⟨s4, k1, k2, k3⟩ := getline_spent j3 ATX_HEADER_CHARS
      simp only [j1, Res.bind_ok, k1]
      exact ⟨_, _, s4, rfl, fill_len85 hh2 (by simp), spent_of_fail k2, by rw [k3, j4]; exact e3⟩
  · cases b with
    | false =>
      left
      rw [i1, Res.bind_ok]
      exact ⟨7, s2, rfl, by decide, i3.trans e3⟩
    | true =>
      right
      have hpl := i5 rfl
      have hp30 : 30 ≤ p.length := Nat.le_trans (by decide) hpl
      have hcols : ∀ a n, a + n ≤ 30 → (p.drop a).take n = (f.neu.drop a).take n := by
        intro a n han
        obtain ⟨u, hu⟩ := i4
        rw [← hu]
        conv_rhs => rw [List.drop_append_of_le_length (by omega), List.take_append_of_le_length (by simp; omega)]
      rw [i1, Res.bind_ok]
      simp only [Bool.true_eq_false, if_false]
      rw [take_fill (by omega), drop_take_fill (by omega), drop_take_fill (by omega)]
      rw [show p.take 10 = f.neu.take 10 by simpa using hcols 0 10 (by omega), hcols 10 10 (by omega), hcols 20 10 (by omega),
        stod_num h.north, stod_num h.east, stod_num h.up]
      simp only [Res.bind_ok]
      refine ⟨⟨⟨.any, f.band, '?'⟩, f.sys, f.north.value, f.east.value, f.up.value⟩, rfl, Or.inr ?_⟩
      have hh2 : (fillLine (fillLine buf f.start) p).length = 85 := fill_len85 e6 (Nat.le_trans i4.length_le h.neu.1.2.2)
      obtain ⟨s3, j1, j2, j3⟩ := scanTo_spent i2 (show 0 < fuel by omega) ATX_GRID_CHARS c!"END OF FREQUENCY" g1
      obtain ⟨s4, k1, k2, k3⟩ := getline_spent j2 ATX_HEADER_CHARS
      simp only [j1, Res.bind_ok, k1]
      exact ⟨_, _, s4, rfl, fill_len85 hh2 (by simp), spent_of_fail k2, by rw [k3, j3, i3, e3]⟩

/-- All frequencies of a text that is cut: those whose offsets are there are returned, and the status is
0 only if these are all. -/
theorem pcoLoop_cut {fuel : Nat} {x : List Char} (hx : LineFits 84 x) (more : List (List Char)) :
    ∀ (fs : List AtxFreq), (∀ f ∈ fs, f.WF) →
    ∀ (rms0 : Bool) (y : List Char) (ys : List (List Char)) (_ : (fs.map (·.lines)).flatten ++ x :: more = y :: ys)
      (hline gline : List Char) (list : List Pco) (s : Stream), s.good = true → AtLineCut rms0 y hline s ys → s.rest.length < fuel →
      hline.length = 85 → gline.length = 512 →
    ∃ st l s', pcoLoop fuel fs.length hline gline list s = .ok (st, list ++ l, s') ∧ l.map Pco.flat <+: fs.map (·.offset) ∧
      (st = 0 → l.map Pco.flat = fs.map (·.offset)) ∧ s'.content = s.content := by
  intro fs
  induction fs with
  | nil =>
    intro _ rms0 y ys hy hline gline list s hg ha _ _ _
    exact ⟨0, [], s, by simp [pcoLoop], by simp, by simp, rfl⟩
  | cons f fs ih =>
    intro hw rms0 y ys hy hline gline list s hg ha hfuel hh hgl
    have hf := hw f (by simp)
    have hfl : (List.map (·.lines) (f :: fs)).flatten ++ x :: more = f.start :: f.neu :: (f.pattern ++ f.stop ::
          (f.rmsLines ++ ((fs.map (·.lines)).flatten ++ x :: more))) := by
      rw [List.map_cons, List.flatten_cons, AtxFreq.lines_cons]; simp
    rw [hfl, List.cons.injEq] at hy
    obtain ⟨rfl, rfl⟩ := hy
    obtain ⟨z, zs, hz⟩ : ∃ z zs, (fs.map (·.lines)).flatten ++ x :: more = z :: zs := by
      cases hq : (fs.map (·.lines)).flatten ++ x :: more with
      | nil => simp at hq
      | cons z zs => exact ⟨z, zs, rfl⟩
    have hzf : LineFits 84 z := by
      cases fs with
      | nil => simp at hz; rw [← hz.1]; exact hx
      | cons f' fs =>
        rw [List.map_cons, List.flatten_cons, AtxFreq.lines_cons] at hz
        simp only [List.cons_append, List.cons.injEq] at hz
        rw [← hz.1]; exact (hw f' (by simp)).start.1
    rw [hz] at ha
    have key : ∃ u us, f.rmsLines ++ z :: zs = u :: us ∧ LineFits 84 u ∧
        ∀ buf s', s'.rest <+: linesText us → AtLineCut f.rms.isSome z (fillLine buf u) s' zs := by
      cases hrm : f.rms with
      | none =>
        refine ⟨z, zs, by rw [AtxFreq.rmsLines, hrm]; rfl, hzf, ?_⟩
        intro buf s' hs'
        exact ⟨buf, rfl, hs'⟩
      | some r =>
        obtain ⟨a, ls, b⟩ := r
        obtain ⟨h1, h2, h3⟩ := hf.rms a ls b hrm
        refine ⟨a, _, by rw [AtxFreq.rmsLines, hrm]; rfl, h1.1, ?_⟩
        intro buf s' hs'
        refine ⟨buf, a, ls, b, rfl, h1, h2, fun l hl => ⟨(h3 l hl).1, (h3 l hl).2.1⟩, ?_⟩
        simpa using hs'
    obtain ⟨u, us, hu, huf, hat⟩ := key
    rw [hu] at ha
    rcases pcoStep_cut (n := fs.length) (list := list) hf huf hg ha hfuel hh hgl with ⟨st, s', e1, e2, e3⟩ | ⟨p, hp, h⟩
    · exact ⟨st, [], s', by rw [List.length_cons, e1]; simp, by simp, fun h => absurd h e2, e3⟩
    · rcases h with ⟨buf, g', s', e1, e2, e3, e4, e5, e6, e7⟩ | ⟨h', g', s', e1, e2, e3, e4⟩
      · obtain ⟨st, l, s2, i1, i2, i3, i4⟩ := ih (fun q hq => hw q (by simp [hq])) f.rms.isSome z zs hz (fillLine buf u) g'
          (list ++ [p]) s' e2 (hat buf s' e4) (by omega) e6 e7
        refine ⟨st, p :: l, s2, by rw [List.length_cons, e1, i1]; simp, ?_, ?_, i4.trans e3⟩
        · simp only [List.map_cons, hp]
          exact (List.prefix_cons_inj _).2 i2
        · intro h; simp [hp, i3 h]
      · obtain ⟨st, s2, i1, i2, i3⟩ := pcoLoop_spent (n := fs.length) (gline := g') (list := list ++ [p]) (show 0 < fuel by omega) e2 e3
        refine ⟨st, [p], s2, by rw [List.length_cons, e1, i1], ?_, ?_, i3.trans e4⟩
        · simp only [List.map_cons, hp, List.map_nil]
          exact (List.prefix_cons_inj _).2 (by simp)
        · intro h
          have := List.length_eq_zero_iff.1 (i2 h)
          simp [hp, this]

/-! ## The record -/

/-- The lines after the first of a record, cut somewhere. -/
theorem collect_cut {strptime : List Char → Res DateTime} {J : AtxJunk} (hJ : J.WF) {b : AtxBlock} (h : b.WF strptime) {fuel : Nat} {s : Stream}
    (hg : s.good = true) {u : List Char} (hr : s.rest = linesText [b.meth] ++ u) (hu : linesText [b.meth] ++ u <+: linesText b.body)
    (hfuel : s.rest.length < fuel) :
    ∃ st l s', collectPco J fuel [] s = .ok (st, l, s') ∧ l.map Pco.flat <+: b.offsets ∧ (st = 0 → l.map Pco.flat = b.offsets) ∧
      s'.content = s.content := by
  have hbody : b.body = b.meth :: b.dazi :: b.zen :: b.num :: (b.opts.map (·.line) ++ ((b.freqs.map (·.lines)).flatten ++ [b.last])) := by
    unfold AtxBlock.body; simp
  have hu1 : u <+: linesText (b.dazi :: b.zen :: b.num :: (b.opts.map (·.line) ++ ((b.freqs.map (·.lines)).flatten ++ [b.last]))) := by
    rw [hbody, linesText_one, linesText_cons b.meth (_ :: _), List.append_assoc] at hu
    have := (List.prefix_append_right_inj _).1 hu
    simpa using this
  have r1 := Stream.past_rest hr
  rw [← r1] at hu1
  have hlen1 : (s.past [b.meth]).rest.length ≤ s.rest.length := by rw [r1, hr]; simp
  have hfull : ∀ {st : Int}, st ≠ 0 → (st = 0 → ([] : List Pco).map Pco.flat = b.offsets) := fun h h' => absurd h' h
  have hm85 : (fillLine (J.head s.pos) b.meth).length = 85 := fill_len85 (hJ.head _) h.meth.1.2.2
  unfold collectPco
  rw [expect_labelled hg hr h.meth (by decide) (by decide), Res.bind_ok]
  simp only [Bool.true_eq_false, if_false]
  -- DAZI
  rcases expect_cut (s := s.past [b.meth]) (buf := fillLine (J.head s.pos) b.meth) hg hu1 h.dazi (by decide) (by decide) (by decide) hm85
    (col60_label h.meth.2 rfl) rfl (by decide) with ⟨i1, i2, i3⟩ | ⟨bb, p, s2, i1, i2, i3, i4, i5⟩
  rotate_left
  · rw [i1, Res.bind_ok]
    cases bb with
    | false => exact ⟨2, [], s2, rfl, by simp, hfull (by decide), i3⟩
    | true =>
      obtain ⟨s3, j1, j2⟩ := expect_spent i2 ATX_HEADER_CHARS c!"ZEN1 / ZEN2 / DZEN" (fillLine (fillLine (J.head s.pos) b.meth) p)
      simp only [Bool.true_eq_false, if_false]
      rw [j1, Res.bind_ok]
      exact ⟨3, [], s3, rfl, by simp, hfull (by decide), j2.trans i3⟩
  rw [i1, Res.bind_ok]
  simp only [Bool.true_eq_false, if_false]
  have hd85 := fill_len85 hm85 h.dazi.1.2.2
  -- ZEN
  rcases expect_cut (s := (s.past [b.meth]).past [b.dazi]) (buf := fillLine (fillLine (J.head s.pos) b.meth) b.dazi) hg i2 h.zen (by decide) (by decide)
    (by decide) hd85 (col60_label h.dazi.2 rfl) rfl (by decide) with ⟨k1, k2, k3⟩ | ⟨bb, p, s2, k1, k2, k3, k4, k5⟩
  rotate_left
  · rw [k1, Res.bind_ok]
    cases bb with
    | false => exact ⟨3, [], s2, rfl, by simp, hfull (by decide), k3⟩
    | true =>
      obtain ⟨s3, j1, j2⟩ := expect_spent k2 ATX_HEADER_CHARS c!"# OF FREQUENCIES" (fillLine (fillLine (fillLine (J.head s.pos) b.meth) b.dazi) p)
      simp only [Bool.true_eq_false, if_false]
      rw [j1, Res.bind_ok]
      exact ⟨4, [], s3, rfl, by simp, hfull (by decide), j2.trans k3⟩
  rw [k1, Res.bind_ok]
  simp only [Bool.true_eq_false, if_false]
  have hz85 := fill_len85 hd85 h.zen.1.2.2
  -- # OF FREQUENCIES
  rcases expect_cut (s := ((s.past [b.meth]).past [b.dazi]).past [b.zen]) (buf := fillLine (fillLine (fillLine (J.head s.pos) b.meth) b.dazi) b.zen) hg
    k2 h.num (by decide) (by decide) (by decide) hz85 (col60_label h.zen.2 rfl) rfl (by decide) with ⟨m1, m2, m3⟩ | ⟨bb, p, s2, m1, m2, m3, m4, m5⟩
  rotate_left
  · rw [m1, Res.bind_ok]
    cases bb with
    | false => exact ⟨4, [], s2, rfl, by simp, hfull (by decide), m3⟩
    | true =>
      have hpl : 60 + c!"# OF FREQUENCIES".length ≤ p.length := m5 rfl
      have hp6 : 6 ≤ p.length := Nat.le_trans (by decide) hpl
      have ht : p.take 6 = b.num.take 6 := by
        obtain ⟨w, hw⟩ := m4
        rw [← hw, List.take_append_of_le_length hp6]
      simp only [Bool.true_eq_false, if_false]
      rw [take_fill hp6, ht, stoi_nat h.numVal]
      obtain ⟨s3, j1, j2, j3⟩ := scanTo_spent m2 (show 0 < fuel by omega) ATX_HEADER_CHARS c!"START OF FREQUENCY"
        (fillLine (fillLine (fillLine (fillLine (J.head s.pos) b.meth) b.dazi) b.zen) p)
      simp only [j1, Res.bind_ok, Int.toNat_natCast]
      obtain ⟨st, s4, q1, q2, q3⟩ := pcoLoop_spent (n := b.freqs.length) (gline := J.grid s.pos) (list := []) (show 0 < fuel by omega)
        (fill_len85 (fill_len85 hz85 (Nat.le_trans m4.length_le h.num.1.2.2)) (l := []) (by simp)) j2
      rw [q1]
      refine ⟨st, [], s4, rfl, by simp, ?_, by rw [q3, j3, m3]; rfl⟩
      intro h0
      exact absurd (List.length_eq_zero_iff.1 (q2 h0)) h.some_
  rw [m1, Res.bind_ok]
  simp only [Bool.true_eq_false, if_false]
  have hn60 := h.num.2.long (by decide)
  rw [take_fill (by omega), stoi_nat h.numVal]
  have hn85 := fill_len85 hz85 h.num.1.2.2
  obtain ⟨y, ys, hy⟩ : ∃ y ys, (b.freqs.map (·.lines)).flatten ++ [b.last] = y :: ys := by
    cases hq : (b.freqs.map (·.lines)).flatten ++ [b.last] with
    | nil => simp at hq
    | cons z zs => exact ⟨z, zs, rfl⟩
  have hyl : Labelled y c!"START OF FREQUENCY" := by
    cases hfs : b.freqs with
    | nil => exact absurd hfs h.some_
    | cons f fs =>
      rw [hfs, List.map_cons, List.flatten_cons, AtxFreq.lines_cons] at hy
      simp only [List.cons_append, List.cons.injEq] at hy
      rw [← hy.1]; exact (h.freqs f (by rw [hfs]; simp)).start
  rw [hy] at m2
  rcases scanTo_cut (n := ATX_HEADER_CHARS) (pat := c!"START OF FREQUENCY") (by decide) (by decide) (last := y) (more := ys)
      ⟨hyl.1, Nat.le_of_lt (hyl.2.long (by decide)), hyl.2⟩ (b.opts.map (·.line))
      (by
        intro l hl
        simp only [List.mem_map] at hl
        obtain ⟨o, ho, rfl⟩ := hl
        obtain ⟨i1, i2, i3⟩ := AtxOpt.inner (h.opts o ho)
        exact ⟨i3, i1.1.2, i2⟩) fuel
      (fillLine (fillLine (fillLine (fillLine (J.head s.pos) b.meth) b.dazi) b.zen) b.num)
      ((((s.past [b.meth]).past [b.dazi]).past [b.zen]).past [b.num]) hg hn85 m2 (by omega) with
      ⟨b', s3, j1, j2, j3, j4, j5, j6⟩ | ⟨b', s3, j1, j2, j3, j4⟩
  · simp only [j1, Res.bind_ok, Int.toNat_natCast]
    obtain ⟨st, l, s4, q1, q2, q3, q4⟩ := pcoLoop_cut (fuel := fuel) h.last.1 [] b.freqs h.freqs false y ys hy (fillLine b' y) (J.grid s.pos) [] s3 j2
      ⟨b', rfl, j3⟩ (by omega) (fill_len85 j6 hyl.1.2.2) (hJ.grid _)
    rw [q1]
    exact ⟨st, l, s4, by simp, q2, q3, q4.trans j5⟩
  · simp only [j1, Res.bind_ok, Int.toNat_natCast]
    obtain ⟨st, s4, q1, q2, q3⟩ := pcoLoop_spent (n := b.freqs.length) (gline := J.grid s.pos) (list := []) (show 0 < fuel by omega) j2 j3
    rw [q1]
    refine ⟨st, [], s4, rfl, by simp, ?_, q3.trans j4⟩
    intro h0
    exact absurd (List.length_eq_zero_iff.1 (q2 h0)) h.some_

/-- Records that are not the one asked for are passed over. -/
theorem matchLoop_skip {J : AtxJunk} (hJ : J.WF) {antIn : List Char} {k : AntCtor}
    {ss : List (List Char)} (hi : AntReach antIn k ss) (t : List Char) :
    ∀ (bs : List AtxRaw), (∀ b ∈ bs, b.WF ∧ ¬ b.Exact k ss) →
    ∀ (fuel : Nat) (cur best : List Char) (bestPos : Option Nat) (stat2 : Option Int) (s : Stream), s.good = true →
      s.rest = atxRawText bs ++ t →
    ∃ cur' best' bestPos' stat2' s', atxMatchLoop J antIn (fuel + bs.length) cur best bestPos stat2 s =
      atxMatchLoop J antIn fuel cur' best' bestPos' stat2' s' ∧ s'.good = true ∧ s'.content = s.content ∧ s'.rest = t := by
  intro bs
  induction bs with
  | nil =>
    intro _ fuel cur best bestPos stat2 s hg hr
    exact ⟨cur, best, bestPos, stat2, s, rfl, hg, rfl, by simpa [atxRawText, linesText] using hr⟩
  | cons b bs ih =>
    intro hw fuel cur best bestPos stat2 s hg hr
    obtain ⟨hwb, hx⟩ := hw b (by simp)
    rw [atxRawText_cons, List.append_assoc] at hr
    obtain ⟨ant, he, hreach⟩ := readType_block hJ hwb.named (cur := cur) (c := J.head s.pos) (by rw [hJ.head]; decide) hg
      (ls := b.body) hr
    have hr2 : (s.past [b.start, b.type]).rest = linesText b.body ++ (atxRawText bs ++ t) := by
      apply Stream.past_rest
      rw [hr]
      show linesText ([b.start, b.type] ++ b.body) ++ _ = _
      rw [linesText_append]; simp
    have hg2 : (s.past [b.start, b.type]).good = true := hg
    obtain ⟨r, hs1, hs2⟩ := same_iff hwb.named hreach hi
    have hrf : r = false := by
      cases r with
      | false => rfl
      | true => exact absurd (hs2.1 rfl) hx
    subst hrf
    have hcm := C13_compare_model hreach hi
    obtain ⟨_, _, _, hs, hh1, _⟩ := hreach.shape
    have hskip : atxSkip J (s.past [b.start, b.type]) = .ok (0, (s.past [b.start, b.type]).past b.body) := by
      unfold atxSkip
      apply skip_lines hwb.last b.inner hwb.inner 5000 _ _ hg2 hr2
      have := hwb.few
      unfold AtxRaw.body at this
      simp at this; omega
    have hr3 : ((s.past [b.start, b.type]).past b.body).rest = atxRawText bs ++ t := Stream.past_rest hr2
    have hres : ∀ cm : Bool, (if cm = true then antHasSerial ant else pure true) = Res.ok (if cm = true then hs else true) := by
      intro cm
      cases cm
      · rfl
      · exact hh1
    have htl : (s.past [b.name.start, b.name.type]).tellg = (some (s.past [b.start, b.type]).pos, s.past [b.start, b.type]) := tellg_good hg2
    have hskip' : atxSkip J (s.past [b.name.start, b.name.type]) = .ok (0, (s.past [b.start, b.type]).past b.body) := hskip
    rw [List.length_cons, ← Nat.add_assoc]
    suffices hstep : ∃ best1 bestPos1, atxMatchLoop J antIn (fuel + bs.length + 1) cur best bestPos stat2 s =
        atxMatchLoop J antIn (fuel + bs.length) ant best1 bestPos1 (some 0) ((s.past [b.start, b.type]).past b.body) by
      obtain ⟨best1, bestPos1, hstep⟩ := hstep
      rw [hstep]
      exact ih (fun q hq => hw q (by simp [hq])) fuel ant best1 bestPos1 (some 0) ((s.past [b.start, b.type]).past b.body) hg hr3
    rw [atxMatchLoop]
    rw [he, Res.bind_ok]
    simp only [ne_eq, not_true_eq_false, if_false, hs1, Res.bind_ok, Bool.false_eq_true, hcm, hres]
    generalize (if decide (specModel (AntCtor.fromCStr b.name.type) = specModel k) = true then hs else true) = hv
    generalize decide (specModel (AntCtor.fromCStr b.name.type) = specModel k) = cm
    cases hcc : (cm && !hv) with
    | false =>
      simp only [Bool.false_eq_true, if_false, hskip', Res.bind_ok, not_true_eq_false]
      exact ⟨_, _, rfl⟩
    | true =>
      simp only [if_true, htl, hskip, Res.bind_ok, not_true_eq_false, if_false]
      exact ⟨_, _, rfl⟩

/-- **C81**.  The file ends somewhere inside the record asked for, after its `METH / BY / # / DATE` line (the
last line may be incomplete): the query returns; the offsets returned are those of the first frequencies of
the record, and the status is 0 only if these are all its frequencies. -/
theorem C81_truncated_file_partial {strptime : List Char → Res DateTime} {J : AtxJunk} (hJ : J.WF) {pre : List AtxRaw} {k : AntCtor}
    {ss : List (List Char)} (hpre : ∀ r ∈ pre, r.WF ∧ ¬ r.Exact k ss) {b : AtxBlock} (hb : b.WF strptime) (hx : b.Exact k ss)
    {u : List Char} (hu : linesText [b.meth] ++ u <+: linesText b.body) {f : AtxFile} {p : Nat} (hp : f.endOfHead = some p)
    (hfail : f.strm.fail = false)
    (hc : f.strm.content.drop p = atxRawText pre ++ (linesText [b.start, b.type] ++ (linesText [b.meth] ++ u)))
    {ant : List Char} (hi : AntReach ant k ss) (must : Bool) {fuel : Nat} (hfuel : f.strm.content.length < fuel) :
    ∃ st l f', atxPcoReceiver J fuel f ant must = .ok (st, l, f') ∧ l.map Pco.flat <+: b.offsets ∧
      (st = 0 → l.map Pco.flat = b.offsets) := by
  obtain ⟨hg, hcc, hpos, hr⟩ := seekg_good hfail p
  rw [hc] at hr
  have hlen : pre.length < fuel := by
    have h1 : pre.length ≤ (pre.map (·.lines)).flatten.length := by
      clear hpre hc hr
      induction pre with
      | nil => simp
      | cons b bs ih =>
        have : 0 < b.lines.length := by simp [AtxRaw.lines]
        simp only [List.map_cons, List.flatten_cons, List.length_append, List.length_cons]; omega
    have h2 := length_linesText (pre.map (·.lines)).flatten
    have h3 : (atxRawText pre).length ≤ f.strm.content.length := by
      have : (f.strm.content.drop p).length ≤ f.strm.content.length := by simp
      rw [hc] at this; simp at this; omega
    unfold atxRawText at h3
    omega
  obtain ⟨n, hn⟩ : ∃ n, fuel = n + 1 + pre.length := ⟨fuel - pre.length - 1, by omega⟩
  obtain ⟨cur, best, bestPos, stat2, s1, e1, e2, e3, e4⟩ := matchLoop_skip hJ hi (linesText [b.start, b.type] ++ (linesText [b.meth] ++ u)) pre hpre (n + 1)
    (List.replicate 20 ' ' ++ NUL :: (J.ant p).drop 21) (List.replicate 20 ' ' ++ NUL :: (J.ant p).drop 21) (some 0) none (f.strm.seekg p) hg hr
  obtain ⟨an, he, hreach⟩ := readType_block hJ hb.named (cur := cur) (c := J.head s1.pos) (by rw [hJ.head]; decide) e2 (ls := [])
    (t := linesText [b.meth] ++ u) e4
  have hr2 : (s1.past [b.start, b.type]).rest = linesText [b.meth] ++ u := Stream.past_rest e4
  have hg2 : (s1.past [b.start, b.type]).good = true := e2
  obtain ⟨r, hs1, hs2⟩ := same_iff hb.named hreach hi
  have hrt : r = true := hs2.2 hx
  subst hrt
  have hfind : atxFindMatch J fuel f ant = .ok ⟨-1, an, some (s1.past [b.start, b.type]).pos, s1.past [b.start, b.type]⟩ := by
    unfold atxFindMatch
    simp only [hp, atxSeek, hpos, antInit_eq (J.ant p) (hJ.ant p), Res.bind_ok]
    rw [hn, e1]
    unfold atxMatchLoop
    rw [he, Res.bind_ok]
    simp only [ne_eq, not_true_eq_false, if_false, hs1, Res.bind_ok, if_true, tellg_good hg2, Res.pure_eq, Res.noexcept_ok]
  obtain ⟨st, l, s', q1, q2, q3, q4⟩ := collect_cut hJ hb (fuel := fuel) hg2 hr2 hu (by
    have : (s1.past [b.start, b.type]).rest.length ≤ (s1.past [b.start, b.type]).content.length := by simp [Stream.rest]
    rw [show (s1.past [b.start, b.type]).content = f.strm.content by rw [← hcc, ← e3]; rfl] at this
    omega)
  unfold atxPcoReceiver
  rw [hfind, Res.bind_ok]
  simp only [Int.reduceNeg, gt_iff_lt, atxSeek, seekg_self hg2, q1, Res.bind_ok]
  exact ⟨st, l, _, rfl, q2, q3⟩

end Ggnss
