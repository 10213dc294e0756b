import Verif.Props.BernOpen
import Verif.Props.BernCut
/-!
# C72 for every text, and C89: SATELLIT files cut off within the header
-/
namespace Ggnss

/-- The stream stands before the lines `ls`, the last of which is not terminated, or is no longer good. -/
def AtCut (s : Stream) (ls : List (List Char)) : Prop :=
  (s.good = true ∧ ∃ ls0 u, ls = ls0 ++ [u] ∧ s.rest = linesText ls0 ++ u) ∨ (s.good = false ∧ ls = [])

theorem AtCut.getline {s : Stream} {ls : List (List Char)} (h : AtCut s ls) (hf : ∀ l ∈ ls, LineFits 255 l) :
    (s.getline MAX_SATELLIT_CHARS).1 = ls.headD [] ∧ AtCut (s.getline MAX_SATELLIT_CHARS).2 ls.tail := by
  rcases h with ⟨hg, ls0, u, rfl, hr⟩ | ⟨hg, rfl⟩
  · cases ls0 with
    | nil =>
      obtain ⟨f1, f2, f3⟩ := hf u (by simp)
      rw [Stream.getline_last hg (l := u) (by rw [hr]; rfl) f1 f3]
      exact ⟨rfl, Or.inr ⟨by simp [Stream.good], rfl⟩⟩
    | cons l ls0 =>
      obtain ⟨f1, f2, f3⟩ := hf l (by simp)
      rw [getline_past (n := MAX_SATELLIT_CHARS) hg hr f1 f3]
      exact ⟨rfl, Or.inl ⟨hg, ls0, u, rfl, rest_cons hr⟩⟩
  · rw [Stream.getline_bad hg]
    exact ⟨rfl, Or.inr ⟨by simp [Stream.good], rfl⟩⟩

theorem AtCut.good_iff {s : Stream} {ls : List (List Char)} (h : AtCut s ls) : s.good = true ↔ ls ≠ [] := by
  rcases h with ⟨hg, ls0, u, rfl, hr⟩ | ⟨hg, rfl⟩
  · simp [hg]
  · simp [hg]

/-- The search for part 2. -/
theorem bernSkip_atCut : ∀ (left : Nat) (cur : List Char) (ls : List (List Char)) (buf : List Char) (s : Stream), NUL ∉ cur → AtCut s ls →
    (∀ l ∈ ls, LineFits 255 l) →
    (∃ pre p2 rest k b s', cur :: ls = pre ++ p2 :: rest ∧ pre.length < left ∧ (∀ l ∈ pre, ¬ bernPart2 <+: l) ∧ bernPart2 <+: p2 ∧
        bernSkip left (fillLine buf cur) s = .ok (k + 1, b, s') ∧ AtCut s' rest) ∨
      ((¬ ∃ pre p2 rest, cur :: ls = pre ++ p2 :: rest ∧ pre.length < left ∧ (∀ l ∈ pre, ¬ bernPart2 <+: l) ∧ bernPart2 <+: p2) ∧
        ∃ b s', bernSkip left (fillLine buf cur) s = .ok (0, b, s')) := by
  have hcs : IsCStr bernPart2 := by decide
  intro left
  induction left with
  | zero =>
    intro cur ls buf s hc _ _
    right
    refine ⟨by rintro ⟨_, _, _, _, h, _⟩; omega, fillLine buf cur, s, ?_⟩
    unfold bernSkip
    rw [strncmpEq_prefix hc hcs, Res.bind_ok]
    rfl
  | succ left ih =>
    intro cur ls buf s hc hat hf
    unfold bernSkip
    rw [strncmpEq_prefix hc hcs, Res.bind_ok]
    by_cases hm : bernPart2 <+: cur
    · rw [if_pos (by simpa using hm)]
      left
      exact ⟨[], cur, ls, left, _, s, rfl, by simp, by simp, hm, rfl, hat⟩
    · rw [if_neg (by simpa using hm)]
      simp only
      obtain ⟨g1, g2⟩ := hat.getline hf
      rw [g1]
      generalize (s.getline MAX_SATELLIT_CHARS).2 = s1 at *
      cases ls with
      | nil =>
        rcases ih [] [] (fillLine buf cur) s1 (by simp) g2 (by simp) with ⟨pre, p2, rest, _, _, _, e1, _, _, e4, _⟩ | ⟨_, b, s', e⟩
        · exfalso
          have hp : p2 ∈ [([] : List Char)] := by rw [e1]; simp
          rw [List.mem_singleton.1 hp] at e4
          exact absurd e4 (by decide)
        · right
          refine ⟨?_, b, s', e⟩
          rintro ⟨pre, p2, rest, e1, _, _, e4⟩
          have hp : p2 ∈ [cur] := by rw [e1]; simp
          rw [List.mem_singleton.1 hp] at e4
          exact hm e4
      | cons l ls =>
        rcases ih l ls (fillLine buf cur) s1 (hf l (by simp)).2.1 g2 (fun x hx => hf x (by simp [hx])) with
          ⟨pre, p2, rest, k, b, s', e1, e2, e3, e4, h, hat'⟩ | ⟨hno, b, s', e⟩
        · left
          refine ⟨cur :: pre, p2, rest, k, b, s', by rw [e1]; rfl, by simp; omega, ?_, e4, h, hat'⟩
          intro x hx
          rcases List.mem_cons.1 hx with rfl | hx
          · exact hm
          · exact e3 x hx
        · right
          refine ⟨?_, b, s', e⟩
          rintro ⟨pre, p2, rest, e1, e2, e3, e4⟩
          cases pre with
          | nil =>
            simp only [List.nil_append, List.cons.injEq] at e1
            rw [← e1.1] at e4
            exact hm e4
          | cons x pre =>
            simp only [List.cons_append, List.cons.injEq] at e1
            exact hno ⟨pre, p2, rest, e1.2, by simp at e2; omega, fun y hy => e3 y (by simp [hy]), e4⟩

set_option maxRecDepth 20000 in
/-- **C72** (any text).  For every text, whether or not its last line is terminated (no NUL, lines of at most 255 chars; `u` is what follows the last newline): the
constructor succeeds exactly when the lines start as those of SATELLIT files do; otherwise it throws `std::runtime_error`. -/
theorem C72_open_iff_unterminated (junk : List Char) (ls0 : List (List Char)) (u : List Char) (hf : ∀ l ∈ ls0 ++ [u], LineFits 255 l) :
    ((∃ f, bernOpen junk (linesText ls0 ++ u) = .ok f) ↔ ∃ rest, BernOpenable (ls0 ++ [u]) rest) ∧
      ((¬ ∃ rest, BernOpenable (ls0 ++ [u]) rest) → bernOpen junk (linesText ls0 ++ u) = .throw .runtime_error) := by
  have hcs1 : IsCStr bernLine1 := by decide
  have hcsa : IsCStr bernHead1 := by decide
  have hcsb : IsCStr bernHead2 := by decide
  have key : (∃ f, bernOpen junk (linesText ls0 ++ u) = .ok f) ↔ ∃ rest, BernOpenable (ls0 ++ [u]) rest := by
    have hat : AtCut ⟨linesText ls0 ++ u, 0, false, false⟩ (ls0 ++ [u]) := Or.inl ⟨rfl, ls0, u, rfl, by simp [Stream.rest]⟩
    generalize hls : ls0 ++ [u] = ls at *
    unfold bernOpen bernInitialize
    have hsk : (⟨linesText ls0 ++ u, 0, false, false⟩ : Stream).seekg 0 = ⟨linesText ls0 ++ u, 0, false, false⟩ := rfl
    rw [hsk]
    simp only
    obtain ⟨g1, g2⟩ := hat.getline hf
    rw [g1, strncmpEq_prefix (headD_nul hf) hcs1]
    generalize (Stream.getline ⟨linesText ls0 ++ u, 0, false, false⟩ MAX_SATELLIT_CHARS).2 = s1 at *
    clear hls
    rw [Res.bind_ok]
    by_cases h1 : bernLine1 <+: ls.headD []
    · rw [if_neg (by simpa using h1)]
      obtain ⟨first, ls, rfl, h1⟩ := headD_split (by decide) h1
      simp only [List.tail_cons, List.headD_cons] at *
      have hf' : ∀ l ∈ ls, LineFits 255 l := fun l hl => hf l (by simp [hl])
      rcases bernSkip_atCut 1000 first ls junk s1 (hf first (by simp)).2.1 g2 hf' with ⟨pre, p2, rest, k, b, s', e1, e2, e3, e4, h, hat'⟩ | ⟨hno, b, s', e⟩
      · rw [h, Res.bind_ok]
        cases pre with
        | nil =>
          simp only [List.nil_append, List.cons.injEq] at e1
          exact absurd (e1.1 ▸ e4) (title_not_part2 h1)
        | cons x pre =>
          simp only [List.cons_append, List.cons.injEq] at e1
          obtain ⟨hx, rfl⟩ := e1
          subst hx
          have uniq : ∀ rest', BernOpenable (first :: (pre ++ p2 :: rest)) rest' → ∃ d h1 h2, rest = d :: h1 :: h2 :: rest' ∧ bernHead1 <+: h1 ∧ bernHead2 <+: h2 := by
            rintro rest' ⟨f', pre', p2', d, h1', h2', q1, q2, q3, q4, q5, q6, q7⟩
            simp only [List.cons.injEq] at q1
            obtain ⟨-, -, w⟩ := part2_unique q1.2 (fun l hl => e3 l (by simp [hl])) e4 q4 q5
            exact ⟨d, h1', h2', w, q6, q7⟩
          simp only
          by_cases hrest : rest = []
          · have hg : s'.good = false := by
              have := hat'.good_iff
              cases hh : s'.good
              · rfl
              · exact absurd hrest (this.1 hh)
            rw [if_pos (Or.inl hg)]
            simp only [Res.pure_eq, Res.noexcept_ok, Res.bind_ok]
            refine ⟨fun ⟨_, h⟩ => by simp at h, ?_⟩
            rintro ⟨rest', hb⟩
            obtain ⟨d, l1, l2, w, _⟩ := uniq rest' hb
            rw [hrest] at w
            cases w
          have hg := hat'.good_iff.2 hrest
          rw [if_neg (by simp [hg])]
          have hfr : ∀ l ∈ rest, LineFits 255 l := fun l hl => hf' l (by simp [hl])
          obtain ⟨a1, a2⟩ := hat'.getline hfr
          generalize (s'.getline MAX_SATELLIT_CHARS).1 = x1 at *
          generalize (s'.getline MAX_SATELLIT_CHARS).2 = t1 at *
          obtain ⟨b1, b2⟩ := a2.getline (fun l hl => hfr l (List.mem_of_mem_tail hl))
          rw [b1]
          generalize (t1.getline MAX_SATELLIT_CHARS).2 = t2 at *
          obtain ⟨c1, c2⟩ := b2.getline (fun l hl => hfr l (List.mem_of_mem_tail (List.mem_of_mem_tail hl)))
          rw [c1]
          generalize (t2.getline MAX_SATELLIT_CHARS).2 = t3 at *
          rw [strncmpEq_prefix (headD_nul (fun l hl => hfr l (List.mem_of_mem_tail hl))) hcsa, Res.bind_ok]
          by_cases h2 : bernHead1 <+: rest.tail.headD []
          · rw [if_neg (by simpa using h2)]
            rw [strncmpEq_prefix (headD_nul (fun l hl => hfr l (List.mem_of_mem_tail (List.mem_of_mem_tail hl)))) hcsb, Res.bind_ok]
            by_cases h3 : bernHead2 <+: rest.tail.tail.headD []
            · rw [if_neg (by simpa using h3)]
              simp only [Res.pure_eq, Res.noexcept_ok, Res.bind_ok, ne_eq, not_true_eq_false, if_false]
              refine ⟨fun _ => ?_, fun _ => ⟨_, rfl⟩⟩
              cases rest with
              | nil => exact absurd (List.prefix_nil.1 h2) (by decide)
              | cons d rest =>
                obtain ⟨l1, r1, e5, h2⟩ := headD_split (by decide) h2
                simp only [List.tail_cons] at e5 h3
                subst e5
                obtain ⟨l2, r2, e6, h3⟩ := headD_split (by decide) h3
                simp only [List.tail_cons] at e6
                subst e6
                exact ⟨r2, first, pre, p2, d, l1, l2, rfl, h1, by simp at e2; omega, fun l hl => e3 l (by simp [hl]), e4, h2, h3⟩
            · rw [if_pos (by simpa using h3)]
              simp only [Res.pure_eq, Res.noexcept_ok, Res.bind_ok]
              refine ⟨fun ⟨_, h⟩ => by simp at h, ?_⟩
              rintro ⟨rest', hb⟩
              obtain ⟨d, l1, l2, rfl, w1, w2⟩ := uniq rest' hb
              exact absurd w2 h3
          · rw [if_pos (by simpa using h2)]
            simp only [Res.pure_eq, Res.noexcept_ok, Res.bind_ok]
            refine ⟨fun ⟨_, h⟩ => by simp at h, ?_⟩
            rintro ⟨rest', hb⟩
            obtain ⟨d, l1, l2, rfl, w1, w2⟩ := uniq rest' hb
            exact absurd w1 h2
      · rw [e, Res.bind_ok]
        simp only
        rw [if_pos (Or.inr trivial)]
        simp only [Res.pure_eq, Res.noexcept_ok, Res.bind_ok]
        refine ⟨fun ⟨_, h⟩ => by simp at h, ?_⟩
        rintro ⟨rest', f', pre', p2', d, h1', h2', q1, q2, q3, q4, q5, q6, q7⟩
        simp only [List.cons.injEq] at q1
        refine absurd ⟨first :: pre', p2', d :: h1' :: h2' :: rest', ?_, by simp; omega, ?_, q5⟩ hno
        · rw [q1.2]; rfl
        · intro l hl
          rcases List.mem_cons.1 hl with rfl | hl
          · exact title_not_part2 h1
          · exact q4 l hl
    · rw [if_pos (by simpa using h1)]
      simp only [Res.pure_eq, Res.noexcept_ok, Res.bind_ok]
      refine ⟨fun ⟨_, h⟩ => by simp at h, ?_⟩
      rintro ⟨rest', f', pre', p2', d, h1', h2', rfl, q2, _⟩
      exact absurd q2 h1
  refine ⟨key, fun h => ?_⟩
  rcases C34_open_any_partial junk (linesText ls0 ++ u) with hx | hx
  · exact absurd (key.1 hx) h
  · exact hx

set_option maxRecDepth 20000 in
theorem head2_text : bernHead2 = c!"PRN  TYPE  SENSOR NAME______SVN  NUMBER  YYYY MM DD HH MM SS  YYYY MM DD HH MM SS         DX        DY        DZ         X       Y       Z          X       Y       Z      ANTEX SENSOR NAME___  IFRQ  SIGNAL LIST___________------>" := by
  decide

theorem first_line_eq {a l x y : List Char} (ha : '\n' ∉ a) (hl : '\n' ∉ l) (h : a ++ '\n' :: x <+: l ++ '\n' :: y) : a = l ∧ x <+: y := by
  obtain ⟨t, ht⟩ := h
  have e := congrArg (List.takeWhile (fun c => decide (c ≠ '\n'))) ht
  rw [List.append_assoc, List.cons_append, Stream.takeWhile_line a _ ha, Stream.takeWhile_line l _ hl] at e
  subst e
  refine ⟨rfl, t, ?_⟩
  simpa using ht

theorem prefix_lines {B u : List Char} (hB : '\n' ∉ B) (hu : '\n' ∉ u) : ∀ {A ls : List (List Char)}, (∀ l ∈ A, '\n' ∉ l) → (∀ l ∈ ls, '\n' ∉ l) →
    linesText A ++ B <+: linesText ls ++ u → ∃ r2 h2 rest, ls = A ++ r2 ∧ r2 ++ [u] = h2 :: rest ∧ B <+: h2 := by
  intro A
  induction A with
  | nil =>
    intro ls _ hls h
    cases ls with
    | nil => exact ⟨[], u, [], rfl, rfl, by simpa [linesText] using h⟩
    | cons l ls =>
      refine ⟨l :: ls, l, ls ++ [u], rfl, rfl, ?_⟩
      have hx : B <+: l ++ '\n' :: (linesText ls ++ u) := by simpa [linesText] using h
      rcases List.prefix_or_prefix_of_prefix hx (show l <+: l ++ '\n' :: (linesText ls ++ u) from ⟨_, rfl⟩) with h1 | h1
      · exact h1
      · obtain ⟨tl, rfl, ht⟩ := prefix_next h1 hx
        rcases ht with rfl | ⟨t', rfl⟩
        · simp
        · exact absurd (by simp) hB
  | cons a A ih =>
    intro ls hA hls h
    cases ls with
    | nil =>
      exfalso
      have : '\n' ∈ u := by
        have := h.subset (show '\n' ∈ linesText (a :: A) ++ B by simp [linesText])
        simpa [linesText] using this
      exact hu this
    | cons l ls =>
      obtain ⟨e1, e2⟩ := first_line_eq (hA a (by simp)) (hls l (by simp)) (x := linesText A ++ B) (y := linesText ls ++ u) (by simpa [linesText] using h)
      obtain ⟨r2, h2, rest, k1, k2, k3⟩ := ih (fun l hl => hA l (by simp [hl])) (fun l hl => hls l (by simp [hl])) e2
      exact ⟨r2, h2, rest, by rw [k1, e1]; rfl, k2, k3⟩

theorem BernHeader.WF.fits {h : BernHeader} (hw : h.WF) : ∀ l ∈ [h.first] ++ h.pre ++ [h.part2, h.dashes, h.head1, h.head2, h.blank], LineFits 255 l := by
  intro l hl
  simp only [List.mem_append, List.mem_cons, List.not_mem_nil, or_false] at hl
  rcases hl with (rfl | hl) | rfl | rfl | rfl | rfl | rfl
  exacts [hw.first.1, (hw.pre l hl).1, hw.part2.1, hw.dashes, hw.head1.1, hw.head2.1, hw.blank]

set_option maxRecDepth 20000 in
/-- **C89** (header).  A SATELLIT file cut off anywhere in its header is opened exactly when the cut comes after the fixed text of the second line of column
titles; cut before, the constructor throws `std::runtime_error`. -/
theorem C89_header_cut (h : BernHeader) (hw : h.WF) {p : List Char} (hp : p <+: h.text) (junk : List Char) :
    ((∃ f, bernOpen junk p = .ok f) ↔ h.needed <+: p) ∧ (¬ h.needed <+: p → bernOpen junk p = .throw .runtime_error) := by
  have key : (∃ f, bernOpen junk p = .ok f) ↔ h.needed <+: p := by
    obtain ⟨suf, hsuf⟩ := hw.head2.2
    rw [← head2_text] at hsuf
    have hneed : h.needed = linesText ([h.first] ++ h.pre ++ [h.part2, h.dashes, h.head1]) ++ bernHead2 := by rw [head2_text]; rfl
    by_cases hpe : p = h.text
    · obtain ⟨f, q, hf, _⟩ := C34_open_partial h hw [] junk
      rw [List.append_nil] at hf
      rw [hpe]
      refine ⟨fun _ => ?_, fun _ => ⟨f, hf⟩⟩
      rw [hneed, BernHeader.text]
      refine ⟨suf ++ '\n' :: (h.blank ++ ['\n']), ?_⟩
      simp [linesText, ← hsuf]
    · obtain ⟨ls0, l, rest, u, e1, e2, e3⟩ := cut_lines hp hpe
      have hfit := hw.fits
      have hf : ∀ x ∈ ls0 ++ [u], LineFits 255 x := by
        intro x hx
        rcases List.mem_append.1 hx with hx | hx
        · exact hfit x (by rw [e1]; simp [hx])
        · rw [List.mem_singleton.1 hx]
          have hl := hfit l (by rw [e1]; simp)
          exact ⟨fun hh => hl.1 (e3.subset hh), fun hh => hl.2.1 (e3.subset hh), Nat.le_trans e3.length_le hl.2.2⟩
      rw [e2, (C72_open_iff_unterminated junk ls0 u hf).1]
      constructor
      · rintro ⟨rest', first, pre, p2, d, h1, h2, q1, q2, q3, q4, q5, q6, q7⟩
        -- ls0 ++ [u] are the first lines of the header, the last one cut
        have hk : ∀ (i : Nat) (x : List Char), (ls0 ++ [u])[i]? = some x → ∃ y, ([h.first] ++ h.pre ++ [h.part2, h.dashes, h.head1, h.head2, h.blank])[i]? = some y ∧ x <+: y ∧ (i < ls0.length → x = y) := by
          intro i x hx
          rw [e1]
          by_cases hi : i < ls0.length
          · rw [List.getElem?_append_left hi] at hx
            exact ⟨x, by rw [List.getElem?_append_left hi]; exact hx, List.prefix_refl _, fun _ => rfl⟩
          · rw [List.getElem?_append_right (by omega)] at hx
            have hi' : i - ls0.length = 0 := by
              have := (List.getElem?_eq_some_iff.1 hx).1
              simp at this; omega
            rw [hi'] at hx
            simp at hx
            subst hx
            exact ⟨l, by rw [List.getElem?_append_right (by omega), hi']; rfl, e3, fun hh => absurd hh hi⟩
        -- the line of part 2 is the same in both
        have hp2 : pre.length = h.pre.length := by
          have hx : (ls0 ++ [u])[pre.length + 1]? = some p2 := by rw [q1]; simp
          obtain ⟨y, hy, hxy, _⟩ := hk _ _ hx
          have hby : bernPart2 <+: y := List.IsPrefix.trans q5 hxy
          rcases Nat.lt_trichotomy pre.length h.pre.length with hlt | heq | hgt
          · exfalso
            simp only [List.cons_append, List.nil_append, List.getElem?_cons_succ] at hy
            rw [List.getElem?_append_left hlt] at hy
            exact (hw.pre y (List.mem_of_getElem? hy)).2 hby
          · exact heq
          · exfalso
            -- the heading of part 2 is among `pre`
            have hx2 : (ls0 ++ [u])[h.pre.length + 1]? = pre[h.pre.length]? := by
              rw [q1]
              simp only [List.getElem?_cons_succ]
              rw [List.getElem?_append_left hgt]
            rw [List.getElem?_eq_getElem hgt] at hx2
            obtain ⟨y2, hy2, _, hsame⟩ := hk _ _ hx2
            have : y2 = h.part2 := by simpa using hy2.symm
            have hlen := congrArg List.length q1
            simp at hlen
            have heq2 := hsame (by omega)
            refine q4 _ (List.getElem_mem hgt) ?_
            rw [heq2, this]
            exact hw.part2.2
        have hlen := congrArg List.length q1
        simp at hlen
        have hx : (ls0 ++ [u])[pre.length + 4]? = some h2 := by
          have : (ls0 ++ [u]) = (first :: (pre ++ [p2, d, h1])) ++ h2 :: rest' := by rw [q1]; simp
          rw [this, List.getElem?_append_right (by simp)]
          simp
        obtain ⟨y, hy, hxy, hsame⟩ := hk _ _ hx
        have hy2 : y = h.head2 := by
          rw [hp2] at hy
          have : ([h.first] ++ h.pre ++ [h.part2, h.dashes, h.head1, h.head2, h.blank]) = (h.first :: (h.pre ++ [h.part2, h.dashes, h.head1])) ++ [h.head2, h.blank] := by simp
          rw [this, List.getElem?_append_right (by simp)] at hy
          simp at hy
          exact hy.symm
        -- so the text up to there is in the cut
        have hcutlen : linesText ([h.first] ++ h.pre ++ [h.part2, h.dashes, h.head1]) ++ h2 <+: linesText ls0 ++ u := by
          have hsplit : ∃ r2, ls0 = ([h.first] ++ h.pre ++ [h.part2, h.dashes, h.head1]) ++ r2 := by
            have hle : (([h.first] ++ h.pre ++ [h.part2, h.dashes, h.head1]) : List (List Char)).length ≤ ls0.length := by simp; omega
            have hpre1 : ls0 <+: [h.first] ++ h.pre ++ [h.part2, h.dashes, h.head1, h.head2, h.blank] := ⟨l :: rest, e1.symm⟩
            have hpre2 : [h.first] ++ h.pre ++ [h.part2, h.dashes, h.head1] <+: [h.first] ++ h.pre ++ [h.part2, h.dashes, h.head1, h.head2, h.blank] := ⟨[h.head2, h.blank], by simp⟩
            obtain ⟨r2, hr2⟩ := List.prefix_of_prefix_length_le hpre2 hpre1 hle
            exact ⟨r2, hr2.symm⟩
          obtain ⟨r2, hr2⟩ := hsplit
          rw [hr2] at hx ⊢
          cases r2 with
          | nil =>
            rw [List.append_nil] at hx ⊢
            rw [List.getElem?_append_right (by simp [hp2])] at hx
            simp [hp2] at hx
            rw [hx]
          | cons a r2 =>
            have : a = h2 := by
              rw [List.append_assoc, List.getElem?_append_right (by simp [hp2])] at hx
              simpa [hp2] using hx
            subst this
            exact ⟨'\n' :: (linesText r2 ++ u), by simp [linesText]⟩
        rw [hneed]
        obtain ⟨t, ht⟩ := q7
        rw [← head2_text] at ht
        refine List.IsPrefix.trans ?_ hcutlen
        rw [List.prefix_append_right_inj]
        exact ⟨t, ht⟩
      · rintro hn
        rw [hneed] at hn
        -- the cut contains the first lines complete
        obtain ⟨r2, h2, rest', hr2, e5, e6⟩ := prefix_lines (by decide) (hf u (by simp)).1 (A := [h.first] ++ h.pre ++ [h.part2, h.dashes, h.head1]) (ls := ls0)
          (fun x hx => (hfit x (by
            simp only [List.mem_append, List.mem_cons, List.not_mem_nil, or_false] at hx ⊢
            tauto)).1) (fun x hx => (hf x (by simp [hx])).1) hn
        subst hr2
        rw [head2_text] at e6
        refine ⟨rest', h.first, h.pre, h.part2, h.dashes, h.head1, h2, ?_, hw.first.2, hw.few, fun l hl => (hw.pre l hl).2, hw.part2.2, hw.head1.2, e6⟩
        rw [List.append_assoc, e5]
        simp
  refine ⟨key, fun hn => ?_⟩
  rcases C34_open_any_partial junk p with hx | hx
  · exact absurd (key.1 hx) hn
  · exact hx

end Ggnss
