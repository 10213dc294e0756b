import Verif.Spec.NavHeadSound
import Verif.Props.NavHead
import Verif.Props.NavSound
import Verif.Props.Sp3Sound
import Verif.Props.Sp3HeadAny
/-! # C103: a navigation file is opened exactly when its header says what it is, and the object says the same -/
namespace Ggnss

/-- The label beyond the lines that are looked at does not count. -/
theorem navSkip_far : ∀ (left : Nat) (ls : List (List Char)) (buf : List Char) (s : Stream), (∀ l ∈ ls, LineFits 84 l) →
    (∀ l ∈ ls.take left, ¬ HasLabel l c!"END OF HEADER") → atxLabel buf c!"END OF HEADER" = .ok false →
    (s.good = false ∨ (s.good = true ∧ s.rest = linesText ls)) → ∃ s', navSkipHeader (left + 1) buf s = .ok (0, s') := by
  have hp : IsCStr c!"END OF HEADER" := by decide
  have hnil : LineFits 84 ([] : List Char) ∧ ¬ HasLabel [] c!"END OF HEADER" := by decide
  intro left
  induction left with
  | zero =>
    intro ls buf s _ _ hb _
    unfold navSkipHeader
    rw [navLabel_eq, hb, Res.bind_ok]
    exact ⟨_, rfl⟩
  | succ left ih =>
    intro ls buf s hf hw hb hs
    rw [navSkipHeader, navLabel_eq, hb, Res.bind_ok]
    simp only [Bool.false_eq_true, if_false]
    rcases hs with hs | ⟨hg, hr⟩
    · rw [Stream.getline_bad hs]
      exact ih [] _ _ (by simp) (by simp) (atxLabel_stale hnil.1 hnil.2 hp hb) (Or.inl (by simp [Stream.good]))
    · cases ls with
      | nil =>
        have : s.getline NAV_HEADER_CHARS = ([], { s with eof := true, fail := true }) := by
          have hr' : s.rest = [] := by simpa [linesText] using hr
          unfold Stream.getline
          rw [if_pos hg, hr']; simp
        rw [this]
        exact ih [] _ _ (by simp) (by simp) (atxLabel_stale hnil.1 hnil.2 hp hb) (Or.inl (by simp [Stream.good]))
      | cons l ls =>
        have hl := hf l (by simp)
        have hr' : s.rest = linesText (l :: ls) ++ [] := by simpa using hr
        rw [getline_past (n := NAV_HEADER_CHARS) hg hr' hl.1 hl.2.2]
        exact ih ls _ _ (fun x hx => hf x (by simp [hx])) (fun x hx => hw x (by simp [hx])) (atxLabel_stale hl (hw l (by simp)) hp hb)
          (Or.inr ⟨hg, by simpa using rest_cons hr'⟩)

/-- The first labelled line among the first `n`, if there is one. -/
theorem first_labelled (p : List Char) : ∀ (n : Nat) (ls : List (List Char)), (∀ l ∈ ls.take n, ¬ HasLabel l p) ∨
    ∃ k l, k < n ∧ ls[k]? = some l ∧ HasLabel l p ∧ ∀ x ∈ ls.take k, ¬ HasLabel x p := by
  intro n
  induction n with
  | zero => intro ls; left; simp
  | succ n ih =>
    intro ls
    cases ls with
    | nil => left; simp
    | cons l ls =>
      by_cases h : HasLabel l p
      · exact Or.inr ⟨0, l, by omega, rfl, h, by simp⟩
      · rcases ih ls with h' | ⟨k, x, h1, h2, h3, h4⟩
        · left; simpa using ⟨h, h'⟩
        · right
          refine ⟨k + 1, x, by omega, by simpa using h2, h3, ?_⟩
          simpa using ⟨h, h4⟩

/-- What the header reader does after the first line. -/
theorem navSkip_exact {others : List (List Char)} (hf : ∀ l ∈ others, LineFits 84 l) {buf : List Char} {s : Stream} (hg : s.good = true)
    (hr : s.rest = linesText others) (hb : atxLabel buf c!"END OF HEADER" = .ok false) :
    ∃ r, navSkipHeader 1000 (fillLine buf (s.getline NAV_HEADER_CHARS).1) (s.getline NAV_HEADER_CHARS).2 = .ok r ∧
      ((r.1 = 0 ∧ ∀ l ∈ others.take 1000, ¬ HasLabel l c!"END OF HEADER") ∨
       (r.1 ≠ 0 ∧ ∃ k l, k < 1000 ∧ others[k]? = some l ∧ HasLabel l c!"END OF HEADER" ∧ (∀ x ∈ others.take k, ¬ HasLabel x c!"END OF HEADER") ∧
        r.2.good = true ∧ r.2.rest = linesText (others.drop (k + 1)))) := by
  have hun : navSkipHeader 1001 buf s = navSkipHeader 1000 (fillLine buf (s.getline NAV_HEADER_CHARS).1) (s.getline NAV_HEADER_CHARS).2 := by
    rw [navSkipHeader, navLabel_eq, hb, Res.bind_ok]
    simp only [Bool.false_eq_true, if_false]
  rw [← hun]
  rcases first_labelled c!"END OF HEADER" 1000 others with h | ⟨k, l, h1, h2, h3, h4⟩
  · obtain ⟨s', e⟩ := navSkip_far 1000 others buf s hf h hb (Or.inr ⟨hg, hr⟩)
    exact ⟨_, e, Or.inl ⟨rfl, h⟩⟩
  · have hsplit : others = others.take k ++ l :: others.drop (k + 1) := by
      obtain ⟨hk, rfl⟩ := List.getElem?_eq_some_iff.1 h2
      simp
    have hmem : l ∈ others := List.mem_of_getElem? h2
    have hlen : (others.take k).length < 1000 := by simp; omega
    generalize hb4 : others.take k = before at hsplit h4 hlen
    generalize hd4 : others.drop (k + 1) = after at hsplit
    have hbf : ∀ x ∈ before, LineFits 84 x ∧ ¬ HasLabel x c!"END OF HEADER" := fun x hx => ⟨hf x (by rw [hsplit]; simp [hx]), h4 x hx⟩
    obtain ⟨y, ys, hy⟩ : ∃ y ys, before ++ [l] = y :: ys := by
      cases before with
      | nil => exact ⟨_, _, rfl⟩
      | cons b bs => exact ⟨_, _, rfl⟩
    have hyf : LineFits 84 y := by
      have hm : y ∈ before ++ [l] := by rw [hy]; simp
      rcases List.mem_append.1 hm with h' | h'
      · exact (hbf y h').1
      · rw [List.mem_singleton.1 h']; exact hf l hmem
    have hr1 : s.rest = linesText (y :: ys) ++ linesText after := by
      rw [hr, hsplit, ← linesText_append, ← hy]
      simp
    rw [hun, getline_past (n := NAV_HEADER_CHARS) hg hr1 hyf.1 hyf.2.2]
    obtain ⟨m, hsk⟩ := navSkip_lines (t := linesText after) ⟨hf l hmem, h3⟩ before hbf 1000 buf y (s.past [y]) hg hlen hb ys hy (rest_cons hr1)
    refine ⟨_, hsk, Or.inr ⟨by simp, k, l, h1, h2, h3, by rw [hb4]; exact h4, hg, ?_⟩⟩
    exact (Stream.past_rest (rest_cons hr1)).trans (by rw [hd4])

/-- Everything about opening a file of lines. -/
theorem navOpen_exact {junk first : List Char} {others : List (List Char)} (h1 : LineFits 84 first ∧ 60 ≤ first.length ∧ ¬ HasLabel first c!"END OF HEADER")
    (hf : ∀ l ∈ others, LineFits 84 l) :
    (∃ f, navOpen junk (linesText (first :: others)) = .ok f ∧ NavHeadGives first others f) ∨
    (navOpen junk (linesText (first :: others)) = .throw .runtime_error ∧ (OddNumber first ∨ ∀ f, ¬ NavHeadGives first others f)) := by
  generalize hct : linesText (first :: others) = content
  have hg : (⟨content, 0, false, false⟩ : Stream).good = true := rfl
  have hr : (⟨content, 0, false, false⟩ : Stream).rest = linesText (first :: others) ++ [] := by rw [hct]; simp [Stream.rest]
  have hs0 : (⟨content, 0, false, false⟩ : Stream).seekg 0 = ⟨content, 0, false, false⟩ := rfl
  unfold navOpen
  generalize hs : (⟨content, 0, false, false⟩ : Stream) = s at hg hr hs0
  have hg1 := getline_past (n := NAV_HEADER_CHARS) hg hr h1.1.1 h1.1.2.2
  have hr1 : (s.past [first]).rest = linesText others := by simpa using rest_cons hr
  have hb0 : atxLabel (fillLine junk first) c!"END OF HEADER" = .ok false := by
    rw [atxLabel_line h1.1.2.1 h1.2.1 (by decide), decide_eq_false h1.2.2]
  obtain ⟨r, hsk, hcase⟩ := navSkip_exact hf (s := s.past [first]) hg hr1 hb0
  obtain ⟨c20, e20⟩ : ∃ c, first[20]? = some c := ⟨_, List.getElem?_eq_getElem (by omega)⟩
  obtain ⟨c40, e40⟩ : ∃ c, first[40]? = some c := ⟨_, List.getElem?_eq_getElem (by omega)⟩
  have hv : strtodA (fillLine junk first) = .ok (strtod (fillLine junk first)) := by
    unfold strtodA; rw [if_pos (by simp [fillLine])]
  unfold navReadHeader
  simp only [hs0, hg1, hv, Res.bind_ok, getAt_fill e20, getAt_fill e40, hsk]
  cases hnum : strtod (fillLine junk first) with
  | none =>
    right
    refine ⟨by simp, ?_⟩
    by_cases ho : OddNumber first
    · exact Or.inl ho
    · exact Or.inr fun f hf => by
        rcases hf.version with h | h
        · exact strtod_not_begins hnum _ (h.nul _)
        · exact ho h
  | some v =>
  obtain ⟨v, vr, ver⟩ := v
  have hver : RealBegins first v := by
    refine RealBegins.of_nul (b := junk.drop (first.length + 1)) ?_
    rcases strtod_some hnum with h | ⟨h, _⟩
    · exact Or.inr h
    · exact Or.inl h
  simp only
  by_cases hN : c20 = 'N'
  swap
  · right
    rw [if_pos hN]
    refine ⟨by simp, Or.inr fun f hf => ?_⟩
    have := hf.kind
    rw [e20] at this
    exact hN (Option.some.inj this)
  rw [if_neg (by simpa using hN)]
  rcases charToSatsys_inv (c := c40) with ⟨sys, hc, rfl⟩ | ⟨hno, hc⟩
  swap
  · right
    have hn : ∀ f, ¬ NavHeadGives first others f := fun f hf => by
      have := hf.sys
      rw [e40] at this
      exact hno f.sys (Option.some.inj this).symm
    refine ⟨?_, Or.inr hn⟩
    cases hcs : charToSatsys c40 with
    | ok sys => exact absurd hcs (hc sys)
    | throw e => simp
    | terminate => simp
    | ub => simp
    | diverge => simp
  rw [hc]
  simp only
  rcases hcase with ⟨h0, hnone⟩ | ⟨h0, k, l, g1, g2, g3, g4, g5, g6⟩
  · right
    rw [if_pos h0]
    refine ⟨by simp, Or.inr fun f hf => ?_⟩
    obtain ⟨k, l, g1, g2, g3, _⟩ := hf.ends
    refine hnone l ?_ g3
    obtain ⟨hk, rfl⟩ := List.getElem?_eq_some_iff.1 g2
    exact List.mem_take_iff_getElem.2 ⟨k, by omega, rfl⟩
  · left
    rw [if_neg h0]
    simp only [tellg_good g5, Res.pure_eq, Res.noexcept_ok, Res.bind_ok, ne_eq, not_true_eq_false, if_false]
    exact ⟨_, rfl, hver, hN ▸ e20, e40, k, l, g1, g2, g3, g4, g5, g6⟩

/-- **C103**.  Whatever lines of at most 84 chars a file consists of (the first one reaching its label and not being itself labelled END OF HEADER): the object of a file
that was opened says what stands in the first line, and its stream is good and stands behind the first END OF HEADER line. -/
theorem C103_opened {junk first : List Char} {others : List (List Char)} (h1 : LineFits 84 first ∧ 60 ≤ first.length ∧ ¬ HasLabel first c!"END OF HEADER")
    (hf : ∀ l ∈ others, LineFits 84 l) {f : NavFile} (h : navOpen junk (linesText (first :: others)) = .ok f) : NavHeadGives first others f := by
  rcases navOpen_exact (junk := junk) h1 hf with ⟨g, e, hg⟩ | ⟨e, _⟩
  · rw [e] at h; cases h; exact hg
  · rw [e] at h; cases h

/-- **C103**: it is opened exactly when there is something to say, and refused with an exception otherwise. -/
theorem C103_opened_iff {junk first : List Char} {others : List (List Char)} (h1 : LineFits 84 first ∧ 60 ≤ first.length ∧ ¬ HasLabel first c!"END OF HEADER")
    (hf : ∀ l ∈ others, LineFits 84 l) (ho : ¬ OddNumber first) :
    ((∃ f, navOpen junk (linesText (first :: others)) = .ok f) ↔ ∃ f, NavHeadGives first others f) ∧
    (navOpen junk (linesText (first :: others)) = .throw .runtime_error ↔ ¬ ∃ f, NavHeadGives first others f) := by
  rcases navOpen_exact (junk := junk) h1 hf with ⟨g, e, hg⟩ | ⟨e, hn⟩
  · rw [e]
    refine ⟨⟨fun _ => ⟨g, hg⟩, fun _ => ⟨g, rfl⟩⟩, ⟨fun h => ?_, fun h => absurd ⟨g, hg⟩ h⟩⟩
    cases h
  · rw [e]
    have hn := hn.resolve_left ho
    refine ⟨⟨fun h => ?_, fun ⟨f, h⟩ => absurd h (hn f)⟩, ⟨fun _ ⟨f, h⟩ => hn f h, fun _ => rfl⟩⟩
    obtain ⟨f, h⟩ := h
    cases h

/-- **C103**: the lines leave no choice. -/
theorem C103_determined {first : List Char} {others : List (List Char)} {f g : NavFile} (hf : NavHeadGives first others f) (hg : NavHeadGives first others g)
    (ho : ¬ OddNumber first) : f.version = g.version ∧ f.sys = g.sys ∧ f.strm.rest = g.strm.rest := by
  refine ⟨(hf.version.resolve_right ho).unique (hg.version.resolve_right ho), ?_, ?_⟩
  · have := hf.sys.symm.trans hg.sys
    exact C01_injective _ _ (Option.some.inj this)
  · obtain ⟨k, l, a1, a2, a3, a4, a5, a6⟩ := hf.ends
    obtain ⟨k', l', b1, b2, b3, b4, b5, b6⟩ := hg.ends
    have key : ∀ {i j : Nat} {x : List Char}, others[i]? = some x → HasLabel x c!"END OF HEADER" → (∀ y ∈ others.take j, ¬ HasLabel y c!"END OF HEADER") → ¬ i < j := by
      intro i j x h1 h2 h3 hij
      obtain ⟨hi, rfl⟩ := List.getElem?_eq_some_iff.1 h1
      exact h3 _ (List.mem_take_iff_getElem.2 ⟨i, by omega, rfl⟩) h2
    have : k = k' := by
      have := key a2 a3 b4
      have := key b2 b3 a4
      omega
    rw [a6, b6, this]

end Ggnss
