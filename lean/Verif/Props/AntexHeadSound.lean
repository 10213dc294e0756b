import Verif.Spec.AntexHeadSound
import Verif.Props.NavHeadSound
import Verif.Props.AntexOpen
/-! # C106: an ANTEX file is opened exactly when its header says what it must, and the object says the same -/
namespace Ggnss

theorem atxSkip_nav : ∀ (left : Nat) (buf : List Char) (s : Stream), atxSkipHeader left buf s = navSkipHeader left buf s := by
  intro left
  induction left with
  | zero => intro buf s; rfl
  | succ left ih =>
    intro buf s
    rw [atxSkipHeader, navSkipHeader, navLabel_eq]
    cases atxLabel buf c!"END OF HEADER" with
    | ok b =>
      simp only [Res.bind_ok]
      split
      · rfl
      · exact ih _ _
    | _ => rfl

theorem navSkip_content : ∀ (left : Nat) (buf : List Char) (s : Stream) (r : Nat × Stream), navSkipHeader left buf s = .ok r → r.2.content = s.content := by
  intro left
  induction left with
  | zero => intro buf s r h; cases h; rfl
  | succ left ih =>
    intro buf s r h
    rw [navSkipHeader] at h
    obtain ⟨b, _, h⟩ := Res.bind_eq_ok.1 h
    split at h
    · cases h; rfl
    · exact (ih _ _ _ h).trans (Stream.getline_content rfl)

/-- Everything about opening a file of lines. -/
theorem atxOpen_exact {J : AtxJunk} {first : List Char} {others : List (List Char)}
    (h1 : LineFits 84 first ∧ 60 ≤ first.length ∧ ¬ HasLabel first c!"END OF HEADER") (h2 : ∀ l ∈ others.head?, ¬ HasLabel l c!"END OF HEADER")
    (hf : ∀ l ∈ others, LineFits 84 l) :
    (∃ f, atxOpen J (linesText (first :: others)) = .ok f ∧ AtxHeadGives first others f) ∨
    (atxOpen J (linesText (first :: others)) = .throw .runtime_error ∧ (OddNumber (first.take 15) ∨ ∀ f, ¬ AtxHeadGives first others f)) := by
  generalize hct : linesText (first :: others) = content
  have hg : (⟨content, 0, false, false⟩ : Stream).good = true := rfl
  have hr : (⟨content, 0, false, false⟩ : Stream).rest = linesText (first :: others) ++ [] := by rw [hct]; simp [Stream.rest]
  have hs0 : (⟨content, 0, false, false⟩ : Stream).seekg 0 = ⟨content, 0, false, false⟩ := rfl
  have hc0 : (⟨content, 0, false, false⟩ : Stream).content = content := rfl
  unfold atxOpen
  generalize hs : (⟨content, 0, false, false⟩ : Stream) = s at hg hr hs0 hc0
  have hg1 := getline_past (n := ATX_HEADER_CHARS) hg hr h1.1.1 h1.1.2.2
  have hr1 : (s.past [first]).rest = linesText others := by simpa using rest_cons hr
  obtain ⟨c20, e20⟩ : ∃ c, first[20]? = some c := ⟨_, List.getElem?_eq_getElem (by omega)⟩
  obtain ⟨tail, e1, e2⟩ := setAt_fill15 (buf := J.head s.pos) (l := first) (by omega)
  have hv : strtodA (first.take 15 ++ NUL :: tail) = .ok (strtod (first.take 15 ++ NUL :: tail)) := by
    unfold strtodA; rw [if_pos (by simp)]
  have hbuf20 : getAt (first.take 15 ++ NUL :: tail) 20 = .ok c20 := by
    rw [e2]
    apply getAt_left
    rw [List.getElem?_set_ne (by omega)]
    exact e20
  have hb0 : atxLabel (first.take 15 ++ NUL :: tail) c!"END OF HEADER" = .ok false := by
    have h0 : atxLabel (fillLine (J.head s.pos) first) c!"END OF HEADER" = .ok false := by
      rw [atxLabel_line h1.1.2.1 h1.2.1 (by decide), decide_eq_false h1.2.2]
    rw [← h0]
    unfold atxLabel
    congr 1
    rw [e2, fillLine, List.drop_append_of_le_length (by simp; omega), List.drop_append_of_le_length (by omega), List.drop_set, if_pos (by omega)]
  unfold atxReadHeader
  simp only [hs0, hg1, e1, hv, Res.bind_ok, hbuf20]
  cases hn : strtod (first.take 15 ++ NUL :: tail) with
  | none =>
    right
    simp only
    rw [if_pos (by norm_num [abs_lt])]
    refine ⟨by simp, ?_⟩
    by_cases ho : OddNumber (first.take 15)
    · exact Or.inl ho
    · refine Or.inr fun f hf => ?_
      obtain ⟨v, hb, _⟩ := hf.version
      rcases hb with hb | hb
      · exact strtod_not_begins hn v (hb.nul _)
      · exact ho hb
  | some w =>
  obtain ⟨fv, vr, ver⟩ := w
  simp only
  have hver : RealBegins (first.take 15) fv := by
    refine RealBegins.of_nul (b := tail) ?_
    rcases strtod_some hn with h | ⟨h, _⟩
    · exact Or.inr h
    · exact Or.inl h
  have hback : ∀ v, RealBegins (first.take 15) v → OddNumber (first.take 15) ∨ v = fv := by
    rintro v (hb | hb)
    · rcases strtod_some hn with h | ⟨h, _⟩
      · exact Or.inl h.of_nul
      · exact Or.inr ((hb.nul _).unique h)
    · exact Or.inl hb
  by_cases hav : AtxVersion fv
  swap
  · right
    rw [if_pos (show ¬ (|fv - 14 / 10| < 1 / 1000 ∨ |fv - 13 / 10| < 1 / 1000) from hav)]
    refine ⟨by simp, ?_⟩
    by_cases ho : OddNumber (first.take 15)
    · exact Or.inl ho
    · refine Or.inr fun f hf => ?_
      obtain ⟨v, hb, hvv⟩ := hf.version
      rcases hback v hb with h | rfl
      · exact ho h
      · exact hav hvv
  rw [if_neg (show ¬ ¬ (|fv - 14 / 10| < 1 / 1000 ∨ |fv - 13 / 10| < 1 / 1000) from not_not.2 hav)]
  rcases charToSatsys_inv (c := c20) with ⟨sys, hc, rfl⟩ | ⟨hno, hc⟩
  swap
  · right
    have hn : ∀ f, ¬ AtxHeadGives first others f := fun f hf => by
      have := hf.sys
      rw [e20] at this
      exact hno f.sys (Option.some.inj this).symm
    refine ⟨?_, Or.inr hn⟩
    cases hcs : charToSatsys c20 with
    | ok sys => exact absurd hcs (hc sys)
    | throw e => simp
    | terminate => simp
    | ub => simp
    | diverge => simp
  rw [hc]
  simp only
  cases others with
  | nil =>
    right
    have hgl := Stream.getline_last (n := ATX_HEADER_CHARS) (l := []) (s := s.past [first]) hg (by rw [hr1]; rfl) (by simp) (by simp)
    rw [hgl]
    have : getAt (fillLine (first.take 15 ++ NUL :: tail) []) 0 = .ok NUL := rfl
    simp only [this, Res.bind_ok]
    rw [if_pos (by decide)]
    refine ⟨by simp, Or.inr fun f hf => ?_⟩
    obtain ⟨second, rest, _, _, _, h, _⟩ := hf.ends
    cases h
  | cons second rest =>
    have hsf := hf second (by simp)
    have hr1' : (s.past [first]).rest = linesText (second :: rest) ++ [] := by simpa using hr1
    have hg2 := getline_past (n := ATX_HEADER_CHARS) (s := s.past [first]) hg hr1' hsf.1 hsf.2.2
    have hr2 : ((s.past [first]).past [second]).rest = linesText rest := by simpa using rest_cons hr1'
    rw [hg2]
    simp only
    obtain ⟨c0, hc0a, hc0b⟩ : ∃ c0, getAt (fillLine (first.take 15 ++ NUL :: tail) second) 0 = .ok c0 ∧ (c0 = 'A' ↔ second[0]? = some 'A') := by
      cases second with
      | nil => exact ⟨NUL, rfl, by simp; decide⟩
      | cons a b => exact ⟨a, rfl, by simp⟩
    rw [hc0a, Res.bind_ok]
    by_cases hA : c0 = 'A'
    swap
    · right
      rw [if_pos hA]
      refine ⟨by simp, Or.inr fun f hf => ?_⟩
      obtain ⟨second', rest', _, _, _, h, h', _⟩ := hf.ends
      obtain ⟨rfl, rfl⟩ := List.cons.inj h
      exact hA (hc0b.2 h')
    rw [if_neg (by simpa using hA)]
    have hb1 := atxLabel_stale hsf (h2 second (by simp)) (by decide) hb0
    obtain ⟨r, hsk, hcase⟩ := navSkip_exact (others := rest) (fun l hl => hf l (by simp [hl])) (s := (s.past [first]).past [second]) hg hr2 hb1
    have hrc : r.2.content = content := by
      rw [navSkip_content _ _ _ _ hsk]
      exact (Stream.getline_content rfl).trans hc0
    have hN : ATX_HEADER_CHARS = NAV_HEADER_CHARS := rfl
    rw [atxSkip_nav, hN, hsk, Res.bind_ok]
    rcases hcase with ⟨k0, hnone⟩ | ⟨k0, k, l, g1, g2, g3, g4, g5, g6⟩
    · right
      rw [if_pos k0]
      refine ⟨by simp, Or.inr fun f hf => ?_⟩
      obtain ⟨second', rest', k, l, p, h, _, g1, g2, g3, _⟩ := hf.ends
      obtain ⟨rfl, rfl⟩ := List.cons.inj h
      refine hnone l ?_ g3
      obtain ⟨hk, rfl⟩ := List.getElem?_eq_some_iff.1 g2
      exact List.mem_take_iff_getElem.2 ⟨k, by omega, rfl⟩
    · left
      rw [if_neg k0]
      simp only [tellg_good g5, Res.pure_eq, Res.noexcept_ok, Res.bind_ok, ne_eq, not_true_eq_false, if_false]
      exact ⟨_, rfl, ⟨fv, hver, hav⟩, e20, ⟨second, rest, k, l, r.2.pos, rfl, hc0b.1 hA, g1, g2, g3, g4, rfl, g6⟩, ((Stream.good_iff _).1 g5).2, hrc.trans hct.symm⟩

/-- **C106**.  Whatever lines of at most 84 chars a file consists of (the first one reaching its label; neither it nor the second labelled END OF HEADER): if it is
opened, its first line gives the version 1.3 or 1.4 and the system of the object, the second says that it is absolute, and the position the object keeps is that behind the
first END OF HEADER line. -/
theorem C106_opened {J : AtxJunk} {first : List Char} {others : List (List Char)}
    (h1 : LineFits 84 first ∧ 60 ≤ first.length ∧ ¬ HasLabel first c!"END OF HEADER") (h2 : ∀ l ∈ others.head?, ¬ HasLabel l c!"END OF HEADER")
    (hf : ∀ l ∈ others, LineFits 84 l) {f : AtxFile} (h : atxOpen J (linesText (first :: others)) = .ok f) : AtxHeadGives first others f := by
  rcases atxOpen_exact (J := J) h1 h2 hf with ⟨g, e, hg⟩ | ⟨e, _⟩
  · rw [e] at h; cases h; exact hg
  · rw [e] at h; cases h

/-- **C106**: it is opened exactly when there is something to say, and refused with an exception otherwise. -/
theorem C106_opened_iff {J : AtxJunk} {first : List Char} {others : List (List Char)}
    (h1 : LineFits 84 first ∧ 60 ≤ first.length ∧ ¬ HasLabel first c!"END OF HEADER") (h2 : ∀ l ∈ others.head?, ¬ HasLabel l c!"END OF HEADER")
    (hf : ∀ l ∈ others, LineFits 84 l) (ho : ¬ OddNumber (first.take 15)) :
    ((∃ f, atxOpen J (linesText (first :: others)) = .ok f) ↔ ∃ f, AtxHeadGives first others f) ∧
    (atxOpen J (linesText (first :: others)) = .throw .runtime_error ↔ ¬ ∃ f, AtxHeadGives first others f) := by
  rcases atxOpen_exact (J := J) h1 h2 hf with ⟨g, e, hg⟩ | ⟨e, hn⟩
  · rw [e]
    refine ⟨⟨fun _ => ⟨g, hg⟩, fun _ => ⟨g, rfl⟩⟩, ⟨fun h => ?_, fun h => absurd ⟨g, hg⟩ h⟩⟩
    cases h
  · rw [e]
    have hn := hn.resolve_left ho
    refine ⟨⟨fun h => ?_, fun ⟨f, h⟩ => absurd h (hn f)⟩, ⟨fun _ ⟨f, h⟩ => hn f h, fun _ => rfl⟩⟩
    obtain ⟨f, h⟩ := h
    cases h

/-- **C106**: the lines leave no choice: two objects that the same lines allow have the same system, and give the same answers to every query (they stand on the same text). -/
theorem C106_determined {first : List Char} {others : List (List Char)} {f g : AtxFile} (hf : AtxHeadGives first others f) (hg : AtxHeadGives first others g) :
    f.sys = g.sys ∧ f.strm.content = g.strm.content ∧ ∃ p q, f.endOfHead = some p ∧ g.endOfHead = some q ∧ f.strm.content.drop p = g.strm.content.drop q := by
  refine ⟨?_, hf.usable.2.trans hg.usable.2.symm, ?_⟩
  · have := hf.sys.symm.trans hg.sys
    exact C01_injective _ _ (Option.some.inj this)
  · obtain ⟨s1, r1, k, l, p, a0, _, a1, a2, a3, a4, a5, a6⟩ := hf.ends
    obtain ⟨s2, r2, k', l', q, b0, _, b1, b2, b3, b4, b5, b6⟩ := hg.ends
    rw [a0] at b0
    obtain ⟨rfl, rfl⟩ := List.cons.inj b0
    have key : ∀ {i j : Nat} {x : List Char}, r1[i]? = some x → HasLabel x c!"END OF HEADER" → (∀ y ∈ r1.take j, ¬ HasLabel y c!"END OF HEADER") → ¬ i < j := by
      intro i j x h1 h2 h3 hij
      obtain ⟨hi, rfl⟩ := List.getElem?_eq_some_iff.1 h1
      exact h3 _ (List.mem_take_iff_getElem.2 ⟨i, by omega, rfl⟩) h2
    have : k = k' := by
      have := key a2 a3 b4
      have := key b2 b3 a4
      omega
    exact ⟨p, q, a5, b5, by rw [a6, b6, this]⟩

end Ggnss
