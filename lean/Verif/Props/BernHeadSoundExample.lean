import Verif.Props.BernHeadSound
import Verif.Props.BernExample
/-! # Concrete lines meeting the hypotheses of C107 -/
namespace Ggnss
namespace BernHeadSoundEx

/-- Odd lines before PART 2, text behind the headings, and two lines after them. -/
def lines (tail : List (List Char)) : List (List Char) :=
  (bernLine1 ++ c!"?") :: ([c!"", c!"PART 2", c!" PART 2: ON-BOARD SENSORS"] ++ (bernPart2 ++ c!" etc") :: c!"" :: bernHead1 :: (bernHead2 ++ c!"!") :: tail)

theorem head (tail : List (List Char)) : BernHead (lines tail) tail :=
  ⟨_, _, _, _, _, _, rfl, ⟨c!"?", rfl⟩, by decide, by decide, ⟨c!" etc", rfl⟩, ⟨[], rfl⟩, ⟨c!"!", rfl⟩⟩

set_option maxRecDepth 20000 in
/-- The file is opened and stands on the line behind the one after the headings. -/
example (junk : List Char) : ∃ f p, bernOpen junk (linesText (lines [c!"x", c!"G01"])) = .ok f ∧ f.part2 = some p ∧ f.strm.content.drop p = linesText [c!"G01"] := by
  have hf : ∀ l ∈ lines [c!"x", c!"G01"], LineFits 255 l := by decide
  obtain ⟨f, e⟩ := (C107_opened_iff (junk := junk) hf).1.2 ⟨_, head _⟩
  obtain ⟨tail, h1, h2, _⟩ := C107_opened hf e
  have := C107_determined h1 (head _)
  subst this
  rcases h2 with ⟨h2, _⟩ | ⟨b, r, p, h2, h3, _, h4⟩
  · cases h2
  · cases h2
    exact ⟨f, p, e, h3, h4⟩

set_option maxRecDepth 20000 in
/-- Without a line after the headings there is an object, too, that has no position. -/
example (junk : List Char) : ∃ f, bernOpen junk (linesText (lines [])) = .ok f ∧ f.part2 = none ∧ f.strm.fail = true :=
  C107_headings_last (by decide) (head [])

set_option maxRecDepth 20000 in
/-- Without the headings the file is refused. -/
example (junk : List Char) : bernOpen junk (linesText [bernLine1, bernPart2]) = .throw .runtime_error := by
  refine (C107_opened_iff (junk := junk) (by decide)).2.2 ?_
  rintro ⟨tail, f, pre, p, d, a, b, e, _⟩
  have := congrArg List.length e
  simp at this
  omega

end BernHeadSoundEx
end Ggnss
