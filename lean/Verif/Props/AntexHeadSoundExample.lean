import Verif.Props.AntexHeadSound
import Verif.Props.NavHeadSoundExample
/-! # Concrete lines meeting the hypotheses of C106 -/
namespace Ggnss
namespace AntexHeadSoundEx

/-- A header in a bad state: text behind the version, short and empty lines, the label too early. -/
def first : List Char := c!"     1.4bis         R                                       ANTEX VERSION / SYST"
def others : List (List Char) := [c!"A?", c!"", c!"END OF HEADER", c!"what",
  c!"                                                            END OF HEADER?", c!"START", c!"                                                            END OF HEADER"]

theorem first_ok : LineFits 84 first ∧ 60 ≤ first.length ∧ ¬ HasLabel first c!"END OF HEADER" := by decide
theorem second_ok : ∀ l ∈ others.head?, ¬ HasLabel l c!"END OF HEADER" := by decide
theorem others_ok : ∀ l ∈ others, LineFits 84 l := by decide
theorem plain : ¬ OddNumber (first.take 15) := not_odd (by decide)

/-- There is something to say ... -/
theorem gives : AtxHeadGives first others ⟨some 179, .glonass, ⟨linesText (first :: others), 0, false, false⟩⟩ where
  version := by
    refine ⟨7 / 5, Or.inl ?_, Or.inl (by norm_num)⟩
    refine ⟨c!"     ", ⟨0, none, c!"1", some c!"4", none⟩, 'e', (first.take 15).drop 8, by decide, by decide,
      ⟨by decide, by decide, by decide, by rintro s ds ⟨⟩⟩, Or.inl rfl, ?_, by decide, ?_, ?_⟩
    · norm_num [Numeral.value, Numeral.expVal, Numeral.digVal, Numeral.fracDigits, signVal, Nat.ofDigitChars, show '1'.toNat = 49 from rfl, show '4'.toNat = 52 from rfl,
        show '0'.toNat = 48 from rfl]
    · simp
    · intro _ x s d more he hx
      have : (first.take 15).drop 8 = 'b' :: (first.take 15).drop 9 := by decide
      rw [this] at he
      simp only [List.cons.injEq] at he
      rcases hx with rfl | rfl <;> exact absurd he.1 (by decide)
  sys := by decide
  ends := ⟨c!"A?", others.drop 1, 3, others.getD 4 [], 179, rfl, rfl, by decide, by decide, by decide, by decide, rfl, by decide +kernel⟩
  usable := ⟨rfl, rfl⟩

/-- ... so the file is opened and says it. -/
example (J : AtxJunk) : ∃ f, atxOpen J (linesText (first :: others)) = .ok f ∧ f.sys = .glonass ∧
    ∃ p, f.endOfHead = some p ∧ f.strm.content.drop p = linesText (others.drop 5) := by
  obtain ⟨f, h⟩ := (C106_opened_iff (J := J) first_ok second_ok others_ok plain).1.2 ⟨_, gives⟩
  obtain ⟨h1, h2, p, q, h3, h4, h5⟩ := C106_determined (C106_opened first_ok second_ok others_ok h) gives
  refine ⟨f, h, h1, p, h3, ?_⟩
  rw [h5]
  cases h4
  decide +kernel

/-- With a relative second line it is refused. -/
example (J : AtxJunk) : atxOpen J (linesText (first :: c!"R" :: others)) = .throw .runtime_error := by
  refine (C106_opened_iff (J := J) first_ok (by decide) (by decide) plain).2.2 ?_
  rintro ⟨f, hf⟩
  obtain ⟨s, r, k, l, p, h, h', _⟩ := hf.ends
  obtain ⟨rfl, rfl⟩ := List.cons.inj h
  simp at h'

end AntexHeadSoundEx
end Ggnss
