import Verif.Props.NavHeadSound
/-! # Concrete lines meeting the hypotheses of C102 and C103 -/
namespace Ggnss

/-- Does the text begin, after blanks and a sign, like a hexadecimal number, an infinity or "not a number"? -/
def oddCheck (t : List Char) : Bool :=
  let m := match t.dropWhile isSpace with
    | '+' :: r => r
    | '-' :: r => r
    | r => r
  decide ((m.take 3).map Char.toLower = c!"inf") || decide ((m.take 3).map Char.toLower = c!"nan") || decide ((m.take 2).map Char.toLower = c!"0x")

theorem isSpace_lower {c d : Char} (h : c.toLower = d) (hd : isSpace d = false) (hp : d ≠ '+' ∧ d ≠ '-') : isSpace c = false ∧ c ≠ '+' ∧ c ≠ '-' := by
  refine ⟨?_, ?_, ?_⟩
  · by_contra hc
    have hc : isSpace c = true := by simpa using hc
    have : c.toLower = c := by
      unfold isSpace at hc
      simp only [Bool.or_eq_true, decide_eq_true_eq] at hc
      rcases hc with ((((rfl | rfl) | rfl) | rfl) | rfl) | rfl <;> decide
    rw [this] at h
    rw [h, hd] at hc
    cases hc
  · rintro rfl; exact hp.1 (h ▸ by decide)
  · rintro rfl; exact hp.2 (h ▸ by decide)

theorem OddNumber.check {t : List Char} (h : OddNumber t) : oddCheck t = true := by
  obtain ⟨ws, s, more, rfl, h1, h2⟩ := h
  have hm : ∃ c r, more = c :: r ∧ isSpace c = false ∧ c ≠ '+' ∧ c ≠ '-' := by
    cases more with
    | nil => simp at h2
    | cons c r =>
      refine ⟨c, r, rfl, ?_⟩
      rcases h2 with h2 | h2 | h2
      · simp only [List.take_succ_cons, List.map_cons, List.cons.injEq] at h2
        exact isSpace_lower h2.1 (by decide) (by decide)
      · simp only [List.take_succ_cons, List.map_cons, List.cons.injEq] at h2
        exact isSpace_lower h2.1 (by decide) (by decide)
      · simp only [List.take_succ_cons, List.map_cons, List.cons.injEq] at h2
        exact isSpace_lower h2.1 (by decide) (by decide)
  obtain ⟨c, r, rfl, hc1, hc2, hc3⟩ := hm
  have hd : (ws ++ (signText s ++ (c :: r))).dropWhile isSpace = signText s ++ (c :: r) := by
    rw [List.dropWhile_append_of_pos h1]
    rcases s with _ | _ | _
    · simp [signText, hc1]
    · simp [signText, show isSpace '+' = false from by decide]
    · simp [signText, show isSpace '-' = false from by decide]
  unfold oddCheck
  rw [hd]
  have : (match signText s ++ (c :: r) with
    | '+' :: r => r
    | '-' :: r => r
    | r => r) = c :: r := by
    rcases s with _ | _ | _
    · simp only [signText, List.nil_append]
      split
      · rename_i h; simp only [List.cons.injEq] at h; exact absurd h.1 hc2
      · rename_i h; simp only [List.cons.injEq] at h; exact absurd h.1 hc3
      · rfl
    · rfl
    · rfl
  simp only [this]
  simp only [Bool.or_eq_true, decide_eq_true_eq]
  tauto

theorem not_odd {t : List Char} (h : oddCheck t = false) : ¬ OddNumber t := fun ho => by rw [ho.check] at h; cases h

namespace NavHeadSoundEx

/-- A header in a bad state: text behind the version, short and empty lines, a comment with the label too early. -/
def first : List Char := c!"  3.04bis           NAVIGATION DATA     R (GLONASS)         RINEX VERSION / TYPE"
def others : List (List Char) := [c!"", c!"END OF HEADER", c!"what",
  c!"                                                            END OF HEADER?", c!"R01 2020", c!"                                                            END OF HEADER"]

theorem first_ok : LineFits 84 first ∧ 60 ≤ first.length ∧ ¬ HasLabel first c!"END OF HEADER" := by decide
theorem others_ok : ∀ l ∈ others, LineFits 84 l := by decide
theorem plain : ¬ OddNumber first := not_odd (by decide)

/-- There is something to say ... -/
theorem gives : NavHeadGives first others ⟨76 / 25, .glonass, none, ⟨linesText (others.drop 4), 0, false, false⟩⟩ where
  version := by
    left
    refine ⟨c!"  ", ⟨0, none, c!"3", some c!"04", none⟩, 'e', first.drop 6, by decide, by decide, ⟨by decide, by decide, by decide, by rintro s ds ⟨⟩⟩, Or.inl rfl, ?_, by decide, ?_, ?_⟩
    · norm_num [Numeral.value, Numeral.expVal, Numeral.digVal, Numeral.fracDigits, signVal, Nat.ofDigitChars, show '3'.toNat = 51 from rfl, show '4'.toNat = 52 from rfl,
        show '0'.toNat = 48 from rfl]
    · simp
    · intro _ x s d more he hx
      have : first.drop 6 = 'b' :: first.drop 7 := by decide
      rw [this] at he
      simp only [List.cons.injEq] at he
      rcases hx with rfl | rfl <;> exact absurd he.1 (by decide)
  kind := by decide
  sys := by decide
  ends := ⟨3, others.getD 3 [], by decide, by decide, by decide, by decide, by decide, by simp [Stream.rest]⟩

/-- ... so the file is opened and says it. -/
example (junk : List Char) : ∃ f, navOpen junk (linesText (first :: others)) = .ok f ∧ f.version = 76 / 25 ∧ f.sys = .glonass ∧ f.strm.rest = linesText (others.drop 4) := by
  obtain ⟨f, h⟩ := (C103_opened_iff (junk := junk) first_ok others_ok plain).1.2 ⟨_, gives⟩
  obtain ⟨h1, h2, h3⟩ := C103_determined (C103_opened first_ok others_ok h) gives plain
  exact ⟨f, h, h1, h2, by rw [h3]; simp [Stream.rest]⟩

end NavHeadSoundEx
end Ggnss
