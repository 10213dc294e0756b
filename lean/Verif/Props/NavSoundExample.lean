import Verif.Props.NavSound
import Verif.Lemmas.Check
/-! # Concrete lines meeting the hypotheses of C99 -/
namespace Ggnss
namespace NavSoundEx

/-- A GLONASS record in a bad state: text sticks to the satellite number and to the clock bias, and the second number of the second line is a word. -/
def l0 : List Char := c!"R+7A2020 06 25 00 15 00-1.5D-01km          0.000000000000E+00 3.456000000000D+05"
def l1 : List Char := c!"     7.003508300781E+03unknown             0.000000000000E+00 0.000000000000E+00"
def l2 : List Char := c!"    .5E+00             2.5                1.                 5"
def ls : List (List Char) := [l0, l1, l2, l2]

set_option maxRecDepth 20000 in
theorem isBlock : IsBlock .glonass ls where
  notMixed := by decide
  count := rfl
  fits := by
    intro l hl
    simp only [ls, List.mem_cons, List.not_mem_nil, or_false] at hl
    rcases hl with rfl | rfl | rfl | rfl <;> exact ⟨by decide, by decide, by decide⟩
  letter := by intro l hl; cases hl; rfl

theorem reaches : ReachesColumns .glonass ls := by
  have key : ∀ j < 4, ∀ k < specCount .glonass j, navCol j k ≤ (ls[j]?.getD []).length := by decide
  intro j l hl k hk
  have := key j (by have := (List.getElem?_eq_some_iff.1 hl).1; simpa [ls] using this) k hk
  rwa [hl] at this

theorem prn : PrnOf l0 7 := ⟨7, ⟨[], ['+'], ['7'], c!"A2020 06 25 00 15 00-1.5D-01km          0.000000000000E+00 3.456000000000D+05", by decide, by decide, by decide, by decide, by decide, by decide, by decide⟩, by decide, by decide, by decide⟩

/-- -1.5E-01 -/
def biasNum : Numeral := ⟨0, some true, c!"1", some c!"5", some (some true, c!"01")⟩

theorem bias_shape : biasNum.Shape := ⟨by decide, by decide, by decide, by rintro s ds ⟨⟩; decide⟩

theorem bias_value : biasNum.value = -3/20 := by
  norm_num [biasNum, Numeral.value, Numeral.expVal, Numeral.digVal, Numeral.fracDigits, signVal, Nat.ofDigitChars, show '5'.toNat = 53 from rfl, show '1'.toNat = 49 from rfl,
    show '0'.toNat = 48 from rfl]

/-- The clock bias is -0.15, whatever sticks to it. -/
theorem bias : NumberIn (numText l0 (navCol 0 0)) (-3/20) := by
  rw [← bias_value]
  exact Or.inr ⟨⟨[], biasNum, 'E', c!"km          0.000000000000E+00 3.456000000000E+05", by decide, by decide,
    bias_shape, Or.inr rfl, rfl, by decide, by simp [biasNum], by simp [biasNum]⟩, fits_of_shape bias_shape (by decide) (by decide) (by rintro s ds ⟨⟩; decide)⟩

/-- The word is refused. -/
theorem word : NoNumberIn (numText l1 (navCol 1 1)) := Or.inr (fun v hv => absurd hv (strtod_not_begins (by decide) v))

theorem plain {l : List Char} {off : Nat} {n : Numeral} (h : numCheck (l.map d2e) off n = true) : ∃ v, NumberIn (numText l off) v := by
  obtain ⟨_, hn, rest, hr, hs⟩ := numCheck_sound h
  refine ⟨n.value, ?_⟩
  unfold numText
  rw [List.map_drop, hr]
  exact numberIn_text hn hs

/-- What reading this record comes to: status 6, two lines consumed. -/
example (dateOf : List Char → Res DateTime) (f f' : NavFrame) : RecordOutcome dateOf .glonass ls f 6 f' 2 := by
  refine .noNumber f' 1 1 l1 ?_ rfl (by decide) word ?_
  · intro q hq
    cases hq
    exact ⟨7, prn, by decide⟩
  · intro i hi q hq m hm
    obtain rfl : i = 0 := by omega
    cases hq
    have h3 : m < 3 := by simpa [specCount] using hm
    obtain rfl | rfl | rfl : m = 0 ∨ m = 1 ∨ m = 2 := by omega
    · exact ⟨_, bias⟩
    · exact plain (n := ⟨1, none, c!"0", some c!"000000000000", some (some false, c!"00")⟩) (by decide)
    · exact plain (n := ⟨1, none, c!"3", some c!"456000000000", some (some false, c!"05")⟩) (by decide)

end NavSoundEx
end Ggnss
