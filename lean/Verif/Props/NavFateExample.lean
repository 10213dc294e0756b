import Verif.Props.NavFate
import Verif.Props.NavSoundExample
import Verif.Props.NavHeadSoundExample
/-! # Concrete records meeting the hypotheses of C110: each fate occurs -/
namespace Ggnss
namespace NavFateEx
open NavSoundEx

/-- A GLONASS record with a second of week of 10^19. -/
def far0 : List Char := c!"R+7A2020 06 25 00 15 00 1.500000000000E-01 0.000000000000E+00 1.000000000000E+19"
def o1 : List Char := c!"     7.003508300781E+03 0.000000000000E+00 0.000000000000E+00 0.000000000000E+00"
def far : List (List Char) := [far0, o1, o1, o1]

set_option maxRecDepth 20000 in
theorem far_block : IsBlock .glonass far where
  notMixed := by decide
  count := rfl
  fits := by
    intro l hl
    simp only [far, List.mem_cons, List.not_mem_nil, or_false] at hl
    rcases hl with rfl | rfl | rfl | rfl <;> exact ⟨by decide, by decide, by decide⟩
  letter := by intro l hl; cases hl; rfl

theorem far_reaches : ReachesColumns .glonass far := by
  have key : ∀ j < 4, ∀ k < specCount .glonass j, navCol j k ≤ (far[j]?.getD []).length := by decide
  intro j l hl k hk
  have := key j (by have := (List.getElem?_eq_some_iff.1 hl).1; simpa [far] using this) k hk
  rwa [hl] at this

theorem far_plain : ∀ j l, far[j]? = some l → ∀ k < specCount .glonass j, ¬ OddNumber (numText l (navCol j k)) := by
  have key : ∀ j < 4, ∀ k < specCount .glonass j, oddCheck (numText (far[j]?.getD []) (navCol j k)) = false := by decide
  intro j l hl k hk
  have := key j (by have := (List.getElem?_eq_some_iff.1 hl).1; simpa [far] using this) k hk
  rw [hl] at this
  exact not_odd this

theorem far_prn : PrnOf far0 7 := ⟨7, ⟨[], ['+'], ['7'], far0.drop 3, by decide, by decide, by decide, by decide, by decide, by decide, by decide⟩, by decide, by decide, by decide⟩

theorem far_numbers : ∀ j q, far[j]? = some q → ∀ k < specCount .glonass j, ∃ v, NumberIn (numText q (navCol j k)) v := by
  have z : ∀ k < 3, ∃ v, NumberIn (numText far0 (navCol 0 k)) v := by
    intro k hk
    obtain rfl | rfl | rfl : k = 0 ∨ k = 1 ∨ k = 2 := by omega
    · exact plain (n := ⟨1, none, c!"1", some c!"500000000000", some (some true, c!"01")⟩) (by decide)
    · exact plain (n := ⟨1, none, c!"0", some c!"000000000000", some (some false, c!"00")⟩) (by decide)
    · exact plain (n := ⟨1, none, c!"1", some c!"000000000000", some (some false, c!"19")⟩) (by decide)
  have o : ∀ k < 4, ∃ v, NumberIn (numText o1 (4 + 19 * k)) v := by
    intro k hk
    obtain rfl | rfl | rfl | rfl : k = 0 ∨ k = 1 ∨ k = 2 ∨ k = 3 := by omega
    · exact plain (n := ⟨1, none, c!"7", some c!"003508300781", some (some false, c!"03")⟩) (by decide)
    all_goals exact plain (n := ⟨1, none, c!"0", some c!"000000000000", some (some false, c!"00")⟩) (by decide)
  intro j q hq k hk
  have hj : j < 4 := by have := (List.getElem?_eq_some_iff.1 hq).1; simpa [far] using this
  obtain rfl | rfl | rfl | rfl : j = 0 ∨ j = 1 ∨ j = 2 ∨ j = 3 := by omega
  · cases hq; exact z k (by simpa [specCount] using hk)
  all_goals cases hq; exact o k (by simpa [specCount] using hk)

def farNum : Numeral := ⟨1, none, c!"1", some c!"000000000000", some (some false, c!"19")⟩

theorem far_value : farNum.value = 10000000000000000000 := by
  norm_num [farNum, Numeral.value, Numeral.expVal, Numeral.digVal, Numeral.fracDigits, signVal, Nat.ofDigitChars, show '9'.toNat = 57 from rfl, show '1'.toNat = 49 from rfl,
    show '0'.toNat = 48 from rfl]

theorem far_beyond : ToeBeyond .glonass far := by
  refine Or.inr ⟨rfl, far0, 10000000000000000000, rfl, ?_, Or.inr (by norm_num)⟩
  obtain ⟨_, hn, rest, hr, hs⟩ := numCheck_sound (show numCheck (far0.map d2e) 61 farNum = true by decide)
  rw [← far_value]
  unfold numText
  rw [List.map_drop, hr]
  exact numberIn_text hn hs

/-- No time of ephemeris: undefined. -/
example (dateOf : List Char → Res DateTime) (hL : ∀ t, (∃ d, dateOf t = .ok d) ∨ ∃ e, dateOf t = .throw e) (hd : ∃ d, dateOf (far0.drop 3) = .ok d) (junk : List Char)
    (f : NavFrame) (hlen : f.data.length = 31) (tail : List Char) : readNextRecord dateOf junk f ⟨linesText far ++ tail, 0, false, false⟩ 0 = .ub :=
  (C110_fate hL junk (tail := tail) (s := ⟨linesText far ++ tail, 0, false, false⟩) far_block far_reaches far_plain hlen rfl (by simp [Stream.rest])).2.1.2
    (.beyond far0 7 rfl hd far_prn (by decide) far_numbers far_beyond)

/-- No such date: the process ends, whatever else is in the record. -/
example (dateOf : List Char → Res DateTime) (hL : ∀ t, (∃ d, dateOf t = .ok d) ∨ ∃ e, dateOf t = .throw e) (hd : dateOf (far0.drop 3) = .throw .out_of_range) (junk : List Char)
    (f : NavFrame) (hlen : f.data.length = 31) (tail : List Char) : readNextRecord dateOf junk f ⟨linesText far ++ tail, 0, false, false⟩ 0 = .terminate :=
  (C110_fate hL junk (tail := tail) (s := ⟨linesText far ++ tail, 0, false, false⟩) far_block far_reaches far_plain hlen rfl (by simp [Stream.rest])).2.2.1.2
    (.date far0 rfl (by rintro ⟨d, h⟩; rw [hd] at h; cases h))

theorem ls_plain : ∀ j l, NavSoundEx.ls[j]? = some l → ∀ k < specCount .glonass j, ¬ OddNumber (numText l (navCol j k)) := by
  have key : ∀ j < 4, ∀ k < specCount .glonass j, oddCheck (numText (NavSoundEx.ls[j]?.getD []) (navCol j k)) = false := by decide
  intro j l hl k hk
  have := key j (by have := (List.getElem?_eq_some_iff.1 hl).1; simpa [NavSoundEx.ls] using this) k hk
  rw [hl] at this
  exact not_odd this

/-- The record in a bad state of C99: the call returns. -/
example (dateOf : List Char → Res DateTime) (hL : ∀ t, (∃ d, dateOf t = .ok d) ∨ ∃ e, dateOf t = .throw e) (hd : ∃ d, dateOf (l0.drop 3) = .ok d) (junk : List Char)
    (f : NavFrame) (hlen : f.data.length = 31) (tail : List Char) : ∃ o, readNextRecord dateOf junk f ⟨linesText NavSoundEx.ls ++ tail, 0, false, false⟩ 0 = .ok o :=
  (C110_fate hL junk (tail := tail) (s := ⟨linesText NavSoundEx.ls ++ tail, 0, false, false⟩) isBlock reaches ls_plain hlen rfl (by simp [Stream.rest])).1.2
    (.number l0 7 1 1 l1 rfl hd prn (by decide) rfl (by decide) word)

end NavFateEx
end Ggnss
