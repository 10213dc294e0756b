import Verif.Props.ObsLines
import Verif.Props.Sp3SoundExample
/-! # Concrete lines meeting the hypotheses of C101 -/
namespace Ggnss
namespace ObsLinesEx

/-- Two observables of GPS, from the first two columns. -/
def mmap : ReadMap := [(.gps, [[(0, 1)], [(1, 2)]])]
/-- A line in a bad state: the first value has an exponent and text behind it, the second is not there. -/
def l1' : List Char := c!"G 7   1.5E3 metres               17 and more"
/-- Not requested. -/
def l2 : List Char := c!"R?? whatever"
/-- The second value is a word. -/
def l3 : List Char := c!"G+8   20000.5      ?? unknown      "
def ls : List (List Char) := [l1', l2, l3]
def ov : List SatVals := [((.mixed, -1), [0, 0, 0]), ((.mixed, -1), [0, 0, 0])]

example : ∀ l ∈ ls, LineFits 70 l := by decide
theorem room : Room mmap ov := by unfold Room; decide

def n1 : Numeral := ⟨0, none, c!"1", some c!"5", some (none, c!"3")⟩
def n2 : Numeral := ⟨0, none, c!"20000", some c!"5", none⟩

theorem n1_value : n1.value = 1500 := by
  norm_num [n1, Numeral.value, Numeral.expVal, Numeral.digVal, Numeral.fracDigits, signVal, Nat.ofDigitChars, show '5'.toNat = 53 from rfl,
      show '1'.toNat = 49 from rfl, show '0'.toNat = 48 from rfl, show '3'.toNat = 51 from rfl]

theorem n1_in : NumberIn (fieldCols l1' 0) 1500 := by
  rw [← n1_value]
  have hs : n1.Shape := ⟨by decide, by decide, by decide, by rintro s ds ⟨⟩; decide⟩
  exact Or.inr ⟨⟨c!"   ", n1, 'E', c!" metres ", by decide, by decide, hs, Or.inr rfl, rfl, by decide, by simp [n1], by simp [n1]⟩,
    fits_of_shape hs (by decide) (by decide) (by rintro s ds ⟨⟩; decide)⟩

theorem g1 : FieldGives l1' 0 (some 1500) := .value _ ⟨by decide, by decide⟩ n1_in (by norm_num [missingMark])
theorem g2 : FieldGives l1' 1 none := .absent fun h => h.2 (by decide)
theorem sat7 : SatNumber l1' 7 := ⟨⟨[' '], [], ['7'], [], by decide, by decide, by decide, by decide, by decide, by decide, by decide⟩, by decide, by decide⟩
theorem sat8 : SatNumber l3 8 := ⟨⟨[], ['+'], ['8'], [], by decide, by decide, by decide, by decide, by decide, by decide, by decide⟩, by decide, by decide⟩
theorem bad : FieldFails l3 1 := ⟨⟨by decide, by decide⟩, Or.inr fun v hv => absurd hv (strtod_not_begins (by decide) v)⟩

theorem gives : LinesGive mmap (ls.take 2) [((.gps, 7), [1500, missingMark])] := by
  have : LinesGive mmap (ls.take 2) [((.gps, 7), [[(some 1500, 1)], [(none, 2)]].map (codeSum · 0))] := by
    refine .sat .gps 7 [[(0, 1)], [(1, 2)]] _ (by decide) (by decide) sat7 ?_ (.skip .glonass (by decide) (by decide) .nil)
    exact .cons (.cons ⟨g1, rfl⟩ .nil) (.cons (.cons ⟨g2, rfl⟩ .nil) .nil)
  have e : [[(some 1500, 1)], [(none, 2)]].map (codeSum · 0) = [1500, missingMark] := by simp [codeSum]
  rwa [e] at this

/-- What reading these three lines comes to: status 31, one satellite, three lines consumed. -/
example : DataOutcome mmap ls 3 ov 31 1 [((.gps, 7), [1500, missingMark, 0]), ((.mixed, -1), [20000 + 1/2, 0, 0])] 3 := by
  refine .refused [((.gps, 7), [1500, missingMark])] _ 2 l3 (by decide) gives rfl (.field .gps [[(0, 1)], [(1, 2)]] 8 [(1, 2)] (1, 2) (by decide) (by decide) sat8 (by simp) (by simp) bad)
    ⟨rfl, ?_, ?_, ?_⟩
  · intro j x hx
    match j, hx with
    | 0, hx =>
      cases hx
      exact ⟨_, rfl, rfl⟩
  · intro e he
    cases he
    exact ⟨_, rfl, rfl⟩
  · intro j hj
    match j, hj with
    | j + 2, _ => simp [ov]

end ObsLinesEx
end Ggnss
