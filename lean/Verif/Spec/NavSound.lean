import Verif.Spec.NumText
import Verif.Spec.NavBad
import Verif.Model.Nav
/-!
# Specification for C99: what a navigation record read from arbitrary lines must rest on

From the model only the frame (`NavFrame`), `DateTime`, `Res` and the conversion to `int` (`toInt32`) are used.
-/
namespace Ggnss

/-- The text begins with the number `v`, which fits a `double` (or with a hexadecimal number, an infinity or "not a number"). -/
def NumberIn (t : List Char) (v : Rat) : Prop := OddNumber t ∨ (DecBegins t v ∧ FitsDouble v)

/-- The text does not begin with a decimal number that fits a `double`. -/
def NoNumberIn (t : List Char) : Prop := OddNumber t ∨ ∀ v, DecBegins t v → ¬ FitsDouble v

/-- The text at column `off` of a line, FORTRAN exponents read as such. -/
def numText (l : List Char) (off : Nat) : List Char := (l.drop off).map d2e

/-- The lines reach the columns of their numbers. -/
def ReachesColumns (sys : SatSys) (ls : List (List Char)) : Prop := ∀ j l, ls[j]? = some l → ∀ k < specCount sys j, navCol j k ≤ l.length

/-- The satellite number of a first line, as an `int`. -/
def PrnOf (l : List Char) (p : Int) : Prop :=
  ∃ v, IntBegins (l.drop 1) v ∧ v ≤ 9223372036854775807 ∧ -9223372036854775808 ≤ v ∧ p = toInt32 v

/-- The frame `f'` holds what the lines `ls` of a record of system `sys` say; what they do not say is as in `f`. -/
structure RecordSays (dateOf : List Char → Res DateTime) (sys : SatSys) (ls : List (List Char)) (f f' : NavFrame) : Prop where
  system : f'.sys = sys
  satellite : ∀ l, ls.head? = some l → PrnOf l f'.prn ∧ f'.prn ≠ 0
  date : ∀ l, ls.head? = some l → dateOf (l.drop 3) = .ok f'.toc
  size : f'.data.length = f.data.length
  numbers : ∀ j l, ls[j]? = some l → ∀ k < specCount sys j, ∃ v, NumberIn (numText l (navCol j k)) v ∧ f'.data[specIndex j k]? = some (specUnit sys j k * v)
  others : ∀ i, (∀ j < specLines sys, ∀ k < specCount sys j, i ≠ specIndex j k) → f'.data[i]? = f.data[i]?

/-- What reading a record of system `sys` from the lines `ls` may come to: status, frame, number of lines consumed. -/
inductive RecordOutcome (dateOf : List Char → Res DateTime) (sys : SatSys) (ls : List (List Char)) (f : NavFrame) : Int → NavFrame → Nat → Prop
  /-- everything could be read -/
  | complete (f') : RecordSays dateOf sys ls f f' → RecordOutcome dateOf sys ls f 0 f' ls.length
  /-- the satellite number is missing, zero, or too large -/
  | noSatellite (f' l) : ls.head? = some l → (∀ p, PrnOf l p → p = 0) → RecordOutcome dateOf sys ls f 2 f' 1
  /-- a number of line `j` is not one; the satellite number is one, and so are those of the lines before -/
  | noNumber (f' j k l) : (∀ q, ls.head? = some q → ∃ p, PrnOf q p ∧ p ≠ 0) → ls[j]? = some l → k < specCount sys j → NoNumberIn (numText l (navCol j k)) →
      (∀ i < j, ∀ q, ls[i]? = some q → ∀ m < specCount sys i, ∃ v, NumberIn (numText q (navCol i m)) v) →
      RecordOutcome dateOf sys ls f (badStatus sys j) f' (j + 1)

end Ggnss
