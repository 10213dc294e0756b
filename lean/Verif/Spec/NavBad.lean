import Verif.Spec.NavFile
import Verif.Spec.BadField
/-!
# Specification: navigation records with columns that hold no number
-/
namespace Ggnss

/-- The first column of the `k`-th number of line `j` of a record (counted from 0): the first line
has its numbers from column 23 on, the others from column 4 on, each 19 columns wide. -/
def navCol (j k : Nat) : Nat := (if j = 0 then 23 else 4) + 19 * k

/-- From this column on the line shows a number that fits a `double`. -/
def FieldGood (l : List Char) (off : Nat) : Prop := ∃ n, FieldAt l off n

/-- The line reaches this column, and no number that fits a `double` begins there (after blanks). -/
def FieldBad (l : List Char) (off : Nat) : Prop := off ≤ l.length ∧ BadReal ((l.drop off).map d2e)

/-- The lines of a record of system `sys` up to its first line with an unreadable number, which is
line `j`. -/
structure BadRecord (sys : SatSys) (prn : Int) (j : Nat) (ls : List (List Char)) : Prop where
  inside : j < specLines sys
  count : ls.length = j + 1
  fits : ∀ l ∈ ls, LineOK l
  letter : ∀ l, ls.head? = some l → l.head? = some (satsysToChar sys)
  prn : ∀ l, ls.head? = some l → PrnAt l prn
  before : ∀ i l, i < j → ls[i]? = some l → ∀ k < specCount sys i, FieldGood l (navCol i k)
  line : ∀ l, ls[j]? = some l → (∀ k < specCount sys j, FieldGood l (navCol j k) ∨ FieldBad l (navCol j k)) ∧
    ∃ k < specCount sys j, FieldBad l (navCol j k)

/-- The status that reports an unreadable number on line `j`: 3 for the first line, 8 for the last
one, 6 for those between (navrnx.hpp, description of `set_from_rnx3`). -/
def badStatus (sys : SatSys) (j : Nat) : Int :=
  if j = 0 then 3 else if j + 1 = specLines sys then 8 else 6

end Ggnss
