import Verif.Spec.NavSound
import Verif.Spec.Sp3Fate
/-!
# Specification for C110: what becomes of a call that reads a navigation record

`PrnOf`, `NumberIn`, `NoNumberIn` (Spec/NavSound) say what stands in a line; `navCol`, `specCount` (Spec/NavFile, Spec/NavBad) where.
-/
namespace Ggnss

/-- The integer part of the number does not fit an `int`. -/
def BeyondInt32 (v : Rat) : Prop := v ≤ -2147483649 ∨ 2147483648 ≤ v

/-- The integer part of the number does not fit a `long`. -/
def BeyondInt64 (v : Rat) : Prop := v ≤ -9223372036854775809 ∨ 9223372036854775808 ≤ v

/-- The numbers from which the time of ephemeris is made are too large: for GPS, Galileo and BeiDou the week (third number of line 6) or the second of week (first
number of line 4), for GLONASS the second of week (third number of line 1).  The other systems have no time of ephemeris here. -/
def ToeBeyond (sys : SatSys) (ls : List (List Char)) : Prop :=
  ((sys = .gps ∨ sys = .galileo ∨ sys = .beidou) ∧
    ((∃ l v, ls[5]? = some l ∧ NumberIn (numText l 42) v ∧ BeyondInt32 v) ∨ (∃ l v, ls[3]? = some l ∧ NumberIn (numText l 4) v ∧ BeyondInt64 v))) ∨
  (sys = .glonass ∧ ∃ l v, ls[0]? = some l ∧ NumberIn (numText l 61) v ∧ BeyondInt64 v)

/-- What becomes of reading a record of system `sys` from the lines `ls`; `valid`: the calendar takes the date. -/
inductive RecordFate (sys : SatSys) (ls : List (List Char)) (valid : List Char → Prop) : CallFate → Prop
  /-- there is no such date (an exception within a function that may not throw); nothing else is looked at before -/
  | date (l) : ls.head? = some l → ¬ valid (l.drop 3) → RecordFate sys ls valid .killed
  /-- the satellite number is missing, zero, or too large -/
  | satellite (l) : ls.head? = some l → valid (l.drop 3) → (∀ p, PrnOf l p → p = 0) → RecordFate sys ls valid .returns
  /-- a number is not one -/
  | number (l p j k q) : ls.head? = some l → valid (l.drop 3) → PrnOf l p → p ≠ 0 → ls[j]? = some q → k < specCount sys j → NoNumberIn (numText q (navCol j k)) →
      RecordFate sys ls valid .returns
  /-- all can be read -/
  | complete (l p) : ls.head? = some l → valid (l.drop 3) → PrnOf l p → p ≠ 0 →
      (∀ j q, ls[j]? = some q → ∀ k < specCount sys j, ∃ v, NumberIn (numText q (navCol j k)) v) → ¬ ToeBeyond sys ls → RecordFate sys ls valid .returns
  /-- all can be read, but no time of ephemeris can be made of it -/
  | beyond (l p) : ls.head? = some l → valid (l.drop 3) → PrnOf l p → p ≠ 0 →
      (∀ j q, ls[j]? = some q → ∀ k < specCount sys j, ∃ v, NumberIn (numText q (navCol j k)) v) → ToeBeyond sys ls → RecordFate sys ls valid .undefined

end Ggnss
