import Verif.Spec.NumText
import Verif.Spec.Bern
/-!
# Specification for C98: what an answer of a SATELLIT file must rest on, whatever the lines look like

From the model only `DateTime`, `Res` and the conversion to `int` (`toInt32`) are used.
-/
namespace Ggnss

/-- The reader of dates looks at a C string: nothing behind the terminator counts. -/
def ReadsText (strptime : List Char → Res DateTime) : Prop := ∀ a b, NUL ∉ a → strptime (a ++ NUL :: b) = strptime (a ++ [NUL])

/-- The line is a micro-wave record of satellite `svn` in force at `t`: 'MW' in columns 5 and 6, the number from column 28 on, `start ≤ t` for the date from column 41
on, and `t < stop` for the date from column 62 on, unless columns 62 to 81 are blank. -/
structure InForceLine (strptime : List Char → Res DateTime) (l : List Char) (svn : Int) (t : DateTime) : Prop where
  mw : l[5]? = some 'M' ∧ l[6]? = some 'W'
  number : ∃ v, IntBegins (l.drop 28) v ∧ v ≤ 9223372036854775807 ∧ -9223372036854775808 ≤ v ∧ toInt32 v = svn
  start : ∃ d, strptime (l.drop 41 ++ [NUL]) = .ok d ∧ d.total ≤ t.total
  stop : BlankCols l 62 82 ∨ ¬ BlankCols l 62 82 ∧ ∃ d, strptime (l.drop 62 ++ [NUL]) = .ok d ∧ t.total < d.total

/-- `x` is the integer the text begins with, cut to an `int`; 0 if it begins with none. -/
def IntOrZero (t : List Char) (x : Int) : Prop := (∃ v, IntBegins t v ∧ x = toInt32 v) ∨ ((∀ v, ¬ IntBegins t v) ∧ x = 0)

/-- The text begins with an integer that no `long` can hold. -/
def BeyondLong (t : List Char) : Prop := ∃ v, IntBegins t v ∧ (9223372036854775807 < v ∨ v < -9223372036854775808)

/-- The line is a micro-wave record without a readable number of the satellite. -/
def BadNumberLine (l : List Char) : Prop := l[5]? = some 'M' ∧ l[6]? = some 'W' ∧ ((∀ v, ¬ IntBegins (l.drop 28) v) ∨ BeyondLong (l.drop 28))

/-- The lookup has nothing to say about this line. -/
def PassedOver (strptime : List Char → Res DateTime) (l : List Char) (svn : Int) (t : DateTime) : Prop := ¬ InForceLine strptime l svn t ∧ ¬ BadNumberLine l

/-- A line that may stand in the block of the records: at least 194 columns, at most 255, and not the heading of part 3. -/
def RecordLine (l : List Char) : Prop := LineFits 255 l ∧ 194 ≤ l.length ∧ l.take 6 ≠ c!"PART 3"

/-- What the lookup may answer (status, channel, PRN) when the records are `ls`, of which the first `lim` are looked at; `fr0`, `pr0`: the caller's variables before. -/
inductive BernAnswerOf (strptime : List Char → Res DateTime) (ls : List (List Char)) (lim : Nat) (svn : Int) (t : DateTime) (fr0 pr0 : Int) : Int → Int → Int → Prop
  /-- the first record in force, with no unreadable one before it, gives PRN and channel -/
  | found (i l fr pr) : i < lim → ls[i]? = some l → InForceLine strptime l svn t → (∀ j < i, ∀ q, ls[j]? = some q → PassedOver strptime q svn t) →
      IntOrZero l pr → IntOrZero (l.drop 193) fr → ¬ BeyondLong l → ¬ BeyondLong (l.drop 193) → BernAnswerOf strptime ls lim svn t fr0 pr0 0 fr pr
  /-- no record is in force, and none is unreadable -/
  | absent : (∀ i < lim, ∀ q, ls[i]? = some q → PassedOver strptime q svn t) → BernAnswerOf strptime ls lim svn t fr0 pr0 (-1) fr0 pr0
  /-- a micro-wave record before any that is in force has no readable number of the satellite -/
  | badNumber (i l) : i < lim → ls[i]? = some l → BadNumberLine l → (∀ j < i, ∀ q, ls[j]? = some q → PassedOver strptime q svn t) → BernAnswerOf strptime ls lim svn t fr0 pr0 2 fr0 pr0
  /-- the record in force has a PRN or a channel that no `long` can hold -/
  | badAnswer (i l fr pr) : i < lim → ls[i]? = some l → InForceLine strptime l svn t → (∀ j < i, ∀ q, ls[j]? = some q → PassedOver strptime q svn t) →
      (BeyondLong l ∨ BeyondLong (l.drop 193)) → BernAnswerOf strptime ls lim svn t fr0 pr0 3 fr pr

end Ggnss
