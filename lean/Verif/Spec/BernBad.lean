import Verif.Spec.Bern
import Verif.Spec.BadField
/-!
# Specification: malformed records of Bernese SATELLIT files
-/
namespace Ggnss

/-- A line of the block of sensors that says it describes a micro-wave antenna and that reaches the
SVN columns (the columns from the 29th on). -/
structure MwLine (l : List Char) : Prop where
  fits : LineFits 255 l
  long : 28 ≤ l.length
  m : l[5]? = some 'M'
  w : l[6]? = some 'W'

/-- The micro-wave line `l` is that of satellite `svn` and is in force at `t`: SVN, start and end of
validity can be read, and `start ≤ t < stop`. -/
structure MwInForce (strptime : List Char → Res DateTime) (l : List Char) (svn : Int) (t : DateTime) : Prop where
  line : MwLine l
  cols : 82 ≤ l.length
  isSvn : ∃ v : Nat, NatAt l 28 v ∧ (v : Int) = svn
  inForce : ∃ start stop, DateAt strptime l 41 start ∧ StopAt strptime l stop ∧ start.total ≤ t.total ∧
    ∀ e, stop = some e → t.total < e.total

/-- The text of a block of sensors: the records `pre`, the line `l`, and anything. -/
def blockText (pre : List BernRec) (l tail : List Char) : List Char :=
  linesText (pre.map (·.line)) ++ l ++ '\n' :: tail

end Ggnss
