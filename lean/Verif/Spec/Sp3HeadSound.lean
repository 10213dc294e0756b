import Verif.Spec.Sp3Sound
import Verif.Spec.Sp3Head
/-!
# Specification for C102: what the members of an opened SP3 file must rest on

From the model only the types of the results (`Sp3File`, `Sp3Epoch`, `MicroTime`), the date library (`Sp3Lib`) and the conversion to `int` (`toInt32`) are used.
Each statement is about the columns of a line, provided the line reaches them.
-/
namespace Ggnss

/-- `v` is the number the text begins with; a text that does not begin with a number counts as 0. -/
def NumberOrZero (t : List Char) (v : Rat) : Prop := NumberIn t v ∨ (v = 0 ∧ ∀ w, ¬ DecBegins t w)

/-- `n` is the integral part of `q` (towards 0). -/
def CutTo (q : Rat) (n : Int) : Prop := |q - (n : Rat)| < 1 ∧ |(n : Rat)| ≤ |q|

/-- The start epoch of the first line of a header: year, month and day are not 0, seconds are cut to microseconds. -/
structure StartGives (l : List Char) (t : Sp3Epoch) : Prop where
  year : ∃ v, LongBegins (l.drop 3) v ∧ t.year = toInt32 v ∧ t.year ≠ 0
  month : ∃ v, LongBegins (l.drop 8) v ∧ t.month = toInt32 v ∧ t.month ≠ 0
  day : ∃ v, LongBegins (l.drop 11) v ∧ t.day = toInt32 v ∧ t.day ≠ 0
  hour : ∃ v, LongBegins (l.drop 14) v ∧ t.hour = toInt32 v
  minute : ∃ v, LongBegins (l.drop 17) v ∧ t.minute = toInt32 v
  seconds : ∃ q, NumberOrZero (l.drop 20) q ∧ CutTo (q * 1000000) t.micros

/-- The members of `f` are what the first line, the second line, the first line of satellites and the first line "%c" say. -/
structure Sp3HeaderGives (L : Sp3Lib) (first second sat c1 : List Char) (f : Sp3File) : Prop where
  version : first[1]? = some f.version
  start : 20 ≤ first.length → ∃ t, StartGives first t ∧ L.date t = .ok f.start
  epochs : 32 ≤ first.length → ∃ v, LongBegins (first.drop 32) v ∧ f.numEpochs = toInt32 v ∧ f.numEpochs ≠ 0
  crdSys : 51 ≤ first.length → TextAt first 46 5 f.crdSys
  orbType : 55 ≤ first.length → TextAt first 52 3 f.orbType
  agency : 59 ≤ first.length → TextAt first 56 3 f.agency
  week : 8 ≤ second.length → ∃ w s, LongBegins (second.drop 3) w ∧ toInt32 w ≠ 0 ∧ NumberOrZero (second.drop 8) s ∧ L.sameWeek f.start (toInt32 w) s = true
  interval : 24 ≤ second.length → ∃ q, NumberOrZero (second.drop 24) q ∧ CutTo (q * 1000000) f.interval
  day : 45 ≤ second.length → ∃ m x, LongBegins (second.drop 39) m ∧ toInt32 m ≠ 0 ∧ NumberOrZero (second.drop 45) x ∧ L.sameMjd f.start (toInt32 m) x = true
  satellites : 3 ≤ sat.length → ∃ v, LongBegins (sat.drop 3) v ∧ f.numSats = toInt32 v ∧ f.numSats ≠ 0
  timeSys : 12 ≤ c1.length → TextAt c1 9 3 f.timeSys

/-- What a file says of itself. -/
def Sp3File.members (f : Sp3File) : Char × MicroTime × Int × Int × List Char × List Char × List Char × List Char × Int :=
  (f.version, f.start, f.numEpochs, f.numSats, f.crdSys, f.orbType, f.agency, f.timeSys, f.interval)

end Ggnss
