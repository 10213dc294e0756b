import Verif.Spec.NumText
import Verif.Model.ObsRead
/-!
# Specification for C43: what must stand in an epoch header line that was accepted

From the model only the record `EpochHead` (what the reader takes from the line), the conversion to `int` (`toInt32`) and the value of a
`char` (`scharVal`) are used.
-/
namespace Ggnss

/-- From `t` on stand the integers `vs`, each behind white space or none, with one character behind each of them; then `rest`. -/
inductive IntRun : List Char → List Int → List Char → Prop
  | nil (t) : IntRun t [] t
  | cons (t v r vs rest) : IntThen t v r → IntRun (r.drop 1) vs rest → IntRun t (v :: vs) rest

/-- The line, held by the array `arr`, says what `h` says: the date and time are five integers one after the other from column 2 on, followed by
the seconds (in a line that is too short for them, they may stand in the bytes behind its end); the flag is column 31; the number of satellites is the integer from column 32 on, or nothing can be read there (and it counts as 0); the
clock offset is the number from column 41 on, if the line has so many columns and they are not blank, or nothing can be read there (and it counts as 0). -/
structure HeaderStands (mjdOf : Int → Int → Int → Res Int) (line arr : List Char) (h : EpochHead) : Prop where
  mark : line.head? = some '>'
  long : 35 ≤ line.length
  time : ∃ y mo d hh mi s rest, IntRun (arr.drop 2) [y, mo, d, hh, mi] rest ∧ RealBegins rest s ∧
    mjdOf (toInt32 y) (toInt32 mo) (toInt32 d) = .ok h.mjd ∧ h.sec = toInt32 hh * 3600 + toInt32 mi * 60 + s ∧
    ((∃ n, IntBegins (line.drop 32) n ∧ h.numSats = toInt32 n) ∨
      ((∀ n, ¬ IntBegins (line.drop 32) n) ∧ h.numSats = 0 ∧ rest ≠ arr.drop 32))
  flag : ∃ c, line[31]? = some c ∧ h.flag = scharVal c - 48
  clock : (line.length ≤ 41 ∧ h.clock = none) ∨ (41 < line.length ∧ (∀ c ∈ line.drop 41, c = ' ') ∧ h.clock = some 0) ∨
    (41 < line.length ∧ (∃ c ∈ line.drop 41, c ≠ ' ') ∧ ∃ v, h.clock = some v ∧
      (RealBegins (line.drop 41) v ∨ ((∀ w, ¬ DecBegins (line.drop 41) w) ∧ v = 0)))

end Ggnss
