import Verif.Spec.NavSound
import Verif.Spec.BernSound
import Verif.Spec.Sp3Bad
/-!
# Specification for C100: what an SP3 epoch read from arbitrary lines must rest on

From the model only the types of the results (`Sp3Rec`, `Sp3Epoch`, `Sp3Event`) and the conversion to `int` (`toInt32`) are used.
-/
namespace Ggnss

/-- The text begins with the integer `v`, which fits a `long`. -/
def LongBegins (t : List Char) (v : Int) : Prop := IntBegins t v ∧ v ≤ 9223372036854775807 ∧ -9223372036854775808 ≤ v

/-- The text does not begin with an integer that fits a `long`. -/
def NoLong (t : List Char) : Prop := (∀ v, ¬ IntBegins t v) ∨ BeyondLong t

/-- An event is signalled by a line and its four numbers (orbit prediction apart, see C33). -/
def LineSignals (l : List Char) (vals : List Rat) : Sp3Event → Prop
  | .bad_abscent_position => ∃ v ∈ vals.take 3, v = 0
  | .bad_abscent_clock => 999999 ≤ vals.getD 3 0
  | .clock_event => l[74]? = some 'E'
  | .clock_prediction => l[75]? = some 'P'
  | .maneuver => l[78]? = some 'M'
  | .orbit_prediction => l[79]? = some 'P'

/-- The record `r` is what the position line `l` says. -/
structure PosGives (l : List Char) (r : Sp3Rec) : Prop where
  system : l[1]? = some (satsysToChar r.sys)
  number : ∃ v, LongBegins (l.drop 2) v ∧ r.prn = toInt32 v
  values : ∃ x y z c, NumberIn (l.drop 4) x ∧ NumberIn (l.drop 18) y ∧ NumberIn (l.drop 32) z ∧ NumberIn (l.drop 46) c ∧ r.vals = [1000 * x, 1000 * y, 1000 * z, c]
  flags : 80 ≤ l.length → ∀ e, e ≠ .orbit_prediction → (r.flag.isSet e = true ↔ LineSignals l r.vals e)

/-- The position line `l` has a defect; the number says which one comes first. -/
inductive PosFails (l : List Char) : Int → Prop
  | system (c) : l[1]? = some c → NoSystem c → PosFails l 3
  | number (sys) : l[1]? = some (satsysToChar sys) → NoLong (l.drop 2) → PosFails l 4
  | column (sys v) (i : Nat) : l[1]? = some (satsysToChar sys) → LongBegins (l.drop 2) v → i < 4 → (∀ m < i, ∃ x, NumberIn (l.drop (4 + 14 * m)) x) →
      NoNumberIn (l.drop (4 + 14 * i)) → PosFails l (5 + i)

/-- `t` is the epoch of the header line `l`: seconds cut to microseconds (towards 0). -/
structure HeadGives (l : List Char) (t : Sp3Epoch) : Prop where
  start : c!"* " <+: l
  year : ∃ v, LongBegins (l.drop 3) v ∧ t.year = toInt32 v ∧ t.year ≠ 0
  month : ∃ v, LongBegins (l.drop 8) v ∧ t.month = toInt32 v
  day : ∃ v, LongBegins (l.drop 11) v ∧ t.day = toInt32 v
  hour : ∃ v, LongBegins (l.drop 14) v ∧ t.hour = toInt32 v
  minute : ∃ v, LongBegins (l.drop 17) v ∧ t.minute = toInt32 v
  seconds : ∃ q, NumberIn (l.drop 20) q ∧ |q * 1000000 - (t.micros : Rat)| < 1 ∧ |(t.micros : Rat)| ≤ |q * 1000000|

/-- The line in the place of an epoch header has a defect; the number says which one comes first: 2 the star and the blank, 5 the year (also: it is 0), 6 to 9
month, day, hour, minute, 11 the seconds. -/
inductive HeadFails (l : List Char) : Int → Prop
  | start : ¬ c!"* " <+: l → HeadFails l 2
  | year : c!"* " <+: l → (NoLong (l.drop 3) ∨ ∃ v, LongBegins (l.drop 3) v ∧ toInt32 v = 0) → HeadFails l 5
  | part (v : Int) (i : Nat) : c!"* " <+: l → LongBegins (l.drop 3) v → toInt32 v ≠ 0 → i < 4 → (∀ m < i, ∃ v, LongBegins (l.drop (8 + 3 * m)) v) →
      NoLong (l.drop (8 + 3 * i)) → HeadFails l (6 + i)
  | seconds (v : Int) : c!"* " <+: l → LongBegins (l.drop 3) v → toInt32 v ≠ 0 → (∀ m < 4, ∃ v, LongBegins (l.drop (8 + 3 * m)) v) →
      NoNumberIn (l.drop 20) → HeadFails l 11

/-- Lines that may stand between an epoch header and the end of the epoch: position lines reach their last number. -/
structure EpochLines (ls : List (List Char)) : Prop where
  ok : ∀ l ∈ ls, LineOK l
  inside : ∀ l ∈ ls, endsEpoch l = false
  reach : ∀ l ∈ ls, isPLine l = true → 46 ≤ l.length

/-- What reading an epoch with header line `h` and further lines `ls` may come to: status, epoch, vector, number of satellites, lines consumed.  `fin` is the
status at the end of the epoch (0: another one follows; -1: the line EOF); `t0`, `vec`, `sr`: the caller's variables before. -/
inductive EpochOutcome (h : List Char) (ls : List (List Char)) (fin : Int) (t0 : Sp3Epoch) (vec : List Sp3Rec) (sr : Int) :
    Int → Sp3Epoch → List Sp3Rec → Int → Nat → Prop
  /-- every position line gave a record -/
  | complete (t recs) : HeadGives h t → List.Forall₂ PosGives (ls.filter isPLine) recs → recs.length ≤ vec.length →
      EpochOutcome h ls fin t0 vec sr fin t (recs ++ vec.drop recs.length) recs.length (ls.length + 1)
  /-- the header is no header: nothing is touched -/
  | header (st) : HeadFails h st → EpochOutcome h ls fin t0 vec sr st t0 vec sr 1
  /-- the position line `l` could not be read; those before it could -/
  | record (t recs j l st) : HeadGives h t → ls[j]? = some l → isPLine l = true → PosFails l st → List.Forall₂ PosGives ((ls.take j).filter isPLine) recs →
      recs.length ≤ vec.length → EpochOutcome h ls fin t0 vec sr (20 + st) t (recs ++ vec.drop recs.length) sr (j + 2)

/-- No number of a position line is hexadecimal, an infinity or "not a number". -/
def PlainPos (l : List Char) : Prop := ∀ m < 4, ¬ OddNumber (l.drop (4 + 14 * m))

/-- What a record says, flags apart. -/
def Sp3Rec.core (r : Sp3Rec) : SatSys × Int × List Rat := (r.sys, r.prn, r.vals)

end Ggnss
