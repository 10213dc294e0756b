import Verif.Spec.ObsSound
import Verif.Spec.Sp3Sound
/-!
# Specification for C108: what an epoch header line of an observation file gives, and why it is refused

In terms of the characters of the line alone.  From the model only the record `EpochHead` (what the reader reports), the conversion to
`int` (`toInt32`), the value of a `char` (`scharVal`) and the type `Res` of the calendar function are used.
-/
namespace Ggnss

/-- From column 2 of the line on stand the integers `vs`, each of which fits a `long`, with one character behind each of them; then `rest`. -/
def DateIn (l : List Char) (vs : List Int) (rest : List Char) : Prop :=
  IntRun (l.drop 2) vs rest ∧ ∀ v ∈ vs, v ≤ 9223372036854775807 ∧ -9223372036854775808 ≤ v

/-- The numbers of the date, as far as there are any, end in front of column 31, the one of the flag. -/
def DateInPlace (l : List Char) : Prop := ∀ vs rest, vs.length ≤ 5 → DateIn l vs rest → l.length < rest.length + 32

/-- Neither the seconds nor the clock offset is a hexadecimal number, an infinity or "not a number". -/
def PlainReals (l : List Char) : Prop := (∀ vs rest, vs.length = 5 → DateIn l vs rest → ¬ OddNumber rest) ∧ ¬ OddNumber (l.drop 41)

/-- The columns of the clock offset are there and not all blank. -/
def ClockThere (l : List Char) : Prop := 41 < l.length ∧ ∃ c ∈ l.drop 41, c ≠ ' '

/-- What the header line gives (an unreadable number of satellites or clock offset counts as 0; C43 says that this is a defect of the code). -/
structure HeaderGives (mjdOf : Int → Int → Int → Res Int) (l : List Char) (h : EpochHead) : Prop where
  mark : l.head? = some '>'
  long : 35 ≤ l.length
  time : ∃ y mo d hh mi s rest, DateIn l [y, mo, d, hh, mi] rest ∧ DecBegins rest s ∧ FitsDouble s ∧
    mjdOf (toInt32 y) (toInt32 mo) (toInt32 d) = .ok h.mjd ∧ h.sec = toInt32 hh * 3600 + toInt32 mi * 60 + s
  flag : ∃ c, l[31]? = some c ∧ h.flag = scharVal c - 48
  count : (∃ n, LongBegins (l.drop 32) n ∧ h.numSats = toInt32 n) ∨ ((∀ n, ¬ IntBegins (l.drop 32) n) ∧ h.numSats = 0)
  clock : (l.length ≤ 41 ∧ h.clock = none) ∨ (41 < l.length ∧ (∀ c ∈ l.drop 41, c = ' ') ∧ h.clock = some 0) ∨
    (ClockThere l ∧ ∃ v, DecBegins (l.drop 41) v ∧ FitsDouble v ∧ h.clock = some v) ∨
    (ClockThere l ∧ (∀ v, ¬ DecBegins (l.drop 41) v) ∧ h.clock = some 0)

/-- Why the header line is refused: the first defect of the line, everything in front of it being readable. -/
inductive HeaderFails (mjdOf : Int → Int → Int → Res Int) (l : List Char) : Int → Prop
  | mark : (l.head? ≠ some '>' ∨ l.length < 35) → HeaderFails mjdOf l 1
  | date (vs rest) : l.head? = some '>' → 35 ≤ l.length → vs.length < 5 → DateIn l vs rest → NoLong rest → HeaderFails mjdOf l 2
  | seconds (y mo d hh mi rest day) : l.head? = some '>' → 35 ≤ l.length → DateIn l [y, mo, d, hh, mi] rest →
      mjdOf (toInt32 y) (toInt32 mo) (toInt32 d) = .ok day → (∀ v, DecBegins rest v → ¬ FitsDouble v) → HeaderFails mjdOf l 3
  | count (y mo d hh mi s rest day) : l.head? = some '>' → 35 ≤ l.length → DateIn l [y, mo, d, hh, mi] rest →
      mjdOf (toInt32 y) (toInt32 mo) (toInt32 d) = .ok day → DecBegins rest s → FitsDouble s → BeyondLong (l.drop 32) → HeaderFails mjdOf l 4
  | clock (y mo d hh mi s rest day v) : l.head? = some '>' → 35 ≤ l.length → DateIn l [y, mo, d, hh, mi] rest →
      mjdOf (toInt32 y) (toInt32 mo) (toInt32 d) = .ok day → DecBegins rest s → FitsDouble s → ¬ BeyondLong (l.drop 32) → ClockThere l →
      DecBegins (l.drop 41) v → ¬ FitsDouble v → HeaderFails mjdOf l 5

end Ggnss
