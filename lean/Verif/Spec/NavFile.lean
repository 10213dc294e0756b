import Verif.Spec.Numeral
import Verif.Model.SatSys
import Verif.Model.Time
/-!
# Specification: RINEX 3 navigation records as text

Independent of the model of the reader: what a navigation file looks like and what it says.
-/
namespace Ggnss

/-- A text line that the formats allow: no newline, no NUL, at most 127 chars. -/
def LineOK (l : List Char) : Prop := '\n' ∉ l ∧ NUL ∉ l ∧ l.length ≤ 127

/-- The bytes of a list of lines. -/
def linesText (ls : List (List Char)) : List Char := (ls.map (· ++ ['\n'])).flatten

/-- FORTRAN exponents: 'D' and 'd' stand for 'E'. -/
def d2e (c : Char) : Char := if c = 'D' ∨ c = 'd' then 'E' else c

/-- The text of line `l` from column `off` on begins with the numeral `n` (which may have leading
blanks); what follows it cannot continue the number. -/
def FieldAt (l : List Char) (off : Nat) (n : Numeral) : Prop :=
  off ≤ l.length ∧ n.WF ∧ ∃ rest, (l.drop off).map d2e = n.text ++ rest ∧ stopsNumber rest

/-- Number of lines of a navigation record (RINEX 3.04, appendix A): 8 for GPS, Galileo, BeiDou,
QZSS and IRNSS, 4 for GLONASS and SBAS. -/
def specLines : SatSys → Nat
  | .glonass => 4
  | .sbas => 4
  | .mixed => 0
  | _ => 8

/-- Numbers on line `j` of a record (`j = 0` is the SV / EPOCH / SV CLK line).  Broadcast orbit 5 of
Galileo and BeiDou has no fourth number; broadcast orbit 7 has two numbers (transmission time and
fit interval or AODC), one for Galileo and IRNSS. -/
def specCount (sys : SatSys) (j : Nat) : Nat :=
  if j = 0 then 3
  else if j = 5 ∧ (sys = .galileo ∨ sys = .beidou) then 3
  else if j = 7 then (if sys = .galileo ∨ sys = .irnss then 1 else 2)
  else 4

/-- Payload index of the `k`-th number of line `j`. -/
def specIndex (j k : Nat) : Nat := if j = 0 then k else 3 + 4 * (j - 1) + k

/-- Unit of the `k`-th number of line `j` in the payload: GLONASS positions, velocities and
accelerations are in km in the file, in m in the payload. -/
def specUnit (sys : SatSys) (j k : Nat) : Rat :=
  if sys = .glonass ∧ j ≠ 0 ∧ k ≠ 3 then 1000 else 1

/-- A block of lines forming one record of system `sys`, whatever the numbers in it. -/
structure IsBlock (sys : SatSys) (ls : List (List Char)) : Prop where
  notMixed : sys ≠ .mixed
  count : ls.length = specLines sys
  fits : ∀ l ∈ ls, LineOK l
  letter : ∀ l, ls.head? = some l → l.head? = some (satsysToChar sys)

/-- The satellite number of the first line: digits after the system letter, possibly with leading
blanks. -/
def PrnAt (l : List Char) (prn : Int) : Prop :=
  ∃ k ds rest, l.drop 1 = List.replicate k ' ' ++ (ds ++ rest) ∧ allDigits ds ∧ ds ≠ [] ∧
    (∀ c, rest.head? = some c → c.isDigit = false) ∧
    (Nat.ofDigitChars 10 ds 0 : Int) = prn ∧ 0 < prn ∧ prn < 2147483648

/-- The lines of a record of system `sys` with numbers `num j k`. -/
structure IsRecord (sys : SatSys) (prn : Int) (num : Nat → Nat → Numeral) (ls : List (List Char)) :
    Prop extends IsBlock sys ls where
  prn : ∀ l, ls.head? = some l → PrnAt l prn
  numbers : ∀ j l, ls[j]? = some l → ∀ k < specCount sys j,
    FieldAt l ((if j = 0 then 23 else 4) + 19 * k) (num j k)

/-- A navigation record of a file: what it says and its lines. -/
structure NavItem where
  sys : SatSys
  prn : Int
  toc : DateTime
  num : Nat → Nat → Numeral
  lines : List (List Char)

namespace NavItem

/-- The bytes of the record. -/
def text (r : NavItem) : List Char := linesText r.lines

/-- The `k`-th number of line `j`, in payload units. -/
def val (r : NavItem) (j k : Nat) : Rat := specUnit r.sys j k * (r.num j k).value

/-- The systems whose records carry a time of ephemeris, a health word and a validity rule. -/
def Handled (sys : SatSys) : Prop := sys = .gps ∨ sys = .glonass ∨ sys = .galileo ∨ sys = .beidou

/-- The record says: this integer stands at line `j`, position `k`, and it fits an `int`. -/
def IntAt (r : NavItem) (j k : Nat) (v : Int) : Prop :=
  r.val j k = (v : Rat) ∧ -2147483648 ≤ v ∧ v ≤ 2147483647

/-- Time of ephemeris (seconds since MJD 0) of a record with week number `wk` and second of week
`sow`.  GPS and Galileo weeks count from 6 January 1980 (MJD 44244), BeiDou weeks start 1356 weeks
later; GLONASS records give only the second of week, the week is that of the time of clock. -/
def toeIs (r : NavItem) (toe : Int) : Prop :=
  match r.sys with
  | .gps => ∃ wk sow, r.IntAt 5 2 wk ∧ r.IntAt 3 0 sow ∧ toe = 86400 * 44244 + 604800 * wk + sow
  | .galileo => ∃ wk sow, r.IntAt 5 2 wk ∧ r.IntAt 3 0 sow ∧ toe = 86400 * 44244 + 604800 * wk + sow
  | .beidou => ∃ wk sow, r.IntAt 5 2 wk ∧ r.IntAt 3 0 sow ∧
      toe = 86400 * 44244 + 604800 * (wk + 1356) + sow
  | .glonass => ∃ sow, r.IntAt 0 2 sow ∧
      toe = 86400 * 44244 + 604800 * ((r.toc.mjd - 44244) / 7) + sow
  | _ => True

/-- The record is well formed; `dateOf` gives the date written in columns 4.. of a first line. -/
structure WF (dateOf : List Char → Res DateTime) (r : NavItem) : Prop where
  record : IsRecord r.sys r.prn r.num r.lines
  date : ∀ l, r.lines.head? = some l → dateOf (l.drop 3) = .ok r.toc
  tocOk : 44244 ≤ r.toc.mjd ∧ 0 ≤ r.toc.sec ∧ r.toc.sec < 86400
  toe : ∃ toe, r.toeIs toe

end NavItem

end Ggnss
namespace Ggnss
namespace NavItem

/-- The health word of the record is `h`: last number of broadcast orbit 1 for GLONASS, second of
broadcast orbit 6 for GPS, Galileo and BeiDou. -/
def HealthIs (r : NavItem) (h : Int) : Prop :=
  match r.sys with
  | .glonass => r.IntAt 1 3 h
  | .gps => r.IntAt 6 1 h
  | .galileo => r.IntAt 6 1 h
  | .beidou => r.IntAt 6 1 h
  | _ => False

/-- Validity length in seconds: the fit interval (hours, second number of broadcast orbit 7) for GPS,
4 hours for Galileo and BeiDou, 15 minutes to each side for GLONASS. -/
def FitIs (r : NavItem) (fit : Int) : Prop :=
  match r.sys with
  | .glonass => fit = 900
  | .gps => ∃ hours, r.IntAt 7 1 hours ∧ fit = 3600 * hours ∧ -2147483648 ≤ fit ∧ fit ≤ 2147483647
  | .galileo => fit = 14400
  | .beidou => fit = 14400
  | _ => False

/-- The record is healthy and in force at time `t` (milliseconds since MJD 0): half open interval
starting at the time of clock; for GLONASS centred at the time of ephemeris. -/
def ValidAt (r : NavItem) (t : Int) : Prop :=
  r.HealthIs 0 ∧ ∃ fit, r.FitIs fit ∧
    if r.sys = .glonass then
      ∃ toe, r.toeIs toe ∧ 1000 * (toe - fit) ≤ t ∧ t < 1000 * (toe + fit)
    else 1000 * r.toc.total ≤ t ∧ t < 1000 * (r.toc.total + fit)

/-- The time of clock is more than four hours later than `t`. -/
def TooLate (r : NavItem) (t : Int) : Prop := 1000 * r.toc.total - t > 4 * 3600 * 1000

/-- Well formed, with integral health word and fit interval. -/
structure WFV (dateOf : List Char → Res DateTime) (r : NavItem) : Prop extends WF dateOf r where
  health : ∃ h, r.HealthIs h
  fit : ∃ fit, r.FitIs fit

end NavItem

/-- The bytes of a sequence of records. -/
def fileText (rs : List NavItem) : List Char := (rs.map NavItem.text).flatten

end Ggnss
