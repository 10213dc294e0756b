import Verif.Spec.Columns
import Verif.Spec.NavFile
import Verif.Model.Sp3
/-!
# Specification: SP3 epochs as text

What an SP3-c/d epoch looks like and what it says.  From the model only the types of the results
(`SatSys`, `Sp3Event`, `Sp3Rec`, `Sp3Epoch`) are used.
-/
namespace Ggnss

/-- Operations on an `Sp3Flag`. -/
inductive FlagOp where
  | set (e : Sp3Event)
  | clear (e : Sp3Event)
  | reset
  deriving DecidableEq

/-- A position and clock record ('P' line): the satellite and the four numbers x, y, z (km) and
clock (microseconds) in columns 5-18, 19-32, 33-46, 47-60 (1-based). -/
structure PosLine where
  line : List Char
  sys : SatSys
  prn : Nat
  x : Numeral
  y : Numeral
  z : Numeral
  clk : Numeral

structure PosLine.WF (p : PosLine) : Prop where
  ok : LineOK p.line
  letter : p.line[0]? = some 'P'
  satellite : p.line[1]? = some (satsysToChar p.sys)
  prn : NatAt p.line 2 p.prn
  x : NumAt p.line 4 p.x
  y : NumAt p.line 18 p.y
  z : NumAt p.line 32 p.z
  clk : NumAt p.line 46 p.clk

/-- When an event is signalled by a record, according to the SP3 format (columns 1-based: 75 'E'
clock event, 76 'P' clock prediction, 79 'M' manoeuvre, 80 'P' orbit prediction) and to the
documentation of the library (a coordinate 0 is a missing position, a clock of 999999 or more is a
missing clock). -/
def PosLine.Signals (p : PosLine) : Sp3Event → Prop
  | .bad_abscent_position => p.x.value = 0 ∨ p.y.value = 0 ∨ p.z.value = 0
  | .bad_abscent_clock => 999999 ≤ p.clk.value
  | .clock_event => p.line[74]? = some 'E'
  | .clock_prediction => p.line[75]? = some 'P'
  | .maneuver => p.line[78]? = some 'M'
  | .orbit_prediction => p.line[79]? = some 'P'

/-- A record in memory says what the line says (flags apart): metres and microseconds. -/
structure PosLine.SaysIn (p : PosLine) (r : Sp3Rec) : Prop where
  sys : r.sys = p.sys
  prn : r.prn = p.prn
  vals : r.vals = [1000 * p.x.value, 1000 * p.y.value, 1000 * p.z.value, p.clk.value]

/-- An epoch header line: "*  YYYY MM DD HH MM SS.SSSSSSSS". -/
structure EpochLine where
  line : List Char
  year : Nat
  month : Nat
  day : Nat
  hour : Nat
  minute : Nat
  sec : Numeral

structure EpochLine.WF (h : EpochLine) : Prop where
  ok : LineOK h.line
  star : h.line[0]? = some '*'
  blank : h.line[1]? = some ' '
  year : NatAt h.line 3 h.year
  yearPos : h.year ≠ 0
  month : NatAt h.line 8 h.month
  day : NatAt h.line 11 h.day
  hour : NatAt h.line 14 h.hour
  minute : NatAt h.line 17 h.minute
  sec : NumAt h.line 20 h.sec
  secRange : 0 ≤ h.sec.value ∧ h.sec.value < 100

/-- The epoch of a header line, to the microsecond (what is below is cut off). -/
def EpochLine.Is (h : EpochLine) (t : Sp3Epoch) : Prop :=
  t.year = h.year ∧ t.month = h.month ∧ t.day = h.day ∧ t.hour = h.hour ∧ t.minute = h.minute ∧
    (t.micros : Rat) ≤ h.sec.value * 1000000 ∧ h.sec.value * 1000000 < t.micros + 1

/-- Is this a position line? -/
def isPLine (l : List Char) : Bool := l.head? = some 'P'

/-- Lines that end an epoch: the header of the next one, or the line "EOF". -/
def endsEpoch (l : List Char) : Bool := l.head? = some '*' || l.take 3 = c!"EOF"

/-- The lines `ls` following an epoch header carry the position records `ps`, in this order; all
other lines (velocities, correlations, comments, ...) are of any kind. -/
structure IsEpochBody (ls : List (List Char)) (ps : List PosLine) : Prop where
  ok : ∀ l ∈ ls, LineOK l
  inside : ∀ l ∈ ls, endsEpoch l = false
  records : ls.filter isPLine = ps.map PosLine.line
  wf : ∀ p ∈ ps, p.WF

end Ggnss
