import Verif.Spec.Sp3
import Verif.Spec.Antex
import Verif.Model.Sp3Head
/-!
# Specification: the header of an SP3-c/d file

Lines, columns (counted from 0) and what they say, from the description of the SP3 format.  Of the
model only the types of the results are used.
-/
namespace Ggnss

/-- The line begins with these two chars. -/
def Begins (l : List Char) (a b : Char) : Prop := l[0]? = some a ∧ l[1]? = some b

instance (l : List Char) (a b : Char) : Decidable (Begins l a b) := inferInstanceAs (Decidable (_ ∧ _))

/-- The text in the `n` columns from column `off` on. -/
def TextAt (l : List Char) (off n : Nat) (t : List Char) : Prop := off + n ≤ l.length ∧ (l.drop off).take n = t

instance (l : List Char) (off n : Nat) (t : List Char) : Decidable (TextAt l off n t) := inferInstanceAs (Decidable (_ ∧ _))

/-- What an SP3 header says, and its lines. -/
structure Sp3Header where
  version : Char
  year : Nat
  month : Nat
  day : Nat
  hour : Nat
  minute : Nat
  sec : Numeral
  epochs : Nat
  crdSys : List Char
  orbType : List Char
  agency : List Char
  week : Nat
  sow : Numeral
  interval : Numeral
  mjd : Nat
  dayFraction : Numeral
  satellites : Nat
  timeSys : List Char
  first : List Char
  second : List Char
  sat : List Char
  sats : List (List Char)
  acc : List Char
  accs : List (List Char)
  c1 : List Char
  c2 : List Char
  f1 : List Char
  f2 : List Char
  i1 : List Char
  i2 : List Char
  comments : List (List Char)

/-- The lines of the header, in order. -/
def Sp3Header.lines (h : Sp3Header) : List (List Char) :=
  h.first :: h.second :: h.sat :: (h.sats ++ h.acc :: (h.accs ++ h.c1 :: h.c2 :: h.f1 :: h.f2 :: h.i1 :: h.i2 :: h.comments))

/-- The first two lines. -/
structure Sp3Header.Dated (h : Sp3Header) : Prop where
  ver : h.version = 'c' ∨ h.version = 'd'
  first_fits : LineFits 84 h.first
  first_is : Begins h.first '#' h.version
  year : NatAt h.first 3 h.year ∧ h.year ≠ 0
  month : NatAt h.first 8 h.month ∧ h.month ≠ 0
  day : NatAt h.first 11 h.day ∧ h.day ≠ 0
  hour : NatAt h.first 14 h.hour
  minute : NatAt h.first 17 h.minute
  sec : NumAt h.first 20 h.sec ∧ 0 ≤ h.sec.value ∧ h.sec.value < 100
  epochs : NatAt h.first 32 h.epochs ∧ h.epochs ≠ 0
  crdSys : TextAt h.first 46 5 h.crdSys
  orbType : TextAt h.first 52 3 h.orbType
  agency : TextAt h.first 56 4 h.agency
  second_fits : LineFits 84 h.second
  second_is : Begins h.second '#' '#'
  week : NatAt h.second 3 h.week ∧ h.week ≠ 0
  sow : NumAt h.second 8 h.sow
  interval : NumAt h.second 24 h.interval ∧ 0 ≤ h.interval.value ∧ h.interval.value < 100000
  mjd : NatAt h.second 39 h.mjd ∧ h.mjd ≠ 0
  dayFraction : NumAt h.second 45 h.dayFraction

/-- All of a well formed header except what the second and following lines of accuracies look like:
the two lines with the dates, at least one line of satellites ("+ "), a line of accuracies ("++"), two lines "%c",
"%f" and "%i" each, and comments. The header has no more than about 1000 lines. -/
structure Sp3Header.Frame (h : Sp3Header) : Prop extends h.Dated where
  sat_ok : LineFits 84 h.sat ∧ Begins h.sat '+' ' '
  satellites : NatAt h.sat 3 h.satellites ∧ h.satellites ≠ 0
  sats : ∀ l ∈ h.sats, LineFits 84 l ∧ Begins l '+' ' '
  acc_ok : LineFits 84 h.acc ∧ Begins h.acc '+' '+'
  c1_ok : LineFits 84 h.c1 ∧ Begins h.c1 '%' 'c'
  timeSys : TextAt h.c1 9 3 h.timeSys
  c2_ok : LineFits 84 h.c2 ∧ Begins h.c2 '%' 'c'
  f1_ok : LineFits 84 h.f1 ∧ Begins h.f1 '%' 'f'
  f2_ok : LineFits 84 h.f2 ∧ Begins h.f2 '%' 'f'
  i1_ok : LineFits 84 h.i1 ∧ Begins h.i1 '%' 'i'
  i2_ok : LineFits 84 h.i2 ∧ Begins h.i2 '%' 'i'
  comments : ∀ l ∈ h.comments, LineFits 84 l ∧ Begins l '/' '*'
  few : h.sats.length + h.accs.length + 2 < 1000
  fewc : h.sats.length + h.accs.length + h.comments.length + 2 ≤ 1000

/-- A well formed header, with at least two lines of accuracies (the format asks for five). -/
structure Sp3Header.WF (h : Sp3Header) : Prop extends h.Frame where
  accs_ok : h.accs ≠ [] ∧ ∀ l ∈ h.accs, LineFits 84 l ∧ Begins l '+' '+'

/-- The start epoch on the first line, to the microsecond. -/
def Sp3Header.StartIs (h : Sp3Header) (t : Sp3Epoch) : Prop :=
  t.year = h.year ∧ t.month = h.month ∧ t.day = h.day ∧ t.hour = h.hour ∧ t.minute = h.minute ∧
    (t.micros : Rat) ≤ h.sec.value * 1000000 ∧ h.sec.value * 1000000 < t.micros + 1

/-- The object says what the header says, the agency apart (`d`: the start epoch as a date of the library). -/
structure Sp3Header.SaysIn (h : Sp3Header) (d : MicroTime) (f : Sp3File) : Prop where
  version : f.version = h.version
  start : f.start = d
  epochs : f.numEpochs = h.epochs
  satellites : f.numSats = h.satellites
  crdSys : f.crdSys = h.crdSys
  orbType : f.orbType = h.orbType
  timeSys : f.timeSys = h.timeSys
  interval : (f.interval : Rat) ≤ h.interval.value * 1000000 ∧ h.interval.value * 1000000 < f.interval + 1

/-- The date arithmetic of an exact calendar library with this conversion of calendar dates to days:
GPS weeks start at MJD 44244. -/
def Sp3Lib.Exact (L : Sp3Lib) : Prop :=
  (∀ d w s, L.sameWeek d w s = true ↔ (86400 * (d.mjd - 44244) + d.micros / 1000000 : Rat) = 604800 * w + s ∧ 0 ≤ s ∧ s < 604800) ∧
  (∀ d m f, L.sameMjd d m f = true ↔ (d.mjd + d.micros / 86400000000 : Rat) = m + f)

end Ggnss
