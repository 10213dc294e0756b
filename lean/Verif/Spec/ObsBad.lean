import Verif.Spec.ObsExact
import Verif.Spec.BadField
/-!
# Specification: observation files with malformed lines
-/
namespace Ggnss

/-- The line begins as an epoch header, with readable date and time up to the minutes; `t` is the text
from the seconds on. -/
def HeadUpToSeconds (l : List Char) (y mo d : Nat) (t : List Char) : Prop :=
  l.head? = some '>' ∧ 35 ≤ l.length ∧ ∃ cy cm cd ch cmi h mi, IntCols 4 cy y ∧ IntCols 2 cm mo ∧ IntCols 2 cd d ∧ IntCols 2 ch h ∧
    IntCols 2 cmi mi ∧ l.drop 2 = cy ++ ' ' :: (cm ++ ' ' :: (cd ++ ' ' :: (ch ++ ' ' :: (cmi ++ ' ' :: t))))

/-- A line that is no readable epoch header, and the number of the defect.  `dayOf` is the calendar: the
day of a date. -/
inductive BadHead (dayOf : Nat → Nat → Nat → Option Int) (l : List Char) : Int → Prop
  /-- it does not start with `>`, or is too short -/
  | noHead : (l.head? ≠ some '>' ∨ l.length < 35) → BadHead dayOf l 1
  /-- one of year, month, day, hour, minute is no integer, or does not fit; those before it (`pre`, with
  one blank behind each) are fine -/
  | date (pre : List (List Char × Nat)) (t : List Char) : l.head? = some '>' → 35 ≤ l.length → (∀ p ∈ pre, ∃ w ≤ 9, IntCols w p.1 p.2) →
      pre.length < 5 → BadInt t → l.drop 2 = (pre.map (fun p => p.1 ++ [' '])).flatten ++ t → BadHead dayOf l 2
  /-- the seconds are no number, or do not fit -/
  | seconds (y mo d : Nat) (day : Int) (t : List Char) : HeadUpToSeconds l y mo d t → dayOf y mo d = some day → BadReal t → BadHead dayOf l 3
  /-- the number of satellites does not fit -/
  | count (y mo d : Nat) (day : Int) (n : Numeral) (rest : List Char) : HeadUpToSeconds l y mo d (n.text ++ rest) → dayOf y mo d = some day →
      n.WF → stopsNumber rest → TooLong (l.drop 32) → BadHead dayOf l 4
  /-- the receiver clock offset does not fit -/
  | clock (e : EpochText) (y mo d h mi : Nat) (sec : Rat) (flag nsat : Nat) (day : Int) : l = e.line →
      ({ e with tail := [] } : EpochText).Says y mo d h mi sec flag nsat none → dayOf y mo d = some day → 6 < e.tail.length →
      e.tail.head? = some ' ' → NUL ∉ e.tail → TooBigNumber (e.tail.drop 6) → BadHead dayOf l 5

/-- Not the number of a satellite: no integer, or 0, or negative. -/
def NoSatNumber (t : List Char) : Prop := NoInt t ∨ NatAt t 0 0 ∨ ∃ d, d.isDigit = true ∧ t = ['-', d]

/-- The columns of observation `i` are there and not blank, but do not begin with a number, or with one
that does not fit. -/
def BadValue (l : List Char) (i : Nat) : Prop :=
  3 + 16 * i + 16 ≤ l.length ∧ (¬ ∀ c ∈ (fieldCols l i).take 14, c = ' ') ∧ BadReal (fieldCols l i)

/-- A data line that must be refused for this request: unknown system; or a requested system, and the
satellite number or one of the requested values is not readable. -/
inductive BadLine (mmap : List (SatSys × List (List (Nat × Rat)))) (l : List Char) : Prop
  | system : (∀ sys, l.head? ≠ some (satsysToChar sys)) → BadLine mmap l
  | number (sys : SatSys) (sysobs : List (List (Nat × Rat))) : l.head? = some (satsysToChar sys) → mmap.lookup sys = some sysobs →
      NoSatNumber ((l.drop 1).take 2) → BadLine mmap l
  | value (sys : SatSys) (sysobs : List (List (Nat × Rat))) (prn : Nat) : l.head? = some (satsysToChar sys) → mmap.lookup sys = some sysobs →
      3 ≤ l.length → NatAt ((l.drop 1).take 2) 0 prn → 1 ≤ prn → prn ≤ 99 → (∃ prs ∈ sysobs, ∃ pr ∈ prs, BadValue l pr.1) → BadLine mmap l

/-- The vector `ov'` holds `out` in its first slots; of the next slot (the one the malformed line was
read into) only the values may have changed; the others are those of `ov`. -/
structure HoldsUpTo (ov ov' : List ((SatSys × Int) × List Rat)) (out : List ((SatSys × Int) × List Rat)) : Prop where
  length : ov'.length = ov.length
  slots : ∀ (j : Nat) (o : (SatSys × Int) × List Rat), out[j]? = some o → ∃ e, ov[j]? = some e ∧ ov'[j]? = some (o.1, o.2 ++ e.2.drop o.2.length)
  next : ∀ e, ov[out.length]? = some e → ∃ vals, ov'[out.length]? = some (e.1, vals) ∧ vals.length = e.2.length
  others : ∀ j : Nat, out.length < j → ov'[j]? = ov[j]?

end Ggnss
