import Verif.Spec.Sp3Head
import Verif.Spec.BadField
/-!
# Specification: defects of the first lines of an SP3 header
-/
namespace Ggnss

/-- Where a positive integer should be, there is no integer, one that fits no `long`, or 0. -/
def BadCount (l : List Char) (off : Nat) : Prop := BadInt (l.drop off) ∨ NatAt l off 0

/-- A defect of the first line: the mark "#c" or "#d", year, month, day, hour, minute, number of epochs, or seconds that fit no `double`. -/
def FirstBad (l : List Char) : Prop :=
  ¬ (Begins l '#' 'c' ∨ Begins l '#' 'd') ∨ BadCount l 3 ∨ BadCount l 8 ∨ BadCount l 11 ∨ BadInt (l.drop 14) ∨ BadInt (l.drop 17) ∨
    BadCount l 32 ∨ TooBigNumber (l.drop 20)

/-- A defect of the second line: the mark "##", the GPS week, or (behind a readable second of week and interval) the
modified Julian day; or a second of week that fits no `double`. -/
def SecondBad (h : Sp3Header) (l : List Char) : Prop :=
  ¬ Begins l '#' '#' ∨ BadCount l 3 ∨
    (NumAt l 8 h.sow ∧ NumAt l 24 h.interval ∧ 0 ≤ h.interval.value ∧ h.interval.value < 100000 ∧ BadCount l 39) ∨
    (TooBigNumber (l.drop 8) ∧ NumAt l 24 h.interval ∧ 0 ≤ h.interval.value ∧ h.interval.value < 100000)

/-- A defect of the first line of satellites: the mark "+ ", or the number of satellites. -/
def ThirdBad (l : List Char) : Prop := ¬ Begins l '+' ' ' ∨ BadCount l 3

end Ggnss
