import Verif.Spec.Sp3
import Verif.Spec.BadField
/-!
# Specification: malformed SP3 records and the status that reports them
-/
namespace Ggnss

/-- A char that stands for no satellite system. -/
def NoSystem (c : Char) : Prop := ∀ sys : SatSys, satsysToChar sys ≠ c

/-- A position record with a defect; the number says which one comes first: 3 the system, 4 the
number of the satellite, 5 to 8 the coordinates and the clock. -/
inductive PosBad (l : List Char) : Int → Prop
  | system (c : Char) : l[1]? = some c → NoSystem c → PosBad l 3
  | number (sys : SatSys) : l[1]? = some (satsysToChar sys) → BadInt (l.drop 2) → PosBad l 4
  | x (sys : SatSys) (prn : Nat) : l[1]? = some (satsysToChar sys) → NatAt l 2 prn → 4 ≤ l.length → BadReal (l.drop 4) → PosBad l 5
  | y (sys : SatSys) (prn : Nat) (x : Numeral) : l[1]? = some (satsysToChar sys) → NatAt l 2 prn → NumAt l 4 x → 18 ≤ l.length →
      BadReal (l.drop 18) → PosBad l 6
  | z (sys : SatSys) (prn : Nat) (x y : Numeral) : l[1]? = some (satsysToChar sys) → NatAt l 2 prn → NumAt l 4 x → NumAt l 18 y →
      32 ≤ l.length → BadReal (l.drop 32) → PosBad l 7
  | clock (sys : SatSys) (prn : Nat) (x y z : Numeral) : l[1]? = some (satsysToChar sys) → NatAt l 2 prn → NumAt l 4 x → NumAt l 18 y →
      NumAt l 32 z → 46 ≤ l.length → BadReal (l.drop 46) → PosBad l 8

/-- A line in the place of an epoch header, with a defect: 2 it does not begin with a star and a
blank, 5 the year (also: it is 0), 6 to 9 month, day, hour, minute, 11 the seconds. -/
inductive EpochBad (l : List Char) : Int → Prop
  | start : ¬ c!"* " <+: l → EpochBad l 2
  | year : c!"* " <+: l → 3 ≤ l.length → BadInt (l.drop 3) ∨ NatAt l 3 0 → EpochBad l 5
  | month (y : Nat) : c!"* " <+: l → NatAt l 3 y → y ≠ 0 → 8 ≤ l.length → BadInt (l.drop 8) → EpochBad l 6
  | day (y m : Nat) : c!"* " <+: l → NatAt l 3 y → y ≠ 0 → NatAt l 8 m → 11 ≤ l.length → BadInt (l.drop 11) → EpochBad l 7
  | hour (y m d : Nat) : c!"* " <+: l → NatAt l 3 y → y ≠ 0 → NatAt l 8 m → NatAt l 11 d → 14 ≤ l.length → BadInt (l.drop 14) → EpochBad l 8
  | minute (y m d h : Nat) : c!"* " <+: l → NatAt l 3 y → y ≠ 0 → NatAt l 8 m → NatAt l 11 d → NatAt l 14 h → 17 ≤ l.length →
      BadInt (l.drop 17) → EpochBad l 9
  | seconds (y m d h mi : Nat) : c!"* " <+: l → NatAt l 3 y → y ≠ 0 → NatAt l 8 m → NatAt l 11 d → NatAt l 14 h → NatAt l 17 mi →
      20 ≤ l.length → BadReal (l.drop 20) → EpochBad l 11

end Ggnss
