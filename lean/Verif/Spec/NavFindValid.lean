import Verif.Spec.NavFind
/-!
# Specification for C113: what a search for the message in force makes of a navigation file whose records have arbitrary lines

Times are in milliseconds (the query epoch `t`) and seconds (`DateTime.total`) since the same origin; `truncRat`: integer part of a number.
-/
namespace Ggnss

/-- The number at column `col` of line `j`. -/
def NumberAt (ls : List (List Char)) (j col : Nat) (v : Rat) : Prop := ∃ l, ls[j]? = some l ∧ NumberIn (numText l col) v

/-- The systems that have rules for health and validity. -/
def HasRules (sys : SatSys) : Prop := sys = .gps ∨ sys = .glonass ∨ sys = .galileo ∨ sys = .beidou

/-- The health of the satellite: fourth number of line 1 for GLONASS, second number of line 6 for the others. -/
def HealthNumber (sys : SatSys) (ls : List (List Char)) (v : Rat) : Prop := (sys = .glonass ∧ NumberAt ls 1 61 v) ∨ (sys ≠ .glonass ∧ NumberAt ls 6 23 v)

/-- The message is in force from `a` to before `b` (milliseconds); `d`: its date.  GLONASS: 15 minutes around the second of week of line 0; GPS: from its date on,
as many hours as the second number of line 7 says; Galileo, BeiDou: 4 hours from its date on. -/
inductive MsgInForce (sys : SatSys) (ls : List (List Char)) (d : DateTime) : Int → Int → Prop
  | glonass (v) : sys = .glonass → NumberAt ls 0 61 v →
      MsgInForce sys ls d (1000 * (86400 * (d.mjd - d.sow.tdiv 86400) + truncRat v) - 900000) (1000 * (86400 * (d.mjd - d.sow.tdiv 86400) + truncRat v) + 900000)
  | gps (v) : sys = .gps → NumberAt ls 7 23 v → ¬ BeyondInt32 v → MsgInForce sys ls d (1000 * d.total) (1000 * d.total + 1000 * toInt32 (3600 * truncRat v))
  | other : sys = .galileo ∨ sys = .beidou → MsgInForce sys ls d (1000 * d.total) (1000 * d.total + 14400000)

/-- What the search makes of a readable message of the satellite. -/
inductive Verdict where
  | inForce
  | pass
  | late
  | undefined
  | killed
  deriving DecidableEq

/-- The message is dated more than four hours after `t`. -/
def TooLateAt (d : DateTime) (t : Int) : Prop := 14400000 < 1000 * d.total - t

inductive VerdictOf (dateOf : List Char → Res DateTime) (sys : SatSys) (ls : List (List Char)) (t : Int) : Verdict → Prop
  | late (l d) : ls.head? = some l → dateOf (l.drop 3) = .ok d → TooLateAt d t → VerdictOf dateOf sys ls t .late
  /-- no rules for this system: an exception within a function that may not throw -/
  | noRules (l d) : ls.head? = some l → dateOf (l.drop 3) = .ok d → ¬ TooLateAt d t → ¬ HasRules sys → VerdictOf dateOf sys ls t .killed
  /-- the health does not fit an `int` -/
  | health (l d v) : ls.head? = some l → dateOf (l.drop 3) = .ok d → ¬ TooLateAt d t → HasRules sys → HealthNumber sys ls v → BeyondInt32 v → VerdictOf dateOf sys ls t .undefined
  | unhealthy (l d v) : ls.head? = some l → dateOf (l.drop 3) = .ok d → ¬ TooLateAt d t → HasRules sys → HealthNumber sys ls v → ¬ BeyondInt32 v → (v ≤ -1 ∨ 1 ≤ v) →
      VerdictOf dateOf sys ls t .pass
  /-- the hours of a GPS message do not fit an `int` -/
  | hours (l d v w) : ls.head? = some l → dateOf (l.drop 3) = .ok d → ¬ TooLateAt d t → HasRules sys → HealthNumber sys ls v → (-1 < v ∧ v < 1) → sys = .gps →
      NumberAt ls 7 23 w → BeyondInt32 w → VerdictOf dateOf sys ls t .undefined
  | inForce (l d v a b) : ls.head? = some l → dateOf (l.drop 3) = .ok d → ¬ TooLateAt d t → HasRules sys → HealthNumber sys ls v → (-1 < v ∧ v < 1) →
      MsgInForce sys ls d a b → a ≤ t → t < b → VerdictOf dateOf sys ls t .inForce
  | outside (l d v a b) : ls.head? = some l → dateOf (l.drop 3) = .ok d → ¬ TooLateAt d t → HasRules sys → HealthNumber sys ls v → (-1 < v ∧ v < 1) →
      MsgInForce sys ls d a b → (t < a ∨ b ≤ t) → VerdictOf dateOf sys ls t .pass

/-- How a search for the message of satellite `prn` in force at `t` goes (cf. `SearchFate`, Spec/NavFind). -/
inductive ValidFate (dateOf : List Char → Res DateTime) (sys : SatSys) (prn t : Int) : List NavBlock → Nat → SearchWhat → Prop
  | ended : ValidFate dateOf sys prn t [] 0 .ended
  | other {b bs i w} : b.1 ≠ sys → ValidFate dateOf sys prn t bs i w → ValidFate dateOf sys prn t (b :: bs) (i + 1) w
  /-- a record of another satellite -/
  | pass {b bs i w} (p : Int) : b.1 = sys → BlockIs sys b.2 (fun q => ∃ d, dateOf q = .ok d) (.good p) → p ≠ prn → ValidFate dateOf sys prn t bs i w →
      ValidFate dateOf sys prn t (b :: bs) (i + 1) w
  /-- a message of the satellite, not healthy or not in force -/
  | useless {b bs i w} : b.1 = sys → BlockIs sys b.2 (fun q => ∃ d, dateOf q = .ok d) (.good prn) → VerdictOf dateOf sys b.2 t .pass → ValidFate dateOf sys prn t bs i w →
      ValidFate dateOf sys prn t (b :: bs) (i + 1) w
  | found {b bs} : b.1 = sys → BlockIs sys b.2 (fun q => ∃ d, dateOf q = .ok d) (.good prn) → VerdictOf dateOf sys b.2 t .inForce → ValidFate dateOf sys prn t (b :: bs) 0 .found
  | late {b bs} : b.1 = sys → BlockIs sys b.2 (fun q => ∃ d, dateOf q = .ok d) (.good prn) → VerdictOf dateOf sys b.2 t .late → ValidFate dateOf sys prn t (b :: bs) 0 .late
  | refused {b bs} (st : Int) (m : Nat) : b.1 = sys → BlockIs sys b.2 (fun q => ∃ d, dateOf q = .ok d) (.bad st m) → ValidFate dateOf sys prn t (b :: bs) 0 (.refused st m)
  | undefined {b bs} : b.1 = sys → (BlockIs sys b.2 (fun q => ∃ d, dateOf q = .ok d) .undefined ∨
      (BlockIs sys b.2 (fun q => ∃ d, dateOf q = .ok d) (.good prn) ∧ VerdictOf dateOf sys b.2 t .undefined)) → ValidFate dateOf sys prn t (b :: bs) 0 .undefined
  | killed {b bs} : b.1 = sys → (BlockIs sys b.2 (fun q => ∃ d, dateOf q = .ok d) .killed ∨
      (BlockIs sys b.2 (fun q => ∃ d, dateOf q = .ok d) (.good prn) ∧ VerdictOf dateOf sys b.2 t .killed)) → ValidFate dateOf sys prn t (b :: bs) 0 .killed

end Ggnss
