import Verif.Spec.NavFile
/-!
# Specification: asking a navigation file for messages in force

Only the description of navigation records (`Spec/NavFile.lean`) is used.
-/
namespace Ggnss
open NavItem

/-- A navigation file: records of GPS, GLONASS, Galileo and BeiDou are well formed, those of the other
systems are at least blocks of the right number of lines. -/
structure NavFileOK (dateOf : List Char → Res DateTime) (rs : List NavItem) : Prop where
  handled : ∀ r ∈ rs, Handled r.sys → r.WFV dateOf
  block : ∀ r ∈ rs, IsBlock r.sys r.lines

/-- The record is a message of satellite `prn` of system `sys`. -/
def NavItem.Of (r : NavItem) (sys : SatSys) (prn : Int) : Prop := r.sys = sys ∧ r.prn = prn

/-- The messages of a satellite follow each other in time, and GLONASS messages refer to an epoch at most
3 h 45 min away from their time of clock. -/
structure Chronological (rs : List NavItem) : Prop where
  sorted : rs.Pairwise fun p r => p.sys = r.sys → p.prn = r.prn → p.toc.total ≤ r.toc.total
  glo : ∀ r ∈ rs, r.sys = .glonass → ∀ toe, r.toeIs toe → |toe - r.toc.total| ≤ 13500

/-- No message of the satellite is in force at `t`, or each one that is has in front of it (or is itself) a
message of the satellite more than four hours ahead of `t`. -/
def NoneBefore (rs : List NavItem) (sys : SatSys) (prn t : Int) : Prop :=
  ∀ pre r post, rs = pre ++ r :: post → r.Of sys prn → r.ValidAt t → ∃ p ∈ pre ++ [r], p.Of sys prn ∧ p.TooLate t

/-- The file has a message of the satellite in force at `t`. -/
def HasValid (rs : List NavItem) (sys : SatSys) (prn t : Int) : Prop := ∃ r ∈ rs, r.Of sys prn ∧ r.ValidAt t

end Ggnss
