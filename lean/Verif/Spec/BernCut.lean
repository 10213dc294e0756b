import Verif.Spec.BernBad
/-!
# Specification: SATELLIT files cut off at an arbitrary byte
-/
namespace Ggnss

/-- The text `u` is what follows the last complete line of the text `p`. -/
def Unterminated (p u : List Char) : Prop :=
  ∃ head, p = head ++ u ∧ (head = [] ∨ head.getLast? = some '\n') ∧ '\n' ∉ u

/-- A cut line that still says clearly that it does not answer a question for satellite `svn` at `t`:
it has fewer than 10 chars, or it begins the heading of part 3, or it shows that it is not a micro-wave
record, or its SVN is readable and another one, or SVN and times of validity are complete and `t` is not between them. -/
def SaysOther (strptime : List Char → Res DateTime) (u : List Char) (svn : Int) (t : DateTime) : Prop :=
  u.length < 10 ∨ u.take 6 = c!"PART 3" ∨ ¬ (u[5]? = some 'M' ∧ u[6]? = some 'W') ∨
  (∃ v : Nat, NatAt u 28 v ∧ (v : Int) ≠ svn) ∨
  (∃ (v : Nat) (start : DateTime) (stop : Option DateTime), NatAt u 28 v ∧ 82 ≤ u.length ∧ DateAt strptime u 41 start ∧ StopAt strptime u stop ∧
    ¬ (start.total ≤ t.total ∧ ∀ e, stop = some e → t.total < e.total))

/-- The part of the header the constructor insists on: the lines up to the first line of column titles, and the fixed text of the second one. -/
def BernHeader.needed (h : BernHeader) : List Char :=
  linesText ([h.first] ++ h.pre ++ [h.part2, h.dashes, h.head1]) ++
    c!"PRN  TYPE  SENSOR NAME______SVN  NUMBER  YYYY MM DD HH MM SS  YYYY MM DD HH MM SS         DX        DY        DZ         X       Y       Z          X       Y       Z      ANTEX SENSOR NAME___  IFRQ  SIGNAL LIST___________------>"

end Ggnss
