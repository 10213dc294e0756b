import Verif.Spec.Bern
import Verif.Model.Bern
/-!
# Specification for C107: what an opened SATELLIT file must rest on

From the model only the type of the result (`BernFile`, with its stream) is used.
-/
namespace Ggnss

/-- The lines of a SATELLIT file up to the records: the first line names the format, the first line that begins with PART 2 is not beyond the 999th after it, and the second and
third line after that one are the two headings.  What follows the headings is `tail`. -/
def BernHead (ls tail : List (List Char)) : Prop :=
  ∃ first pre part2 dashes head1 head2, ls = first :: (pre ++ part2 :: dashes :: head1 :: head2 :: tail) ∧
    c!"SATELLITE-SPECIFIC INFO FOR GPS/GLONASS/GEO/LEO/SLR, BSW5.2" <+: first ∧
    (∀ l ∈ pre, ¬ c!"PART 2: ON-BOARD SENSORS" <+: l) ∧ pre.length < 999 ∧ c!"PART 2: ON-BOARD SENSORS" <+: part2 ∧
    c!"                                              START TIME           END TIME                 SENSOR OFFSETS (M)       SENSOR BORESIGHT VECTOR (U) SENSOR AZIMUTH VECTOR (N)" <+: head1 ∧
    c!"PRN  TYPE  SENSOR NAME______SVN  NUMBER  YYYY MM DD HH MM SS  YYYY MM DD HH MM SS         DX        DY        DZ         X       Y       Z          X       Y       Z      ANTEX SENSOR NAME___  IFRQ  SIGNAL LIST___________------>" <+: head2

/-- The object stands behind the line that follows the headings; without such a line it has no position, and its stream has failed. -/
def BernStands (tail : List (List Char)) (f : BernFile) : Prop :=
  (tail = [] ∧ f.part2 = none ∧ f.strm.fail = true) ∨
  ∃ blank rest p, tail = blank :: rest ∧ f.part2 = some p ∧ f.strm.fail = false ∧ f.strm.content.drop p = linesText rest

end Ggnss
