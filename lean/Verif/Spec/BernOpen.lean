import Verif.Spec.Bern
/-!
# Specification: which text files are Bernese SATELLIT files
-/
namespace Ggnss

/-- The lines of a text file start as those of a SATELLIT file: the title, fewer than 999 lines that do not announce part 2, the line that does, any line, the two
lines of column titles; `rest` are the lines after these. -/
def BernOpenable (ls rest : List (List Char)) : Prop :=
  ∃ (first : List Char) (pre : List (List Char)) (p2 dashes h1 h2 : List Char),
    ls = first :: (pre ++ p2 :: dashes :: h1 :: h2 :: rest) ∧
    c!"SATELLITE-SPECIFIC INFO FOR GPS/GLONASS/GEO/LEO/SLR, BSW5.2" <+: first ∧
    pre.length < 999 ∧ (∀ l ∈ pre, ¬ c!"PART 2: ON-BOARD SENSORS" <+: l) ∧ c!"PART 2: ON-BOARD SENSORS" <+: p2 ∧
    c!"                                              START TIME           END TIME                 SENSOR OFFSETS (M)       SENSOR BORESIGHT VECTOR (U) SENSOR AZIMUTH VECTOR (N)" <+: h1 ∧
    c!"PRN  TYPE  SENSOR NAME______SVN  NUMBER  YYYY MM DD HH MM SS  YYYY MM DD HH MM SS         DX        DY        DZ         X       Y       Z          X       Y       Z      ANTEX SENSOR NAME___  IFRQ  SIGNAL LIST___________------>" <+: h2

end Ggnss
