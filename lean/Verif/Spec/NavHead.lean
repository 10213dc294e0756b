import Verif.Spec.Antex
import Verif.Spec.NavFile
/-!
# Specification: the header of a RINEX 3 navigation file
-/
namespace Ggnss

/-- The header: what it says and its lines.  `last` is the END OF HEADER line. -/
structure NavHeader where
  version : Numeral
  sys : SatSys
  first : List Char
  others : List (List Char)
  last : List Char

def NavHeader.lines (h : NavHeader) : List (List Char) := h.first :: (h.others ++ [h.last])

/-- Well formed: the first line shows the version from column 0, 'N' in column 20 and the letter of
the system in column 40 (and is not itself an END OF HEADER line); any fewer than 1000 lines of at
most 84 chars (short ones too) follow before END OF HEADER. -/
structure NavHeader.WF (h : NavHeader) : Prop where
  first : LineFits 84 h.first ∧ 60 ≤ h.first.length ∧ ¬ HasLabel h.first c!"END OF HEADER"
  version : NumAt h.first 0 h.version
  kind : h.first[20]? = some 'N'
  sys : h.first[40]? = some (satsysToChar h.sys)
  others : ∀ l ∈ h.others, LineFits 84 l ∧ ¬ HasLabel l c!"END OF HEADER"
  few : h.others.length < 1000
  last : Labelled h.last c!"END OF HEADER"

end Ggnss
