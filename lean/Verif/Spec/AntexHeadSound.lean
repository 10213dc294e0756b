import Verif.Spec.AntexSound
import Verif.Model.Antex
/-!
# Specification for C106: what an opened ANTEX file must rest on

From the model only the type of the result (`AtxFile`, with its stream) is used.
-/
namespace Ggnss

/-- The version is 1.3 or 1.4, up to the tolerance of the library. -/
def AtxVersion (v : Rat) : Prop := |v - 14 / 10| < 1 / 1000 ∨ |v - 13 / 10| < 1 / 1000

/-- The first line gives a version the library reads, in its columns 0-14, and the object's system in column 20; the second says "absolute"; the first
END OF HEADER line is one of the 1000 lines after the second, and the position the object keeps is that behind it. -/
structure AtxHeadGives (first : List Char) (others : List (List Char)) (f : AtxFile) : Prop where
  version : ∃ v, RealBegins (first.take 15) v ∧ AtxVersion v
  sys : first[20]? = some (satsysToChar f.sys)
  ends : ∃ second rest k l p, others = second :: rest ∧ second[0]? = some 'A' ∧ k < 1000 ∧ rest[k]? = some l ∧ HasLabel l c!"END OF HEADER" ∧
    (∀ x ∈ rest.take k, ¬ HasLabel x c!"END OF HEADER") ∧ f.endOfHead = some p ∧ f.strm.content.drop p = linesText (rest.drop (k + 1))
  usable : f.strm.fail = false ∧ f.strm.content = linesText (first :: others)

end Ggnss
