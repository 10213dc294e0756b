import Verif.Spec.NavHead
import Verif.Spec.NavSound
import Verif.Model.NavHead
/-!
# Specification for C103: what an opened navigation file must rest on

From the model only the type of the result (`NavFile`, with its stream) is used.
-/
namespace Ggnss

/-- The object says what the first line says, and its stream stands behind the first line END OF HEADER, which is one of the 1000 lines after the first. -/
structure NavHeadGives (first : List Char) (others : List (List Char)) (f : NavFile) : Prop where
  version : RealBegins first f.version
  kind : first[20]? = some 'N'
  sys : first[40]? = some (satsysToChar f.sys)
  ends : ∃ k l, k < 1000 ∧ others[k]? = some l ∧ HasLabel l c!"END OF HEADER" ∧ (∀ x ∈ others.take k, ¬ HasLabel x c!"END OF HEADER") ∧
    f.strm.good = true ∧ f.strm.rest = linesText (others.drop (k + 1))

end Ggnss
