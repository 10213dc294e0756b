import Verif.Spec.Sp3
/-!
# Specification: SP3 files that end anywhere
-/
namespace Ggnss

/-- The text begins with an epoch: a line `head`, the lines `ls`, none of which is the beginning of an epoch or the end of the file, and then
`fin`, all of it up to the end of the text. -/
structure EpochStands (text head : List Char) (ls : List (List Char)) (fin : List Char) : Prop where
  text : text = head ++ '\n' :: (linesText ls ++ fin)
  head : '\n' ∉ head ∧ head.length ≤ 127
  lines : ∀ l ∈ ls, '\n' ∉ l ∧ l.length ≤ 127 ∧ endsEpoch l = false

end Ggnss
