import Verif.Spec.Antex
/-!
# Specification: files whose header has no end
-/
namespace Ggnss

/-- `l` is a line of the text `p`: it starts at the beginning of the text or after a newline, and goes up to the next newline or to the end of the text. -/
def TextLine (p l : List Char) : Prop :=
  ∃ a b, p = a ++ (l ++ b) ∧ (a = [] ∨ a.getLast? = some '\n') ∧ '\n' ∉ l ∧ (b = [] ∨ b.head? = some '\n')

/-- Some line of the text has END OF HEADER from its 61st column on. -/
def HeaderEnds (p : List Char) : Prop := ∃ l, TextLine p l ∧ HasLabel l c!"END OF HEADER"

/-- The array in which the first line of the file is stored does not hold END OF HEADER from its 61st char on by chance, or the first line reaches these columns. -/
def NotByChance (junk p : List Char) : Prop :=
  ¬ HasLabel junk c!"END OF HEADER" ∨ 60 ≤ (p.takeWhile (fun c => decide (c ≠ '\n'))).length

end Ggnss
