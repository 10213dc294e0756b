import Verif.Spec.NavFile
/-!
# Specification: navigation files that end anywhere
-/
namespace Ggnss
open NavItem

/-- `ls` complete lines, and the beginning `l` of one more, stand at the beginning of a text. -/
def StartsWithLines (n : Nat) (t : List Char) : Prop :=
  ∃ (ls : List (List Char)) (l tl : List Char), ls.length + 1 = n ∧ t = linesText ls ++ (l ++ tl) ∧ (∀ x ∈ ls, '\n' ∉ x) ∧ '\n' ∉ l ∧
    ((tl = [] ∧ l ≠ []) ∨ ∃ t', tl = '\n' :: t')

/-- The numbers of the last line of a record as they are found when the file ends within that line: the number at `k` is
the one that stands there, as far as it is there (`FieldAt q`), and when the line does not even reach
the columns of the number, what stands in these columns of the line before. -/
def LastNumber (r : NavItem) (q : List Char) (k : Nat) (v : Rat) : Prop :=
  (∃ n, FieldAt q (4 + 19 * k) n ∧ v = n.value) ∨
    (q.length < 4 + 19 * k ∧ k < specCount r.sys (specLines r.sys - 2) ∧ v = (r.num (specLines r.sys - 2) k).value)

/-- Status `st` is possible for a record of which only `p` is in the file: 0 only if the file ends within the last line. -/
def CutStatus (r : NavItem) (p : List Char) (st : Int) : Prop :=
  st ≠ 0 ∨ ∃ pre l q, r.lines = pre ++ [l] ∧ q <+: l ∧ q ≠ [] ∧ p = linesText pre ++ q

end Ggnss
