import Verif.Spec.Numeral
import Verif.Model.Base
/-!
# Specification: numbers in columns of text lines

Independent of the model.  Columns are counted from 0.
-/
namespace Ggnss

/-- From column `off` on, line `l` shows the numeral `n` (possibly after blanks), and what follows
cannot continue the number. -/
def NumAt (l : List Char) (off : Nat) (n : Numeral) : Prop :=
  off ≤ l.length ∧ n.WF ∧ ∃ rest, l.drop off = n.text ++ rest ∧ stopsNumber rest

/-- From column `off` on, line `l` shows the unsigned integer `v` (possibly after blanks), and the
next char is not a digit; `v` fits an `int`. -/
def NatAt (l : List Char) (off : Nat) (v : Nat) : Prop :=
  off ≤ l.length ∧ ∃ k ds rest, l.drop off = List.replicate k ' ' ++ (ds ++ rest) ∧ allDigits ds ∧
    ds ≠ [] ∧ (∀ c, rest.head? = some c → c.isDigit = false) ∧ Nat.ofDigitChars 10 ds 0 = v ∧
    v < 2147483648

end Ggnss
