import Verif.Spec.Columns
import Verif.Model.Num
/-!
# Specification: columns that hold no number, or one that does not fit
-/
namespace Ggnss

/-- No number: only blanks, or blanks and then a char no number (nor infinity or NaN) starts with. -/
def NoNumber (t : List Char) : Prop :=
  (∀ c ∈ t, c = ' ') ∨ ∃ (k : Nat) (c : Char) (r : List Char), t = List.replicate k ' ' ++ c :: r ∧
    isSpace c = false ∧ c.isDigit = false ∧ c ∉ c!"+-.iInN"

/-- A number too large or too small for a `double`. -/
def TooBigNumber (t : List Char) : Prop :=
  ∃ (n : Numeral) (rest : List Char), n.Shape ∧ t = n.text ++ rest ∧ stopsNumber rest ∧ ¬ FitsDouble n.value

/-- The text does not begin with a number that fits a `double`. -/
def BadReal (t : List Char) : Prop := NoNumber t ∨ TooBigNumber t

/-- Not an integer: after blanks and at most one sign there is no digit (`s = none`: there is no
sign; then `k` blanks are all the white space there is). -/
def NoInt (t : List Char) : Prop := ∃ k s rest, t = List.replicate k ' ' ++ (signText s ++ rest) ∧
  ∀ c, rest.head? = some c → c.isDigit = false ∧ (s = none → isSpace c = false ∧ c ≠ '-' ∧ c ≠ '+')

/-- An integer beyond the range of `long` at the beginning of the text (after blanks). -/
def TooLong (t : List Char) : Prop := ∃ (k : Nat) (sg ds rest : List Char), t = List.replicate k ' ' ++ sg ++ ds ++ rest ∧
  (sg = [] ∨ sg = ['+'] ∨ sg = ['-']) ∧ (∀ c ∈ ds, c.isDigit = true) ∧ (∀ c, rest.head? = some c → c.isDigit = false) ∧
  9223372036854775808 < Nat.ofDigitChars 10 ds 0

/-- The text does not begin with an integer that fits a `long`. -/
def BadInt (t : List Char) : Prop := NoInt t ∨ TooLong t

end Ggnss
