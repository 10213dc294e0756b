import Verif.Spec.Numeral
import Verif.Props.Obs
/-!
# Specification: the text of a linear combination of observables
-/
namespace Ggnss

/-- A decimal numeral with six decimals, no blanks, no exponent, at least one digit in front of the point, and a
minus sign for negative numbers, that is the number `q` rounded to the sixth decimal. -/
structure Rounded6 (q : Rat) (n : Numeral) : Prop where
  wf : n.Shape
  blanks : n.blanks = 0
  sign : n.sign = if q < 0 then some true else none
  ip : n.ip ≠ []
  frac : ∃ ds, n.frac = some ds ∧ ds.length = 6
  exp : n.exp = none
  close : |n.value - q| ≤ 1 / 2000000

/-- One term: letter of the system, `::`, type letter, band digit, attribute, `*`, coefficient. -/
def TermText (p : ObsPart) (txt : List Char) : Prop :=
  ∃ s t d n, (p.type.sys, s) ∈ specLetters ∧ (p.type.code.type, t) ∈ specTypeLetters ∧ d.isDigit = true ∧ digitVal d = p.type.code.band ∧
    Rounded6 p.coef n ∧ txt = [s, ':', ':', t, d, p.type.code.attr, '*'] ++ n.text

/-- The terms in order with a plus sign between them. -/
def SumText : List (List Char) → List Char
  | [] => []
  | [t] => t
  | t :: ts => t ++ '+' :: SumText ts

/-- A code with a RINEX band. -/
def ObsPart.Plain (p : ObsPart) : Prop := p.type.code.type ≠ .any ∧ 0 ≤ p.type.code.band ∧ p.type.code.band ≤ 9

/-- The coefficient has at most six decimals. -/
def ObsPart.SixDecimals (p : ObsPart) : Prop := ∃ k : Int, p.coef * 1000000 = k

end Ggnss
