import Mathlib.Algebra.Order.Ring.Rat
/-!
# Specification: decimal numerals in fixed columns and the numbers they denote

Independent of the model of the C library parser.
-/
namespace Ggnss

/-- A decimal numeral as written in RINEX/SP3/ANTEX columns: blanks, optional sign, digits with an
optional point and fraction, optional exponent. -/
structure Numeral where
  blanks : Nat
  sign : Option Bool            -- `some true` is '-', `some false` is '+'
  ip : List Char
  frac : Option (List Char)     -- digits after the point, if there is a point
  exp : Option (Option Bool × List Char)

def signText : Option Bool → List Char
  | none => []
  | some true => ['-']
  | some false => ['+']

def signVal : Option Bool → Rat
  | some true => -1
  | _ => 1

def allDigits (l : List Char) : Prop := ∀ c ∈ l, c.isDigit = true

instance (l : List Char) : Decidable (allDigits l) := inferInstanceAs (Decidable (∀ c ∈ l, _))

namespace Numeral

def fracDigits (n : Numeral) : List Char := n.frac.getD []

/-- The shape of a numeral. -/
structure Shape (n : Numeral) : Prop where
  ip : allDigits n.ip
  frac : allDigits n.fracDigits
  nonempty : n.ip ≠ [] ∨ n.fracDigits ≠ []
  exp : ∀ s ds, n.exp = some (s, ds) → allDigits ds ∧ ds ≠ []

def fracText (n : Numeral) : List Char := match n.frac with | none => [] | some ds => '.' :: ds
def expText (n : Numeral) : List Char :=
  match n.exp with | none => [] | some (s, ds) => 'E' :: (signText s ++ ds)
def text (n : Numeral) : List Char :=
  List.replicate n.blanks ' ' ++ (signText n.sign ++ (n.ip ++ (n.fracText ++ n.expText)))

/-- Value of a string of decimal digits, most significant first. -/
def digVal (l : List Char) : Rat := l.foldl (fun a c => 10 * a + ((c.toNat : Rat) - 48)) 0

def expVal (n : Numeral) : Int :=
  match n.exp with
  | none => 0
  | some (some true, ds) => -(Nat.ofDigitChars 10 ds 0 : Int)
  | some (_, ds) => (Nat.ofDigitChars 10 ds 0 : Int)

/-- The number denoted: sign · (integer part . fraction) · 10^exponent. -/
def value (n : Numeral) : Rat :=
  signVal n.sign * (digVal n.ip + digVal n.fracDigits / 10 ^ n.fracDigits.length) * (10 : Rat) ^ n.expVal

end Numeral

/-- The number is zero or in the range of normal `double`s. -/
def FitsDouble (q : Rat) : Prop := q = 0 ∨ (1 / 2 ^ 1022 ≤ |q| ∧ |q| < 2 ^ 1024 - 2 ^ 970)

/-- The number is zero or in the range of normal `float`s. -/
def FitsFloat (q : Rat) : Prop := q = 0 ∨ (1 / 2 ^ 126 ≤ |q| ∧ |q| < 2 ^ 128 - 2 ^ 103)

/-- A well formed numeral: its number fits a `double` (this is so for every numeral with at most 100
digits before and after the point and an exponent of at most two digits: `fits_of_shape`). -/
structure Numeral.WF (n : Numeral) : Prop extends n.Shape where
  fits : FitsDouble n.value

/-- A char that cannot continue a number (an `x` could make a hexadecimal number of a zero). -/
def stopsNumber (l : List Char) : Prop :=
  ∀ c, l.head? = some c → c.isDigit = false ∧ c ≠ '.' ∧ c ≠ 'e' ∧ c ≠ 'E' ∧ c ≠ 'x' ∧ c ≠ 'X'

end Ggnss
