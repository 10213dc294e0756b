import Verif.Spec.Numeral
import Verif.Model.Num
/-!
# Specification: what it is for a text to begin with a number
-/
namespace Ggnss

/-- The text is white space, the decimal integer `v` (at most one sign, digits, as many as there are), and `rest`. -/
def IntThen (t : List Char) (v : Int) (rest : List Char) : Prop :=
  ∃ ws sg ds, t = ws ++ (sg ++ (ds ++ rest)) ∧ (∀ c ∈ ws, isSpace c = true) ∧ (sg = [] ∨ sg = ['+'] ∨ sg = ['-']) ∧
    ds ≠ [] ∧ (∀ c ∈ ds, c.isDigit = true) ∧ (∀ c, rest.head? = some c → c.isDigit = false) ∧
    v = if sg = ['-'] then -(Nat.ofDigitChars 10 ds 0 : Int) else (Nat.ofDigitChars 10 ds 0 : Int)

/-- The text begins with the decimal integer `v`: white space, at most one sign, digits (as many as there are). -/
def IntBegins (t : List Char) (v : Int) : Prop :=
  ∃ ws sg ds rest, t = ws ++ (sg ++ (ds ++ rest)) ∧ (∀ c ∈ ws, isSpace c = true) ∧ (sg = [] ∨ sg = ['+'] ∨ sg = ['-']) ∧
    ds ≠ [] ∧ (∀ c ∈ ds, c.isDigit = true) ∧ (∀ c, rest.head? = some c → c.isDigit = false) ∧
    v = if sg = ['-'] then -(Nat.ofDigitChars 10 ds 0 : Int) else (Nat.ofDigitChars 10 ds 0 : Int)

/-- The exponent of a numeral, with either letter. -/
def expTextWith (e : Char) (n : Numeral) : List Char :=
  match n.exp with | none => [] | some (s, ds) => e :: (signText s ++ ds)

/-- The text begins with a decimal number, as long as it can be, whose value is `v`: white space, a sign or none, digits with or
without a point, and an exponent (`e` or `E`) or none. -/
def DecBegins (t : List Char) (v : Rat) : Prop :=
  ∃ (ws : List Char) (n : Numeral) (e : Char) (rest : List Char),
    t = ws ++ (signText n.sign ++ (n.ip ++ (n.fracText ++ (expTextWith e n ++ rest)))) ∧
    (∀ c ∈ ws, isSpace c = true) ∧ n.Shape ∧ (e = 'e' ∨ e = 'E') ∧ v = n.value ∧
    (∀ c, rest.head? = some c → c.isDigit = false) ∧ (n.frac = none → n.exp = none → rest.head? ≠ some '.') ∧
    (n.exp = none → ∀ x s d more, rest = x :: (signText s ++ d :: more) → x = 'e' ∨ x = 'E' → d.isDigit = false)

/-- The text begins with something else `std::stod` accepts: a hexadecimal number, an infinity, or "not a number". -/
def OddNumber (t : List Char) : Prop :=
  ∃ ws s more, t = ws ++ (signText s ++ more) ∧ (∀ c ∈ ws, isSpace c = true) ∧
    ((more.take 3).map Char.toLower = c!"inf" ∨ (more.take 3).map Char.toLower = c!"nan" ∨ (more.take 2).map Char.toLower = c!"0x")

/-- The text begins with the number `v`. -/
def RealBegins (t : List Char) (v : Rat) : Prop := DecBegins t v ∨ OddNumber t

end Ggnss
