import Mathlib.Data.Real.Basic
import Mathlib.Algebra.Order.Round
import Mathlib.Data.Int.Log
import Mathlib.Analysis.SpecialFunctions.Trigonometric.Basic
import Mathlib.Analysis.SpecialFunctions.Complex.Arg
/-!
# Double precision

IEEE 754 binary64 with round to nearest, without overflow (the theorems bound the values they speak
of far below 2^1024, so no overflow occurs there).  Used for the statements about the computation as it
is carried out, beside those about real arithmetic.
-/
namespace Ggnss

/-- The real number is a double: 53 bits, exponent at least -1074. -/
def IsDouble (x : ℝ) : Prop := ∃ m e : ℤ, |m| ≤ 2 ^ 53 ∧ -1074 ≤ e ∧ x = m * (2 : ℝ) ^ e

/-- `y` is a double nearest to `x`. -/
def NearestDouble (x y : ℝ) : Prop := IsDouble y ∧ ∀ z, IsDouble z → |y - x| ≤ |z - x|

/-- The arithmetic of the machine: rounding of the exact result of `+ - * / sqrt`, to a nearest double
(no matter how ties are broken), and the functions of the mathematical library, which give doubles with
an error of at most one unit in the last place of a number between 1/2 and 1 (`sin`, `cos`) and of a number
between 2 and 4 (`atan2`). -/
structure Fp where
  rnd : ℝ → ℝ
  near : ∀ x, NearestDouble x (rnd x)
  sin : ℝ → ℝ
  sin_double : ∀ x, IsDouble (sin x)
  sin_err : ∀ x, |sin x - Real.sin x| ≤ 2 ^ (-53 : ℤ)
  cos : ℝ → ℝ
  cos_double : ∀ x, IsDouble (cos x)
  cos_err : ∀ x, |cos x - Real.cos x| ≤ 2 ^ (-53 : ℤ)
  atan2 : ℝ → ℝ → ℝ
  atan2_double : ∀ y x, IsDouble (atan2 y x)
  atan2_err : ∀ y x, |atan2 y x - Complex.arg ⟨x, y⟩| ≤ 2 ^ (-51 : ℤ)

end Ggnss
