import Verif.Spec.Orbit
import Verif.Model.Fp
/-! # Specification: the iteration for Kepler's equation -/
namespace Ggnss

/-- The fixed point iteration `E ← M + e sin E`, started at `M`. -/
noncomputable def keplerIter (e M : ℝ) : Nat → ℝ
  | 0 => M
  | n + 1 => Real.sin (keplerIter e M n) * e + M

/-- The same in double precision. -/
noncomputable def keplerIterF (F : Fp) (e M : ℝ) : Nat → ℝ
  | 0 => M
  | n + 1 => F.rnd (F.rnd (F.sin (keplerIterF F e M n) * e) + M)

/-- The value before the `n`-th of a sequence; 0 before the first. -/
def before (u : Nat → ℝ) : Nat → ℝ
  | 0 => 0
  | n + 1 => u n

end Ggnss
