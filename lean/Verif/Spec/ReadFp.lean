import Verif.Spec.ObsFile
import Verif.Spec.Sp3
import Verif.Model.ReadFp
/-!
# Specification: accuracy of the values delivered by the readers

From the model only `NearestDouble` (a double nearest to a real number) and the types of the results are used.
-/
namespace Ggnss

/-- The exact value of a linear combination of readings with coefficients, and the sum of the absolute values of its
terms. -/
noncomputable def exactSum (xs : List (Option Rat × Rat)) : ℝ := (xs.map (fun p => ((p.1.getD 0 : Rat) : ℝ) * (p.2 : ℝ))).sum
noncomputable def absSum (xs : List (Option Rat × Rat)) : ℝ := (xs.map (fun p => |((p.1.getD 0 : Rat) : ℝ) * (p.2 : ℝ)|)).sum
noncomputable def coefSum (xs : List (Option Rat × Rat)) : ℝ := (xs.map (fun p => |(p.2 : ℝ)| + 1)).sum

/-- What a user may expect of the double `v` delivered for an observable with readings and coefficients `xs`:
* a raw observable (coefficient 1) is the double nearest to the decimal in the file;
* a combination of `n` readings is the exact one up to a relative error (with respect to the sum of the absolute values
  of the terms) of `(1 + 2^-53)^(n+2) - 1`, about `n + 2` half units in the last place (the second term is there for
  underflow only);
* when the last part is missing, it is the double nearest to the missing-value marker. -/
structure AccurateValue (xs : List (Option Rat × Rat)) (v : ℝ) : Prop where
  raw : ∀ x : Rat, xs = [(some x, 1)] → NearestDouble x v
  combined : (∀ p ∈ xs, p.1 ≠ none) →
    |v - exactSum xs| ≤ ((1 + 2 ^ (-53 : ℤ)) ^ (xs.length + 2) - 1) * absSum xs +
      4 * (1 + 2 ^ (-53 : ℤ)) ^ xs.length * 2 ^ (-1075 : ℤ) * coefSum xs
  missing : ∀ c, xs.getLast? = some (none, c) → NearestDouble (missingMark : ℝ) v

/-- The value is not next to the missing-value marker (a number of three decimals is either equal to it or at least
1/1000 away). -/
def AwayFromMarker (x : Rat) : Prop := 1 / 1000000 ≤ |x - missingMark|

/-- A number in metres computed in doubles from kilometres in the file: two roundings (the last term is there for
underflow only). -/
def TwoRoundings (x X : ℝ) : Prop := |X - x| ≤ ((1 + 2 ^ (-53 : ℤ)) ^ 2 - 1) * |x| + 2 ^ (-1064 : ℤ)

/-- A record of doubles says what the line says: satellite, coordinates in metres up to two roundings, and the double
nearest to the clock. -/
structure PosLine.SaysInF (p : PosLine) (r : Sp3RecF) : Prop where
  sys : r.sys = p.sys
  prn : r.prn = p.prn
  vals : ∃ X Y Z C, r.vals = [X, Y, Z, C] ∧ TwoRoundings (1000 * (p.x.value : ℝ)) X ∧ TwoRoundings (1000 * (p.y.value : ℝ)) Y ∧
    TwoRoundings (1000 * (p.z.value : ℝ)) Z ∧ NearestDouble (p.clk.value : ℝ) C

/-- Coordinates are zero or at least 1e-9 (km), the clock is not within 1e-9 below 999999 (numbers of six decimals are like this). -/
structure PosLine.Resolved (p : PosLine) : Prop where
  coord : ∀ n ∈ [p.x, p.y, p.z], n.value = 0 ∨ 1 / 1000000000 ≤ |n.value|
  clk : 999999 ≤ p.clk.value ∨ p.clk.value ≤ 999999 - 1 / 1000000000

end Ggnss
