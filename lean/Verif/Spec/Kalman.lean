import Mathlib.Analysis.Calculus.Deriv.Basic
import Mathlib.LinearAlgebra.Matrix.NonsingularInverse
/-!
# Specification: what the position filter should compute

The unknowns are the receiver's coordinates `x 0, x 1, x 2`, its clock offset (metres) `x 3` and clock
drift `x 4`.  A satellite is given by its coordinates and clock offset (seconds).
-/
namespace Ggnss
open Matrix

/-- Quadratic form `yᵀ A y`. -/
def quad {n : ℕ} (A : Matrix (Fin n) (Fin n) ℝ) (y : Fin n → ℝ) : ℝ := ∑ i, ∑ j, y i * A i j * y j

/-- Symmetric and positive semi-definite. -/
def SymPsd {n : ℕ} (A : Matrix (Fin n) (Fin n) ℝ) : Prop := (∀ i j, A i j = A j i) ∧ ∀ y, 0 ≤ quad A y

/-- Symmetric and positive definite. -/
def SymPd {n : ℕ} (A : Matrix (Fin n) (Fin n) ℝ) : Prop := (∀ i j, A i j = A j i) ∧ ∀ y, y ≠ 0 → 0 < quad A y

/-- The modelled pseudorange: geometric distance plus receiver clock offset. -/
noncomputable def modelRange (sv : Fin 4 → ℝ) (x : Fin 5 → ℝ) : ℝ :=
  √((sv 0 - x 0) ^ 2 + (sv 1 - x 1) ^ 2 + (sv 2 - x 2) ^ 2) + x 3

/-- The satellite is somewhere else than the receiver. -/
def Apart (sv : Fin 4 → ℝ) (x : Fin 5 → ℝ) : Prop := ¬ (sv 0 = x 0 ∧ sv 1 = x 1 ∧ sv 2 = x 2)

/-- Constant position, clock offset drifting for `dt`. -/
def moved (dt : ℝ) (x : Fin 5 → ℝ) : Fin 5 → ℝ := ![x 0, x 1, x 2, x 3 + dt * x 4, x 4]

/-- The transition matrix of `moved` … -/
def moveMatrix (dt : ℝ) : Matrix (Fin 5) (Fin 5) ℝ :=
  !![1, 0, 0, 0, 0; 0, 1, 0, 0, 0; 0, 0, 1, 0, 0; 0, 0, 0, 1, dt; 0, 0, 0, 0, 1]

/-- … the process noise … -/
def processNoise : Matrix (Fin 5) (Fin 5) ℝ :=
  !![0, 0, 0, 0, 0; 0, 0, 0, 0, 0; 0, 0, 0, 0, 0; 0, 0, 0, 0.0114, 0.0019; 0, 0, 0, 0.0019, 0.0039]

/-- … and the a-priori covariance: 50 m for coordinates and clock, variance 30 of the drift. -/
def aPriori : Matrix (Fin 5) (Fin 5) ℝ :=
  !![2500, 0, 0, 0, 0; 0, 2500, 0, 0, 0; 0, 0, 2500, 0, 0; 0, 0, 0, 2500, 0; 0, 0, 0, 0, 30]

/-- Covariance after `dt` without measurements. -/
def movedCov (dt : ℝ) (P : Matrix (Fin 5) (Fin 5) ℝ) : Matrix (Fin 5) (Fin 5) ℝ :=
  moveMatrix dt * P * (moveMatrix dt)ᵀ + processNoise

/-- `H` are the partial derivatives of the modelled ranges at `x`. -/
def IsDesign {n : ℕ} (sv : Fin n → Fin 4 → ℝ) (x : Fin 5 → ℝ) (H : Matrix (Fin n) (Fin 5) ℝ) : Prop :=
  ∀ i j, HasDerivAt (fun t => modelRange (sv i) (Function.update x j t)) (H i j) (x j)

/-- Weighted sum of squares minimised by the estimate: distance of `x` to the prediction `x₀` with
covariance `P`, and residuals of the linearised observations `v` (observed minus modelled at `x₀`) with
variances `r`. -/
noncomputable def lsq {n : ℕ} (P : Matrix (Fin 5) (Fin 5) ℝ) (x₀ : Fin 5 → ℝ) (H : Matrix (Fin n) (Fin 5) ℝ) (v r : Fin n → ℝ)
    (x : Fin 5 → ℝ) : ℝ :=
  quad P⁻¹ (x - x₀) + ∑ i, (v i - ∑ j, H i j * (x j - x₀ j)) ^ 2 / r i

end Ggnss
