import Mathlib.LinearAlgebra.Matrix.NonsingularInverse
import Mathlib.Analysis.SpecialFunctions.Sqrt
/-!
# Model of `src/gauss_newton.hpp`: `class Kalman<5>`

Exact real arithmetic in the place of doubles.  Where the code would compute infinities or NaNs (a
division by a zero distance, the inverse of a singular matrix) the model gives `none`.  The vectors of
observations and satellites have (at least) `nsats` elements: they are functions on `Fin n`.  Only
`Params = 5` compiles to something meaningful (the code addresses element 4).
-/
namespace Ggnss
open Matrix

/-- The members of `Kalman<5>` — gauss_newton.hpp:206-214: `state_`, `P_`, `F_`, `coef`, `update_idx`
(the count does not overflow in the model).  `H_` is recomputed by every update. -/
structure Kalman where
  state : Fin 5 → ℝ
  P : Matrix (Fin 5) (Fin 5) ℝ
  F : Matrix (Fin 5) (Fin 5) ℝ
  coef : ℝ
  idx : ℕ

/-- `initialize_F(dt)` — gauss_newton.hpp:92-104. -/
def kalF (dt : ℝ) : Matrix (Fin 5) (Fin 5) ℝ := fun i j => if i = j then 1 else if i = 3 ∧ j = 4 then dt else 0

/-- The constructor — gauss_newton.hpp:15-22.  `P0` is the indeterminate content of `P_`. -/
def kalNew (x : Fin 5 → ℝ) (P0 : Matrix (Fin 5) (Fin 5) ℝ) (c : ℝ) : Kalman := ⟨x, P0, kalF 1, c, 0⟩

/-- `initialize_P()` — gauss_newton.hpp:111-131. -/
def kalP0 : Matrix (Fin 5) (Fin 5) ℝ := fun i j => if i = j then (if i = 4 then 30 else 50 * 50) else 0

/-- The square root of gauss_newton.hpp:144-145, 175-176. -/
noncomputable def kalDist (x : Fin 5 → ℝ) (sv : Fin 4 → ℝ) : ℝ :=
  √((sv 0 - x 0) * (sv 0 - x 0) + (sv 1 - x 1) * (sv 1 - x 1) + (sv 2 - x 2) * (sv 2 - x 2))

/-- `compute_pseudorange_vector()` — gauss_newton.hpp:133-149. -/
noncomputable def kalPredict {n : ℕ} (x : Fin 5 → ℝ) (sv : Fin n → Fin 4 → ℝ) : Fin n → ℝ :=
  fun i => kalDist x (sv i) + x 3

/-- `measurement_vector()` — gauss_newton.hpp:151-162. -/
def kalMeasured {n : ℕ} (coef : ℝ) (obs : Fin n → ℝ) (sv : Fin n → Fin 4 → ℝ) : Fin n → ℝ :=
  fun i => obs i + sv i 3 * 299792458 * coef

/-- `evaluate_jacobian()` — gauss_newton.hpp:166-184. -/
noncomputable def kalJacobian {n : ℕ} (coef : ℝ) (x : Fin 5 → ℝ) (sv : Fin n → Fin 4 → ℝ) : Matrix (Fin n) (Fin 5) ℝ :=
  fun i j =>
    if j = 0 then -coef * (sv i 0 - x 0) / kalDist x (sv i)
    else if j = 1 then -coef * (sv i 1 - x 1) / kalDist x (sv i)
    else if j = 2 then -coef * (sv i 2 - x 2) / kalDist x (sv i)
    else if j = 3 then 1 * coef
    else 0 * coef

/-- `P_(3,3) += ...` — gauss_newton.hpp:63-66. -/
def kalAddQ (P : Matrix (Fin 5) (Fin 5) ℝ) : Matrix (Fin 5) (Fin 5) ℝ := fun i j =>
  if i = 3 ∧ j = 3 then P i j + 0.0114 else if i = 3 ∧ j = 4 then P i j + 0.0019
  else if i = 4 ∧ j = 3 then P i j + 0.0019 else if i = 4 ∧ j = 4 then P i j + 0.0039 else P i j

/-- `S(i,i) += 100 + (*w)[i]`, if weights are given — gauss_newton.hpp:71-73. -/
def kalAddR {n : ℕ} (w : Option (Fin n → ℝ)) (S : Matrix (Fin n) (Fin n) ℝ) : Matrix (Fin n) (Fin n) ℝ :=
  match w with
  | none => S
  | some w => fun i j => if i = j then S i j + (100 + w i) else S i j

/-- The arguments of one `update` call. -/
structure KalInput where
  n : ℕ
  obs : Fin n → ℝ
  sv : Fin n → Fin 4 → ℝ
  dt : ℝ
  w : Option (Fin n → ℝ)

open Classical in
/-- `update(nsats, obs, sv, dt, w)` — gauss_newton.hpp:29-89. -/
noncomputable def kalUpdate (k : Kalman) (u : KalInput) : Option Kalman :=
  let F : Matrix (Fin 5) (Fin 5) ℝ := fun i j => if i = 3 ∧ j = 4 then u.dt else k.F i j
  let x := F *ᵥ k.state
  let p := kalPredict x u.sv
  let v := fun i => kalMeasured k.coef u.obs u.sv i - p i
  let H := kalJacobian k.coef x u.sv
  let P := if k.idx = 0 then kalP0 else k.P
  let P := kalAddQ (F * P * Fᵀ)
  let S := kalAddR u.w (H * P * Hᵀ)
  let W := P * Hᵀ * S⁻¹
  if (∃ i, kalDist x (u.sv i) = 0) ∨ S.det = 0 then none
  else some ⟨x + W *ᵥ v, P - W * S * Wᵀ, F, k.coef, k.idx + 1⟩

/-- Any number of updates one after the other. -/
noncomputable def kalRun : Kalman → List KalInput → Option Kalman
  | k, [] => some k
  | k, u :: us => (kalUpdate k u).bind fun k => kalRun k us

end Ggnss
