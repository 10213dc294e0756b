import Verif.Spec.NavFile
import Verif.Model.Orbit
import Mathlib.LinearAlgebra.Matrix.Notation
/-!
# Specification of broadcast orbits and clocks

From the interface documents (IS-GPS-200 table 20-IV, GLONASS ICD appendix J.2), in terms of the named
quantities of a navigation message and of where RINEX 3 puts them (`specIndex j k`: number `k` of
line `j` of the record).  Nothing here refers to the functions of the model; only the types
`NavFrame`, `Epoch` and `KeplerConst` are shared.
-/
namespace Ggnss

/-- Seconds since MJD 0 of an epoch. -/
noncomputable def Epoch.secs (t : Epoch) : ℝ := 86400 * (t.mjd : ℝ) + t.sec

/-- Seconds from the reference `r` to the epoch `t`. -/
noncomputable def elapsed (t : Epoch) (r : DateTime) : ℝ := t.secs - (r.total : ℝ)

/-- Number `k` of line `j` of the record. -/
noncomputable def NavFrame.at (f : NavFrame) (j k : Nat) : ℝ := ((f.data.getD (specIndex j k) 0 : ℚ) : ℝ)

/-- Keplerian elements and corrections of a message. -/
structure Elements where
  crs : ℝ
  deltaN : ℝ
  m0 : ℝ
  cuc : ℝ
  e : ℝ
  cus : ℝ
  sqrtA : ℝ
  toeSow : ℝ
  cic : ℝ
  omega0 : ℝ
  cis : ℝ
  i0 : ℝ
  crc : ℝ
  omega : ℝ
  omegaDot : ℝ
  idot : ℝ
  a0 : ℝ
  a1 : ℝ
  a2 : ℝ

/-- RINEX 3.04 tables A5, A8, A14: positions of the elements. -/
noncomputable def elements (f : NavFrame) : Elements where
  a0 := f.at 0 0
  a1 := f.at 0 1
  a2 := f.at 0 2
  crs := f.at 1 1
  deltaN := f.at 1 2
  m0 := f.at 1 3
  cuc := f.at 2 0
  e := f.at 2 1
  cus := f.at 2 2
  sqrtA := f.at 2 3
  toeSow := f.at 3 0
  cic := f.at 3 1
  omega0 := f.at 3 2
  cis := f.at 3 3
  i0 := f.at 4 0
  crc := f.at 4 1
  omega := f.at 4 2
  omegaDot := f.at 4 3
  idot := f.at 5 0

/-- Mean anomaly `tk` seconds after the time of ephemeris: M0 + (√(μ/A³) + Δn) tk, A = (√A)². -/
noncomputable def Elements.meanAnomaly (el : Elements) (mu tk : ℝ) : ℝ :=
  el.m0 + (Real.sqrt (mu / (el.sqrtA ^ 2) ^ 3) + el.deltaN) * tk

/-- `E` solves Kepler's equation for mean anomaly `M` up to `eps`. -/
def SolvesKepler (e M E eps : ℝ) : Prop := |E - e * Real.sin E - M| ≤ eps

/-- `v` is the true anomaly belonging to the eccentric anomaly `E`. -/
def IsTrueAnomaly (e E v : ℝ) : Prop :=
  Real.cos v = (Real.cos E - e) / (1 - e * Real.cos E) ∧
  Real.sin v = Real.sqrt (1 - e ^ 2) * Real.sin E / (1 - e * Real.cos E)

/-- Rotation about the third axis. -/
noncomputable def rotZ (a : ℝ) : Matrix (Fin 3) (Fin 3) ℝ :=
  !![Real.cos a, -Real.sin a, 0; Real.sin a, Real.cos a, 0; 0, 0, 1]

/-- Rotation about the first axis. -/
noncomputable def rotX (a : ℝ) : Matrix (Fin 3) (Fin 3) ℝ :=
  !![1, 0, 0; 0, Real.cos a, -Real.sin a; 0, Real.sin a, Real.cos a]

/-- Orbit radius for true anomaly `v`: A(1 - e cos E) + Crs sin 2φ + Crc cos 2φ, φ = v + ω. -/
noncomputable def Elements.radius (el : Elements) (E v : ℝ) : ℝ :=
  el.sqrtA ^ 2 * (1 - el.e * Real.cos E) + el.crs * Real.sin (2 * (v + el.omega)) +
    el.crc * Real.cos (2 * (v + el.omega))

/-- Corrected argument of latitude, inclination and longitude of the ascending node. -/
noncomputable def Elements.argLat (el : Elements) (v : ℝ) : ℝ :=
  v + el.omega + el.cus * Real.sin (2 * (v + el.omega)) + el.cuc * Real.cos (2 * (v + el.omega))
noncomputable def Elements.incl (el : Elements) (tk v : ℝ) : ℝ :=
  el.i0 + el.cis * Real.sin (2 * (v + el.omega)) + el.cic * Real.cos (2 * (v + el.omega)) + el.idot * tk
noncomputable def Elements.node (el : Elements) (omegaE tk : ℝ) : ℝ :=
  el.omega0 + (el.omegaDot - omegaE) * tk - omegaE * el.toeSow

/-- The Earth-fixed position: the point at the orbit radius and argument of latitude in the orbital
plane, turned by the inclination and the node. -/
noncomputable def Elements.position (el : Elements) (omegaE tk E v : ℝ) : Fin 3 → ℝ :=
  (rotZ (el.node omegaE tk)).mulVec ((rotX (el.incl tk v)).mulVec
    ![el.radius E v * Real.cos (el.argLat v), el.radius E v * Real.sin (el.argLat v), 0])

/-- Broadcast clock polynomial plus relativity. -/
noncomputable def Elements.clock (el : Elements) (fClock dt E : ℝ) : ℝ :=
  el.a0 + el.a1 * dt + el.a2 * dt ^ 2 + fClock * el.e * el.sqrtA * Real.sin E

/-- GLONASS ICD, J.2.1: the time derivative of (x, y, z, Vx, Vy, Vz) under central gravity, the
flattening term, Earth rotation and the broadcast lunisolar acceleration. -/
noncomputable def gloField (mu j2 ae w : ℝ) (acc : Fin 3 → ℝ) (s : Fin 6 → ℝ) : Fin 6 → ℝ :=
  let x := s 0
  let y := s 1
  let z := s 2
  let r := Real.sqrt (x ^ 2 + y ^ 2 + z ^ 2)
  ![s 3, s 4, s 5,
    -mu / r ^ 3 * x - 3 / 2 * j2 * (mu * ae ^ 2 / r ^ 5) * x * (1 - 5 * z ^ 2 / r ^ 2) + w ^ 2 * x + 2 * w * s 4 + acc 0,
    -mu / r ^ 3 * y - 3 / 2 * j2 * (mu * ae ^ 2 / r ^ 5) * y * (1 - 5 * z ^ 2 / r ^ 2) + w ^ 2 * y - 2 * w * s 3 + acc 1,
    -mu / r ^ 3 * z - 3 / 2 * j2 * (mu * ae ^ 2 / r ^ 5) * z * (3 - 5 * z ^ 2 / r ^ 2) + acc 2]

/-- One step of the classical fourth order Runge-Kutta method for y' = F(y). -/
noncomputable def rk4 (F : (Fin 6 → ℝ) → Fin 6 → ℝ) (h : ℝ) (y : Fin 6 → ℝ) : Fin 6 → ℝ :=
  let k1 := F y
  let k2 := F (y + (h / 2) • k1)
  let k3 := F (y + (h / 2) • k2)
  let k4 := F (y + h • k3)
  y + (h / 6) • (k1 + (2 : ℝ) • k2 + (2 : ℝ) • k3 + k4)

/-- The GLONASS field with the constants of PZ-90 (398600441.8e6 m³/s², 1082625.75e-9, 6378136 m,
7.2921151467e-5 rad/s) and the accelerations of the record (third numbers of lines 1, 2, 3). -/
noncomputable def gloFieldOf (f : NavFrame) : (Fin 6 → ℝ) → Fin 6 → ℝ :=
  gloField 398600441.8e6 1082625.75e-9 6378136 7.2921151467e-5 ![f.at 1 2, f.at 2 2, f.at 3 2]

/-- Position (first numbers of lines 1, 2, 3) and velocity (second numbers) of the record. -/
noncomputable def gloStart (f : NavFrame) : Fin 6 → ℝ :=
  ![f.at 1 0, f.at 2 0, f.at 3 0, f.at 1 1, f.at 2 1, f.at 3 1]

end Ggnss
