import Verif.Spec.Orbit
import Verif.Model.Fp
/-!
# Specification: accuracy of broadcast orbits and clocks in double precision
-/
namespace Ggnss

/-- Elements in the ranges of the interface documents of GPS, Galileo and BeiDou (with margin: √A of medium and
geosynchronous orbits, eccentricities up to 1/4, angles up to 4 rad, corrections of the angles up to 1e-3 rad and of the
radius up to 4096 m). -/
structure Elements.Sane (el : Elements) : Prop where
  sqrtA_lo : 5000 ≤ el.sqrtA
  sqrtA_hi : el.sqrtA ≤ 6500
  e_lo : 0 ≤ el.e
  e_hi : el.e ≤ 1 / 4
  m0 : |el.m0| ≤ 4
  omega0 : |el.omega0| ≤ 4
  omega : |el.omega| ≤ 4
  i0 : |el.i0| ≤ 4
  deltaN : |el.deltaN| ≤ 9e-7
  omegaDot : |el.omegaDot| ≤ 1e-6
  idot : |el.idot| ≤ 1e-6
  cuc : |el.cuc| ≤ 1e-3
  cus : |el.cus| ≤ 1e-3
  cic : |el.cic| ≤ 1e-3
  cis : |el.cis| ≤ 1e-3
  crc : |el.crc| ≤ 4096
  crs : |el.crs| ≤ 4096
  toeSow : |el.toeSow| ≤ 604800

/-- Clock coefficients in the ranges of the interface documents (with margin). -/
structure Elements.SaneClock (el : Elements) : Prop where
  a0 : |el.a0| ≤ 1 / 2
  a1 : |el.a1| ≤ 1e-6
  a2 : |el.a2| ≤ 1e-12

/-- The query is an epoch whose seconds of the day are a double, and the reference a whole second of a day, at most
half a week away. -/
structure HalfWeek (t : Epoch) (r : DateTime) : Prop where
  dbl : IsDouble t.sec
  lo : 0 ≤ t.sec
  hi : t.sec ≤ 86400
  ref_lo : 0 ≤ r.sec
  ref_hi : r.sec ≤ 86400
  near : |elapsed t r| ≤ 302400

/-- Gravitational constant, rotation of the Earth and clock constant F of a system with Keplerian elements: IS-GPS-200,
Galileo OS SIS ICD, BeiDou ICD (F = -2 √μ / c²). -/
noncomputable def icdConst : SatSys → Option (ℝ × ℝ × ℝ)
  | .gps => some (3.986005e14, 7.2921151467e-5, -4.442807633e-10)
  | .galileo => some (3.986004418e14, 7.2921151467e-5, -4.442807309e-10)
  | .beidou => some (3.986004418e14, 7.2921150e-5, -2 * Real.sqrt 3.986004418e14 / 299792458 ^ 2)
  | _ => none

/-- The state and clock returned are those of the interface document at the exact solution of Kepler's equation, up to a
tenth of a millimetre and 5e-16 s; the other numbers of the caller's array are left alone. -/
structure AccurateState (el : Elements) (mu omegaE fClock : ℝ) (toe toc : DateTime) (t : Epoch) (before after : Fin 6 → ℝ)
    (clock : ℝ) : Prop where
  pos : ∀ E v, SolvesKepler el.e (el.meanAnomaly mu (elapsed t toe)) E 0 → IsTrueAnomaly el.e E v →
    |after 0 - el.position omegaE (elapsed t toe) E v 0| ≤ 1e-4 ∧
    |after 1 - el.position omegaE (elapsed t toe) E v 1| ≤ 1e-4 ∧
    |after 2 - el.position omegaE (elapsed t toe) E v 2| ≤ 1e-4
  rest : after 3 = before 3 ∧ after 4 = before 4 ∧ after 5 = before 5
  clk : ∀ E, SolvesKepler el.e (el.meanAnomaly mu (elapsed t toc)) E 0 →
    |clock - el.clock fClock (elapsed t toc) E| ≤ 5e-16

end Ggnss
