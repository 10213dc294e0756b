import Verif.Spec.OrbitFp
/-!
# Specification: accuracy of GLONASS states and clocks in double precision
-/
namespace Ggnss

/-- A record of a GLONASS satellite: an orbit radius of at least 25000 km (the nominal one is 25510 km), coordinates of at
most 26000 km, velocities of at most 4 km/s, accelerations of the Sun and the Moon of at most 1e-7 km/s² and clock coefficients
(first two numbers of line 0) of at most 0.01 s and 1e-9, all with margin. -/
structure GloSane (f : NavFrame) : Prop where
  pos : ∀ i : Fin 6, i < 3 → |gloStart f i| ≤ 2.6e7
  far : 2.5e7 ≤ Real.sqrt (gloStart f 0 ^ 2 + gloStart f 1 ^ 2 + gloStart f 2 ^ 2)
  vel : ∀ i : Fin 6, 3 ≤ i → |gloStart f i| ≤ 4000
  acc : |f.at 1 2| ≤ 1e-4 ∧ |f.at 2 2| ≤ 1e-4 ∧ |f.at 3 2| ≤ 1e-4
  bias : |f.at 0 0| ≤ 1e-2
  drift : |f.at 0 1| ≤ 1e-9

/-- The query is an epoch whose seconds of the day are a double, and the time of ephemeris a whole second of a day at most
15 minutes away; if the two are on different days, the elapsed time is a whole number of minutes or differs from every whole
number of minutes by more than 1e-10 s (a tenth of a nanosecond: there the rounding of the seconds elapsed decides whether one
more step is taken). -/
structure QuarterHour (t : Epoch) (r : DateTime) : Prop where
  dbl : IsDouble t.sec
  lo : 0 ≤ t.sec
  hi : t.sec ≤ 86400
  ref_lo : 0 ≤ r.sec
  ref_hi : r.sec ≤ 86400
  near : |elapsed t r| ≤ 900
  edge : t.mjd = r.mjd ∨ ∀ n : ℤ, |elapsed t r - 60 * n| ≤ 1e-10 → elapsed t r = 60 * n

/-- State and clock returned: the state is the one reached by the exact Runge-Kutta steps of C27, to a hundredth of a
millimetre and 2e-8 m/s; the clock is the polynomial of the record to 2e-18 s. -/
structure AccurateGlo (f : NavFrame) (t : Epoch) (after : Fin 6 → ℝ) (clock : ℝ) : Prop where
  pos : ∀ i : Fin 6, i < 3 → |after i -
    (rk4 (gloFieldOf f) (if elapsed t f.toe > 0 then 60 else -60))^[⌈|elapsed t f.toe| / 60⌉₊] (gloStart f) i| ≤ 1e-5
  vel : ∀ i : Fin 6, 3 ≤ i → |after i -
    (rk4 (gloFieldOf f) (if elapsed t f.toe > 0 then 60 else -60))^[⌈|elapsed t f.toe| / 60⌉₊] (gloStart f) i| ≤ 2e-8
  clk : |clock - (f.at 0 0 + f.at 0 1 * elapsed t f.toe)| ≤ 2e-18

end Ggnss
