import Verif.Model.Orbit
import Verif.Model.Fp
/-!
# The orbit evaluation as the machine carries it out: `src/navrnx.hpp` in double precision

Every arithmetic operation is followed by a rounding, in the order of the source (x86-64, no fused
multiply-add).  The numbers of the record are the decimals of the file rounded by `strtod`; the seconds of the
day of the caller's epoch are a double; those of the references are whole.
-/
namespace Ggnss

/-- `data__[i]`: the decimal of the file, rounded (`strtod` rounds to nearest). -/
noncomputable def NavFrame.dF (F : Fp) (f : NavFrame) (i : Nat) : ℝ := F.rnd (f.d i)

/-- satsys.hpp:94-100 as doubles -/
noncomputable def gpsConstF (F : Fp) : KeplerConst := ⟨F.rnd 3.986005e14, F.rnd 7.2921151467e-5, F.rnd (-4.442807633e-10)⟩
/-- satsys.hpp:133-139 as doubles -/
noncomputable def galConstF (F : Fp) : KeplerConst := ⟨F.rnd 3.986004418e14, F.rnd 7.2921151467e-5, F.rnd (-4.442807309e-10)⟩
/-- satsys.hpp:190-205 as doubles -/
noncomputable def bdsConstF (F : Fp) : KeplerConst :=
  ⟨F.rnd 3.986004418e14, F.rnd 7.2921150e-5,
    F.rnd (F.rnd (-2 * F.rnd (Real.sqrt (F.rnd 3.986004418e14))) / F.rnd (F.rnd 2.99792458e8 * F.rnd 2.99792458e8))⟩

/-- `ref2toe` — navrnx.hpp:121-129. -/
noncomputable def ref2toeF (F : Fp) (f : NavFrame) (t : Epoch) : ℝ :=
  let mjdDiff := t.mjd - f.toe.mjd
  if mjdDiff ≠ 0 then F.rnd (t.sec + F.rnd (86400 * (mjdDiff : ℝ))) else t.sec

/-- `ref2toc` — navrnx.hpp:134-142. -/
noncomputable def ref2tocF (F : Fp) (f : NavFrame) (t : Epoch) : ℝ :=
  let mjdDiff := t.mjd - f.toc.mjd
  if mjdDiff ≠ 0 then F.rnd (t.sec + F.rnd (86400 * (mjdDiff : ℝ))) else t.sec

/-- The loop of navrnx.hpp:298-301 (and 419-422) in double precision: `E` and `i` at its end. -/
noncomputable def keplerLoopF (F : Fp) (e Mk : ℝ) (i : Nat) (E Ek : ℝ) : ℝ × Nat :=
  if |F.rnd (E - Ek)| > F.rnd KEPLER_LIMIT ∧ i < 1001 then keplerLoopF F e Mk (i + 1) (F.rnd (F.rnd (F.sin E * e) + Mk)) E
  else (E, i)
termination_by 1001 - i

/-- Mean anomaly `Mk` of navrnx.hpp:278-291 and 411-415 in double precision. -/
noncomputable def meanAnomalyF (F : Fp) (k : KeplerConst) (f : NavFrame) (dt : ℝ) : ℝ :=
  let A := F.rnd (f.dF F 10 * f.dF F 10)
  let n0 := F.rnd (Real.sqrt (F.rnd (k.mi / F.rnd (F.rnd (A * A) * A))))
  let n := F.rnd (n0 + f.dF F 5)
  F.rnd (f.dF F 6 + F.rnd (n * dt))

/-- `vk`, the true anomaly — navrnx.hpp:310-315. -/
noncomputable def trueAnomalyF (F : Fp) (e E : ℝ) : ℝ :=
  let sinE := F.sin E
  let cosE := F.cos E
  let ecosEm1 := F.rnd (1 - F.rnd (e * cosE))
  let vkAr := F.rnd (F.rnd (F.rnd (Real.sqrt (F.rnd (1 - F.rnd (e * e)))) * sinE) / ecosEm1)
  let vkPr := F.rnd (F.rnd (cosE - e) / ecosEm1)
  F.atan2 vkAr vkPr

/-- `a * sin2F + b * cos2F` as in navrnx.hpp:321-327. -/
noncomputable def harmonicF (F : Fp) (a b s c : ℝ) : ℝ := F.rnd (F.rnd (a * s) + F.rnd (b * c))

/-- `kepler2state` from line 304 on — navrnx.hpp:304-347: the state vector for eccentric anomaly `E`
and `tk`. -/
noncomputable def keplerPosF (F : Fp) (k : KeplerConst) (f : NavFrame) (tk E : ℝ) : Fin 3 → ℝ :=
  let d := f.dF F
  let A := F.rnd (d 10 * d 10)
  let e := d 8
  let cosE := F.cos E
  let vk := trueAnomalyF F e E
  let Fk := F.rnd (vk + d 17)
  let sin2F := F.sin (F.rnd (2 * Fk))
  let cos2F := F.cos (F.rnd (2 * Fk))
  let duk := harmonicF F (d 9) (d 7) sin2F cos2F
  let drk := harmonicF F (d 4) (d 16) sin2F cos2F
  let dik := harmonicF F (d 14) (d 12) sin2F cos2F
  let uk := F.rnd (Fk + duk)
  let rk := F.rnd (F.rnd (A * F.rnd (1 - F.rnd (e * cosE))) + drk)
  let ik := F.rnd (F.rnd (d 15 + dik) + F.rnd (d 19 * tk))
  let xk := F.rnd (rk * F.cos uk)
  let yk := F.rnd (rk * F.sin uk)
  let omegaK := F.rnd (F.rnd (d 13 + F.rnd (F.rnd (d 18 - k.omegae) * tk)) - F.rnd (k.omegae * d 11))
  let sinOk := F.sin omegaK
  let cosOk := F.cos omegaK
  let cosik := F.cos ik
  ![F.rnd (F.rnd (xk * cosOk) - F.rnd (F.rnd (yk * sinOk) * cosik)),
    F.rnd (F.rnd (xk * sinOk) + F.rnd (F.rnd (yk * cosOk) * cosik)),
    F.rnd (yk * F.sin ik)]

/-- `kepler2state<S>` — navrnx.hpp:267-351 (`DEBUG` not defined); `o` is what the caller's variables
hold before. -/
noncomputable def kepler2stateF (F : Fp) (k : KeplerConst) (f : NavFrame) (tSec : ℝ) (o : KeplerOut) : KeplerOut :=
  let tk := F.rnd (tSec - f.toeSec)
  let Mk := meanAnomalyF F k f tk
  let r := keplerLoopF F (f.dF F 8) Mk 0 Mk 0
  if r.2 ≥ 1000 then { o with status := 1 }
  else ⟨0, keplerPosF F k f tk r.1, r.1⟩

/-- `sv_clock<S>` — navrnx.hpp:387-439: (status, `dt_sv`), with no eccentric anomaly given; `c0` is the
caller's value before. -/
noncomputable def svClockF (F : Fp) (k : KeplerConst) (f : NavFrame) (tSec : ℝ) (c0 : ℝ) : Int × ℝ :=
  let d := f.dF F
  let dt := F.rnd (tSec - f.tocSec)
  let Mk := meanAnomalyF F k f dt
  let r := keplerLoopF F (d 8) Mk 0 Mk 0
  if r.2 ≥ 1000 then (1, c0)
  else
    let Dtr := F.rnd (k.fClock * F.rnd (F.rnd (d 8 * d 10) * F.sin r.1))
    let Dtsv := F.rnd (F.rnd (d 0 + F.rnd (d 1 * dt)) + F.rnd (F.rnd (d 2 * dt) * dt))
    (0, F.rnd (Dtsv + Dtr))

/-- `gps_stateNclock`, `gal_stateNclock`, `bds_stateNclock` — navrnx.hpp:144-184. -/
noncomputable def keplerStateNclockF (F : Fp) (k : KeplerConst) (f : NavFrame) (t : Epoch) (o : StateClock) : StateClock :=
  let r := kepler2stateF F k f (ref2toeF F f t) ⟨0, ![o.state 0, o.state 1, o.state 2], 0⟩
  if r.status ≠ 0 then { o with status := r.status }
  else
    let c := svClockF F k f (ref2tocF F f t) o.clock
    ⟨c.1, putPos o.state r.state, c.2⟩

end Ggnss
