import Verif.Model.Nav
import Mathlib.Analysis.SpecialFunctions.Trigonometric.Basic
import Mathlib.Analysis.SpecialFunctions.Complex.Arg
import Mathlib.Analysis.SpecialFunctions.Pow.Real
import Mathlib.Data.Fin.VecNotation
/-!
# Model of the orbit and clock evaluation: `src/navrnx.hpp`, `src/glonav.cpp`, `src/gpsnav.cpp`

Doubles are modelled by the real numbers: no rounding, no overflow, no NaN.  `std::atan2(y, x)` is the
argument of the complex number `x + iy`.
-/
namespace Ggnss

/-- An epoch `ngpt::datetime<T>`: day and seconds of day (`sec().to_fractional_seconds()`). -/
structure Epoch where
  mjd : Int
  sec : ℝ

/-- `data__[i]` as a double. -/
noncomputable def NavFrame.d (f : NavFrame) (i : Nat) : ℝ := ((f.data.getD i 0 : ℚ) : ℝ)

/-- `toe__.sec().to_fractional_seconds()` and the same for `toc__`. -/
noncomputable def NavFrame.toeSec (f : NavFrame) : ℝ := (f.toe.sec : ℝ)
noncomputable def NavFrame.tocSec (f : NavFrame) : ℝ := (f.toc.sec : ℝ)

/-- `ref2toe` — navrnx.hpp:121-129. -/
noncomputable def ref2toe (f : NavFrame) (t : Epoch) : ℝ :=
  let mjdDiff := t.mjd - f.toe.mjd
  if mjdDiff ≠ 0 then t.sec + 86400 * (mjdDiff : ℝ) else t.sec

/-- `ref2toc` — navrnx.hpp:134-142. -/
noncomputable def ref2toc (f : NavFrame) (t : Epoch) : ℝ :=
  let mjdDiff := t.mjd - f.toc.mjd
  if mjdDiff ≠ 0 then t.sec + 86400 * (mjdDiff : ℝ) else t.sec

/-- The constants of `satellite_system_traits<S>` used by the templates — satsys.hpp:94-100, 133-139,
190-205. -/
structure KeplerConst where
  mi : ℝ
  omegae : ℝ
  fClock : ℝ

/-- satsys.hpp:94-100 -/
noncomputable def gpsConst : KeplerConst := ⟨3.986005e14, 7.2921151467e-5, -4.442807633e-10⟩
/-- satsys.hpp:133-139 -/
noncomputable def galConst : KeplerConst := ⟨3.986004418e14, 7.2921151467e-5, -4.442807309e-10⟩
/-- satsys.hpp:190-205 -/
noncomputable def bdsConst : KeplerConst :=
  ⟨3.986004418e14, 7.2921150e-5, -2 * Real.sqrt 3.986004418e14 / (2.99792458e8 * 2.99792458e8)⟩

/-- `LIMIT` — navrnx.hpp:275, 392. -/
noncomputable def KEPLER_LIMIT : ℝ := 1e-14

/-- The loop of navrnx.hpp:298-301 (and 419-422): `E` and `i` at its end. -/
noncomputable def keplerLoop (e Mk : ℝ) (i : Nat) (E Ek : ℝ) : ℝ × Nat :=
  if |E - Ek| > KEPLER_LIMIT ∧ i < 1001 then keplerLoop e Mk (i + 1) (Real.sin E * e + Mk) E
  else (E, i)
termination_by 1001 - i

/-- What `kepler2state` leaves behind: status, the caller's `state[0..2]` and `*Ek_ptr`. -/
structure KeplerOut where
  status : Int
  state : Fin 3 → ℝ
  Ek : ℝ

/-- Mean anomaly `Mk` of navrnx.hpp:278-291 and 411-415, `dt` seconds after the reference. -/
noncomputable def meanAnomaly (k : KeplerConst) (f : NavFrame) (dt : ℝ) : ℝ :=
  let A := f.d 10 * f.d 10
  let n0 := Real.sqrt (k.mi / (A * A * A))
  f.d 6 + (n0 + f.d 5) * dt

/-- `kepler2state` from line 304 on — navrnx.hpp:304-347: the state vector for eccentric anomaly `E`
and `tk`. -/
noncomputable def keplerPos (k : KeplerConst) (f : NavFrame) (tk E : ℝ) : Fin 3 → ℝ :=
  let A := f.d 10 * f.d 10
  let e := f.d 8
  let sinE := Real.sin E
  let cosE := Real.cos E
  let ecosEm1 := 1 - e * cosE
  let vkAr := (Real.sqrt (1 - e * e) * sinE) / ecosEm1
  let vkPr := (cosE - e) / ecosEm1
  let vk := Complex.arg ⟨vkPr, vkAr⟩
  let Fk := vk + f.d 17
  let sin2F := Real.sin (2 * Fk)
  let cos2F := Real.cos (2 * Fk)
  let duk := f.d 9 * sin2F + f.d 7 * cos2F
  let drk := f.d 4 * sin2F + f.d 16 * cos2F
  let dik := f.d 14 * sin2F + f.d 12 * cos2F
  let uk := Fk + duk
  let rk := A * (1 - e * cosE) + drk
  let ik := f.d 15 + dik + f.d 19 * tk
  let xk := rk * Real.cos uk
  let yk := rk * Real.sin uk
  let omegaK := f.d 13 + (f.d 18 - k.omegae) * tk - k.omegae * f.d 11
  let sinOk := Real.sin omegaK
  let cosOk := Real.cos omegaK
  let cosik := Real.cos ik
  ![xk * cosOk - yk * sinOk * cosik, xk * sinOk + yk * cosOk * cosik, yk * Real.sin ik]

/-- `kepler2state<S>` — navrnx.hpp:267-351 (`DEBUG` not defined); `o` is what the caller's variables
hold before. -/
noncomputable def kepler2state (k : KeplerConst) (f : NavFrame) (tSec : ℝ) (o : KeplerOut) : KeplerOut :=
  let tk := tSec - f.toeSec
  let Mk := meanAnomaly k f tk
  let r := keplerLoop (f.d 8) Mk 0 Mk 0
  if r.2 ≥ 1000 then { o with status := 1 }
  else ⟨0, keplerPos k f tk r.1, r.1⟩

/-- `sv_clock<S>` — navrnx.hpp:387-439: (status, `dt_sv`); `Ein` is the optional eccentric anomaly,
`c0` the caller's value before. -/
noncomputable def svClock (k : KeplerConst) (f : NavFrame) (tSec : ℝ) (Ein : Option ℝ) (c0 : ℝ) : Int × ℝ :=
  let dt := tSec - f.tocSec
  let Mk := meanAnomaly k f dt
  let r := keplerLoop (f.d 8) Mk 0 Mk 0
  let fin := fun Ek : ℝ =>
    ((0 : Int), f.d 0 + f.d 1 * dt + (f.d 2 * dt) * dt + k.fClock * (f.d 8 * f.d 10 * Real.sin Ek))
  match Ein with
  | some E => fin E
  | none => if r.2 ≥ 1000 then (1, c0) else fin r.1

/-- `std::round`: to the nearest integer, halves away from zero. -/
noncomputable def cround (x : ℝ) : ℝ := if 0 ≤ x then (⌊x + 1 / 2⌋ : ℝ) else -(⌊-x + 1 / 2⌋ : ℝ)

/-- `glo_clock` — glonav.cpp:59-65. -/
noncomputable def gloClock (f : NavFrame) (tMt : ℝ) : ℝ :=
  let deltat := tMt - f.toeSec - cround ((tMt - f.toeSec) / 86400) * 86400
  f.d 0 + f.d 1 * deltat

/-- Constants of glonav.cpp:44-57. -/
noncomputable def GM_GLO : ℝ := 398600441.8e06
noncomputable def AE_GLO : ℝ := 6378136
noncomputable def J2_GLO : ℝ := 1082625.75e-9
noncomputable def OMEGA_GLO : ℝ := 7.2921151467e-5
noncomputable def H_STEP : ℝ := 60

/-- `glo_state_deriv` — glonav.cpp:116-133. -/
noncomputable def gloStateDeriv (x : Fin 6 → ℝ) (acc : Fin 3 → ℝ) : Fin 6 → ℝ :=
  let r2 := x 0 * x 0 + x 1 * x 1 + x 2 * x 2
  let r3 := r2 * Real.sqrt r2
  let omg2 := OMEGA_GLO * OMEGA_GLO
  let a := 1.5 * J2_GLO * GM_GLO * (AE_GLO * AE_GLO) / r2 / r3
  let b := 5 * x 2 * x 2 / r2
  let c := -GM_GLO / r3 - a * (1 - b)
  ![x 3, x 4, x 5,
    (c + omg2) * x 0 + 2 * OMEGA_GLO * x 4 + acc 0,
    (c + omg2) * x 1 - 2 * OMEGA_GLO * x 3 + acc 1,
    (c - 2 * a) * x 2 + acc 2]

/-- The body of the integration loop — glonav.cpp:324-340: the new `yti`. -/
noncomputable def gloStep (acc : Fin 3 → ℝ) (h : ℝ) (yti : Fin 6 → ℝ) : Fin 6 → ℝ :=
  let k1 := gloStateDeriv yti acc
  let k2 := gloStateDeriv (fun i => yti i + (h / 2) * k1 i) acc
  let k3 := gloStateDeriv (fun i => yti i + (h / 2) * k2 i) acc
  let k4 := gloStateDeriv (fun i => yti i + h * k3 i) acc
  fun i => yti i + (h / 6) * (k1 i + 2 * k2 i + 2 * k3 i + k4 i)

/-- The loop of glonav.cpp:323-343: (`yti`, `ti`, `max_it`) at its end.  The conditional operator binds
weaker than `&&`: the iteration counter is only consulted (and incremented) when `h ≤ 0`. -/
noncomputable def gloLoop (acc : Fin 3 → ℝ) (h tLim : ℝ) : (fuel : Nat) → (yti : Fin 6 → ℝ) → (ti : ℝ) →
    (maxIt : Nat) → Res ((Fin 6 → ℝ) × ℝ × Nat)
  | 0, _, _, _ => .diverge
  | fuel + 1, yti, ti, maxIt =>
      if h > 0 then
        if ti < tLim then gloLoop acc h tLim fuel (gloStep acc h yti) (ti + h) maxIt else .ok (yti, ti, maxIt)
      else if ti > tLim then
        if maxIt + 1 < 1500 then gloLoop acc h tLim fuel (gloStep acc h yti) (ti + h) (maxIt + 1)
        else .ok (yti, ti, maxIt + 1)
      else .ok (yti, ti, maxIt)

/-- Initial state and accelerations — glonav.cpp:297-306. -/
noncomputable def gloX0 (f : NavFrame) : Fin 6 → ℝ := ![f.d 3, f.d 7, f.d 11, f.d 4, f.d 8, f.d 12]
noncomputable def gloAcc (f : NavFrame) : Fin 3 → ℝ := ![f.d 5, f.d 9, f.d 13]

/-- `glo_ecef` — glonav.cpp:284-354: (status, the caller's `state[0..5]`). -/
noncomputable def gloEcef (f : NavFrame) (fuel : Nat) (tSec : ℝ) (state0 : Fin 6 → ℝ) :
    Res (Int × (Fin 6 → ℝ)) :=
  let toeSec := f.toeSec
  let status : Int := if |tSec - toeSec| > 15 * 60 then -1 else 0
  if toeSec = tSec then .ok (status, gloX0 f)
  else
    let h := if tSec > toeSec then H_STEP else -H_STEP
    let tLim := tSec - cround ((tSec - toeSec) / 86400) * 86400
    do
      let r ← gloLoop (gloAcc f) h tLim fuel (gloX0 f) toeSec 0
      if r.2.2 ≥ 1500 then pure (10, state0) else pure (status, r.1)

/-- What `stateNclock` leaves behind: the status, the caller's array `state` (six elements; the Kepler
systems write the first three) and `clock`. -/
structure StateClock where
  status : Int
  state : Fin 6 → ℝ
  clock : ℝ

/-- First three elements replaced. -/
def putPos (s : Fin 6 → ℝ) (p : Fin 3 → ℝ) : Fin 6 → ℝ := ![p 0, p 1, p 2, s 3, s 4, s 5]

/-- `gps_stateNclock`, `gal_stateNclock`, `bds_stateNclock` — navrnx.hpp:144-184 (identical but for the
system constants). -/
noncomputable def keplerStateNclock (k : KeplerConst) (f : NavFrame) (t : Epoch) (o : StateClock) : StateClock :=
  let r := kepler2state k f (ref2toe f t) ⟨0, ![o.state 0, o.state 1, o.state 2], 0⟩
  if r.status ≠ 0 then { o with status := r.status }
  else
    let c := svClock k f (ref2toc f t) none o.clock
    ⟨c.1, putPos o.state r.state, c.2⟩

/-- `glo_stateNclock` — navrnx.hpp:190-200. -/
noncomputable def gloStateNclock (f : NavFrame) (fuel : Nat) (t : Epoch) (o : StateClock) : Res StateClock := do
  let r ← gloEcef f fuel (ref2toe f t) o.state
  if r.1 ≠ 0 then pure ⟨r.1, r.2, o.clock⟩
  else pure ⟨0, r.2, gloClock f (ref2toe f t)⟩

/-- `stateNclock` — navrnx.hpp:50-73. -/
noncomputable def stateNclock (f : NavFrame) (fuel : Nat) (t : Epoch) (o : StateClock) : Res StateClock :=
  match f.sys with
  | .gps => .ok (keplerStateNclock gpsConst f t o)
  | .glonass => gloStateNclock f fuel t o
  | .galileo => .ok (keplerStateNclock galConst f t o)
  | .beidou => .ok (keplerStateNclock bdsConst f t o)
  | _ => .throw .runtime_error

/-- Largest finite `float`. -/
noncomputable def FLT_MAX : ℝ := (2 - 2 ^ (-23 : ℤ)) * 2 ^ 127

/-- `gps_ura` — gpsnav.cpp:232-249 (`float` modelled by the reals). -/
noncomputable def gpsUra (f : NavFrame) : ℝ :=
  let idx := f.d 23
  if idx ≤ 6 then cround ((2 : ℝ) ^ (1 + idx / 2) * 10) / 10
  else if idx < 15 then cround ((2 : ℝ) ^ (idx - 2) * 10) / 10
  else FLT_MAX

/-- `gal_sisa` — galnav.cpp:228-230. -/
noncomputable def galSisa (f : NavFrame) : ℝ := f.d 23

/-- `gal_iod_nav` — galnav.cpp:232-234. -/
def galIodNav (f : NavFrame) : Res Int := do castInt (← dataAt f.data 3)

end Ggnss
