import Verif.Model.Pp
import Verif.Model.ObsRead
import Verif.Model.Orbit
import Verif.Model.Kalman
import Mathlib.Analysis.SpecialFunctions.Trigonometric.Inverse
import Mathlib.Analysis.SpecialFunctions.Pow.Real
/-!
# Model of the positioning program `test/pp_rnx.cpp`: geometry, troposphere, epoch loop

Doubles are rationals (observations) or reals (orbits, angles, filter).  `ngpt::car2ell` of the library
ggeodesy is not modelled: its results are a parameter.  Text written to the terminal is represented by the list of filter updates.
-/
namespace Ggnss

/-- Approximate receiver position and what `car2ell` makes of it (latitude, longitude, height) — pp_rnx.cpp:279-285. -/
structure PpSite where
  x : ℝ
  y : ℝ
  z : ℝ
  lat : ℝ
  lon : ℝ
  hgt : ℝ

/-- The angle of pp_rnx.cpp:70-80 and 104-114: `acos` of the vertical component over the length of the
rotated line of sight.  A zero length gives NaN in C++ and π/2 here: no comparison below distinguishes them
(a NaN is never below the limit, π/2 neither). -/
noncomputable def ppZenith (p : PpSite) (sv : Fin 3 → ℝ) : ℝ :=
  let sinf := Real.sin p.lat
  let cosf := Real.cos p.lat
  let sinl := Real.sin p.lon
  let cosl := Real.cos p.lon
  let dx := sv 0 - p.x
  let dy := sv 1 - p.y
  let dz := sv 2 - p.z
  let n := -sinf * cosl * dx - sinf * sinl * dy + cosf * dz
  let e := -sinl * dx + cosl * dy
  let u := cosf * cosl * dx + cosf * sinl * dy + sinf * dz
  let r := √(n * n + e * e + u * u)
  Real.arccos (u / r)

open Classical in
/-- `sv_zen_angle` — pp_rnx.cpp:67-86: degrees; `none` is the exception `120`. -/
noncomputable def svZenAngle (p : PpSite) (sv : Fin 3 → ℝ) : Option ℝ :=
  let znth := ppZenith p sv
  if znth < -0.2 ∨ znth > Real.pi / 2 + 0.2 then none else some (znth * 180 / Real.pi)

/-- `class Saastamoinen`: temperature, pressure and humidity at the height — pp_rnx.cpp:52-64. -/
structure Saas where
  T : ℝ
  P : ℝ
  e : ℝ

/-- `Saastamoinen::initialize` — pp_rnx.cpp:54-64. -/
noncomputable def saasInit (h : ℝ) : Saas :=
  let T := 18 - 0.0065 * (h - 0)
  let R := 50 * Real.exp (-0.0006396 * (h - 0))
  ⟨T, 1013.25 * (1 - 0.0000226 * (h - 0)) ^ (5.225 : ℝ), R * Real.exp (-37.2465 + 0.213166 * T - (0.000256908 : ℝ) ^ (2 : ℝ))⟩

/-- `Saastamoinen::correction(double)` — pp_rnx.cpp:36-42. -/
noncomputable def saasCorrection (s : Saas) (z : ℝ) : ℝ :=
  let tanz2 := Real.tan z * Real.tan z
  let facT := 0.05 + 1255 / s.T
  let faccz := 0.002277 / Real.cos z
  faccz * (s.P + facT * s.e - tanz2)

/-- `weighting_fun`, one element — pp_rnx.cpp:131-133. -/
noncomputable def ppWeight (a : ℝ) : ℝ := 1 / Real.cos a * Real.cos a

/-- One row of the arrays `Obs` and `States`. -/
structure PpRow where
  obs : ℝ
  pos : Fin 3 → ℝ
  clock : ℝ

/-- What does not change while the program runs. -/
structure PpEnv where
  strptime : List Char → Res DateTime
  junk : Nat → List Char
  navFuel : Nat
  gloFuel : Nat
  endOfHead : Nat
  fresh : NavFrame
  mjdOf : Int → Int → Int → Res Int
  raw0 : RawRnxObs
  mmap : ReadMap
  site : PpSite

/-- The variables used for the satellites: navigation file, `errno`, messages, `state` and `clock`. -/
structure PpNav where
  strm : Stream
  errno : Int
  cache : List NavFrame
  state : Fin 6 → ℝ
  clock : ℝ

/-- First three elements. -/
def pos3 (s : Fin 6 → ℝ) : Fin 3 → ℝ := ![s 0, s 1, s 2]

/-- `MAX_SATS` — pp_rnx.cpp:27. -/
def MAX_SATS : Nat := 30

open Classical in
/-- One satellite of an epoch — pp_rnx.cpp:305-337.  `t` is the epoch in milliseconds, `ep` the same epoch.  The status
of `stateNclock` is not looked at.  The exception of `sv_zen_angle` is not caught anywhere: the program is terminated, as by a failed
`assert`. -/
noncomputable def ppSat (E : PpEnv) (t : Int) (ep : Epoch) (x : SatVals) (st : PpNav) (rows : List PpRow) :
    Res (PpNav × List PpRow) :=
  match x.2 with
  | [] => .ub
  | v :: _ =>
    if v - MISSING > 1 / 1000 ∨ v - MISSING < -1 / 1000 then do
      let o ← getValidMsg E.strptime E.junk E.navFuel E.endOfHead E.fresh x.1.1 x.1.2 t st.cache st.strm st.errno
      if o.status = 0 then
        match o.cache[o.at_]? with
        | none => .terminate
        | some msg =>
          if msg.sys ≠ x.1.1 ∨ msg.prn ≠ x.1.2 then .terminate
          else do
            let c ← stateNclock msg E.gloFuel ep ⟨0, st.state, st.clock⟩
            match svZenAngle E.site (pos3 c.state) with
            | none => .terminate
            | some z =>
              if z < 80 then
                if rows.length < MAX_SATS then
                  pure (⟨o.strm, o.errno, o.cache, c.state, c.clock⟩, rows ++ [⟨(v : ℝ), pos3 c.state, c.clock⟩])
                else .ub
              else pure (⟨o.strm, o.errno, o.cache, c.state, c.clock⟩, rows)
      else pure (⟨o.strm, o.errno, o.cache, st.state, st.clock⟩, rows)
    else pure (st, rows)

/-- The loop over the satellites of an epoch — pp_rnx.cpp:304-338. -/
noncomputable def ppSats (E : PpEnv) (t : Int) (ep : Epoch) : List SatVals → PpNav → List PpRow → Res (PpNav × List PpRow)
  | [], st, rows => .ok (st, rows)
  | x :: xs, st, rows => do
      let r ← ppSat E t ep x st rows
      ppSats E t ep xs r.1 r.2

/-- The argument of `filter.update` — pp_rnx.cpp:350-357: observations corrected for the troposphere, satellites and weights. -/
noncomputable def ppInput (site : PpSite) (rows : List PpRow) (dt : ℝ) : KalInput :=
  { n := rows.length
    obs := fun i => (rows.get i).obs - saasCorrection (saasInit site.hgt) (ppZenith site (rows.get i).pos)
    sv := fun i => ![(rows.get i).pos 0, (rows.get i).pos 1, (rows.get i).pos 2, (rows.get i).clock]
    dt := dt
    w := some fun i => ppWeight (ppZenith site (rows.get i).pos) }

open Classical in
/-- Zenith angles and filter update — pp_rnx.cpp:339-364: `compute_zenith_angles` stops the program when there is no row and
gives up (no update) when an angle is not below 90 degrees.  `filter = none`: the filter holds no numbers (singular
matrix).  The second component is the update done, if any. -/
noncomputable def ppUpdate (site : PpSite) (rows : List PpRow) (sec : ℝ) (filter : Option Kalman) : Res (Option Kalman × Option KalInput) :=
  if rows.length = 0 then .terminate
  else if ∃ r ∈ rows, ppZenith site r.pos < 0 ∨ ppZenith site r.pos ≥ Real.pi / 2 then .ok (filter, none)
  else .ok (filter.bind fun k => kalUpdate k (ppInput site rows sec), some (ppInput site rows sec))

/-- The variables of the epoch loop: `time` is `mjd` and `secday` (`none`: never assigned). -/
structure PpMem where
  nav : PpNav
  filter : Option Kalman
  time : Option (Int × Rat)
  obsStrm : Stream
  buf : List Char
  ov : List SatVals

/-- The time of the epoch after a call of `read_next_epoch` that reported `h`. -/
def timeAfter (old : Option (Int × Rat)) : Option EpochHead → Option (Int × Rat)
  | none => old
  | some h => some (h.mjd, h.sec)

/-- The body of the loop — pp_rnx.cpp:298-370: status, variables, and the update of the filter, if any.  `secday` is read although
nothing may have been assigned to it: undefined. -/
noncomputable def ppEpoch (E : PpEnv) (m : PpMem) : Res (Int × PpMem × Option KalInput) := do
  let r ← readNextEpoch E.mjdOf E.raw0 E.mmap m.ov m.buf m.obsStrm m.nav.errno
  match timeAfter m.time r.head with
  | none => .ub
  | some (mjd, sec) => do
    let ms ← castLong (sec * 1000)
    let t := 86400000 * mjd + ms
    let nav := { m.nav with errno := r.errno }
    if r.sats > 4 then do
      let q ← ppSats E t ⟨mjd, ((ms : ℝ) / 1000)⟩ (r.satobs.take r.sats) nav []
      let u ← ppUpdate E.site q.2 (sec : ℝ) m.filter
      pure (r.status, ⟨q.1, u.1, some (mjd, sec), r.strm, r.buf, r.satobs⟩, u.2)
    else pure (r.status, ⟨nav, m.filter, some (mjd, sec), r.strm, r.buf, r.satobs⟩, none)

/-- `do { … } while (!status)` — pp_rnx.cpp:296-371: the returned status, the variables and the updates made. -/
noncomputable def ppLoop (E : PpEnv) : (fuel : Nat) → PpMem → Res (Int × PpMem × List KalInput)
  | 0, _ => .diverge
  | fuel + 1, m => do
      let r ← ppEpoch E m
      if r.1 = 0 then do
        let q ← ppLoop E fuel r.2.1
        pure (q.1, q.2.1, r.2.2.toList ++ q.2.2)
      else pure (r.1, r.2.1, r.2.2.toList)

/-- `main` from the read map on — pp_rnx.cpp:263-373: `req` is the requested map, `x0` the starting values of the filter. -/
noncomputable def ppMain (E : PpEnv) (obst : ObsTypes) (req : ReqMap) (fuel : Nat) (obs nav : Stream) (buf : List Char) (errno : Int)
    (state0 : Fin 6 → ℝ) (clock0 : ℝ) (P0 : Matrix (Fin 5) (Fin 5) ℝ) : Res (Int × List KalInput) := do
  let m ← setReadMap obst req false
  if m.1 = [] then pure (100, [])
  else
    let E' := { E with mmap := m.1 }
    let x0 : Fin 5 → ℝ := ![E.site.x + 1.321, E.site.y - 2.987, E.site.z - 1.568, 0.5e6, 0]
    let r ← ppLoop E' fuel ⟨⟨nav, errno, [], state0, clock0⟩, some (kalNew x0 P0 1), none, obs, buf, initEpochVector m.1⟩
    pure (r.1, r.2.2)

/-- The request of the program — pp_rnx.cpp:243-246, 261-262. -/
def ppRequest : ReqMap :=
  [(.glonass, [⟨[⟨⟨.glonass, ⟨.pseudorange, 1, 'C'⟩⟩, 2.5457277801631593⟩, ⟨⟨.gps, ⟨.pseudorange, 2, 'W'⟩⟩, -1.5457277801631593⟩]⟩])]

end Ggnss
