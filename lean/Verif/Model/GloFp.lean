import Verif.Model.OrbitFp
/-!
# The GLONASS orbit as the machine integrates it: `src/glonav.cpp` in double precision

As `Model/OrbitFp.lean`: every arithmetic operation is followed by a rounding, in the order of the source (x86-64, no fused
multiply-add).  Multiplications by 2, -1 and the quotients `h / 2e0`, `h / 6` of the step ±60 are exact and not rounded.
-/
namespace Ggnss

/-- `data__[i]` for the columns in kilometres — navrnx.cpp:158-164: the decimal of the file (`f.d i` are metres) is rounded by
`strtod`, multiplied by `1e3` and rounded again. -/
noncomputable def NavFrame.dKmF (F : Fp) (f : NavFrame) (i : Nat) : ℝ := F.rnd (F.rnd (f.d i / 1000) * 1000)

/-- Constants of glonav.cpp:44-57 as doubles; those that are whole numbers (`GM_GLO`, `AE_GLO`, `h_step`) are doubles anyway. -/
noncomputable def J2_GLOF (F : Fp) : ℝ := F.rnd J2_GLO
noncomputable def OMEGA_GLOF (F : Fp) : ℝ := F.rnd OMEGA_GLO

/-- `c` and `a` of `glo_state_deriv` — glonav.cpp:118-124. -/
noncomputable def gloCoefF (F : Fp) (x y z : ℝ) : ℝ × ℝ :=
  let r2 := F.rnd (F.rnd (F.rnd (x * x) + F.rnd (y * y)) + F.rnd (z * z))
  let r3 := F.rnd (r2 * F.rnd (Real.sqrt r2))
  let k := F.rnd (F.rnd (F.rnd (1.5 * J2_GLOF F) * GM_GLO) * F.rnd (AE_GLO * AE_GLO))
  let a := F.rnd (F.rnd (k / r2) / r3)
  let b := F.rnd (F.rnd (F.rnd (5 * z) * z) / r2)
  let c := F.rnd (F.rnd (-GM_GLO / r3) - F.rnd (a * F.rnd (1 - b)))
  (c, a)

/-- `glo_state_deriv` — glonav.cpp:116-133. -/
noncomputable def gloStateDerivF (F : Fp) (x : Fin 6 → ℝ) (acc : Fin 3 → ℝ) : Fin 6 → ℝ :=
  let p := gloCoefF F (x 0) (x 1) (x 2)
  let omg2 := F.rnd (OMEGA_GLOF F * OMEGA_GLOF F)
  ![x 3, x 4, x 5,
    F.rnd (F.rnd (F.rnd (F.rnd (p.1 + omg2) * x 0) + F.rnd (2 * OMEGA_GLOF F * x 4)) + acc 0),
    F.rnd (F.rnd (F.rnd (F.rnd (p.1 + omg2) * x 1) - F.rnd (2 * OMEGA_GLOF F * x 3)) + acc 1),
    F.rnd (F.rnd (F.rnd (p.1 - 2 * p.2) * x 2) + acc 2)]

/-- The body of the integration loop — glonav.cpp:324-340: the new `yti`. -/
noncomputable def gloStepF (F : Fp) (acc : Fin 3 → ℝ) (h : ℝ) (yti : Fin 6 → ℝ) : Fin 6 → ℝ :=
  let k1 := gloStateDerivF F yti acc
  let k2 := gloStateDerivF F (fun i => F.rnd (yti i + F.rnd ((h / 2) * k1 i))) acc
  let k3 := gloStateDerivF F (fun i => F.rnd (yti i + F.rnd ((h / 2) * k2 i))) acc
  let k4 := gloStateDerivF F (fun i => F.rnd (yti i + F.rnd (h * k3 i))) acc
  fun i => F.rnd (yti i + F.rnd ((h / 6) * F.rnd (F.rnd (F.rnd (k1 i + 2 * k2 i) + 2 * k3 i) + k4 i)))

/-- The loop of glonav.cpp:323-343, as `gloLoop`. -/
noncomputable def gloLoopF (F : Fp) (acc : Fin 3 → ℝ) (h tLim : ℝ) : (fuel : Nat) → (yti : Fin 6 → ℝ) → (ti : ℝ) →
    (maxIt : Nat) → Res ((Fin 6 → ℝ) × ℝ × Nat)
  | 0, _, _, _ => .diverge
  | fuel + 1, yti, ti, maxIt =>
      if h > 0 then
        if ti < tLim then gloLoopF F acc h tLim fuel (gloStepF F acc h yti) (F.rnd (ti + h)) maxIt else .ok (yti, ti, maxIt)
      else if ti > tLim then
        if maxIt + 1 < 1500 then gloLoopF F acc h tLim fuel (gloStepF F acc h yti) (F.rnd (ti + h)) (maxIt + 1)
        else .ok (yti, ti, maxIt + 1)
      else .ok (yti, ti, maxIt)

/-- Initial state and accelerations — glonav.cpp:297-306. -/
noncomputable def gloX0F (F : Fp) (f : NavFrame) : Fin 6 → ℝ :=
  ![f.dKmF F 3, f.dKmF F 7, f.dKmF F 11, f.dKmF F 4, f.dKmF F 8, f.dKmF F 12]
noncomputable def gloAccF (F : Fp) (f : NavFrame) : Fin 3 → ℝ := ![f.dKmF F 5, f.dKmF F 9, f.dKmF F 13]

/-- `glo_ecef` — glonav.cpp:284-354: (status, the caller's `state[0..5]`). -/
noncomputable def gloEcefF (F : Fp) (f : NavFrame) (fuel : Nat) (tSec : ℝ) (state0 : Fin 6 → ℝ) :
    Res (Int × (Fin 6 → ℝ)) :=
  let toeSec := f.toeSec
  let status : Int := if |F.rnd (tSec - toeSec)| > 15 * 60 then -1 else 0
  if toeSec = tSec then .ok (status, gloX0F F f)
  else
    let h := if tSec > toeSec then H_STEP else -H_STEP
    let tLim := F.rnd (tSec - F.rnd (cround (F.rnd (F.rnd (tSec - toeSec) / 86400)) * 86400))
    do
      let r ← gloLoopF F (gloAccF F f) h tLim fuel (gloX0F F f) toeSec 0
      if r.2.2 ≥ 1500 then pure (10, state0) else pure (status, r.1)

/-- `glo_clock` — glonav.cpp:59-65. -/
noncomputable def gloClockF (F : Fp) (f : NavFrame) (tMt : ℝ) : ℝ :=
  let d := F.rnd (tMt - f.toeSec)
  let deltat := F.rnd (d - F.rnd (cround (F.rnd (d / 86400)) * 86400))
  F.rnd (f.dF F 0 + F.rnd (f.dF F 1 * deltat))

/-- `glo_stateNclock` — navrnx.hpp:190-200. -/
noncomputable def gloStateNclockF (F : Fp) (f : NavFrame) (fuel : Nat) (t : Epoch) (o : StateClock) : Res StateClock := do
  let r ← gloEcefF F f fuel (ref2toeF F f t) o.state
  if r.1 ≠ 0 then pure ⟨r.1, r.2, o.clock⟩
  else pure ⟨0, r.2, gloClockF F f (ref2toeF F f t)⟩

/-- `stateNclock` — navrnx.hpp:50-73. -/
noncomputable def stateNclockF (F : Fp) (f : NavFrame) (fuel : Nat) (t : Epoch) (o : StateClock) : Res StateClock :=
  match f.sys with
  | .gps => .ok (keplerStateNclockF F (gpsConstF F) f t o)
  | .glonass => gloStateNclockF F f fuel t o
  | .galileo => .ok (keplerStateNclockF F (galConstF F) f t o)
  | .beidou => .ok (keplerStateNclockF F (bdsConstF F) f t o)
  | _ => .throw .runtime_error

end Ggnss
