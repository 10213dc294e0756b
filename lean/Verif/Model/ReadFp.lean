import Verif.Model.ObsRead
import Verif.Model.Sp3
import Verif.Model.Fp
/-!
# Observation values and SP3 positions as the machine computes them

The readers of `src/obsrnx.cpp` and `src/sp3c.cpp` with doubles: `strtod` rounds the decimal to a nearest double, and every
arithmetic operation is followed by a rounding (`Model/Fp.lean`).  Coefficients are the caller's doubles.  The parts
that do not compute (columns, flags, `errno`) are those of `Model/ObsRead.lean` and `Model/Sp3.lean`.
-/
namespace Ggnss

open Classical in
/-- The parts of one observable — obsrnx.cpp:771-786, as `collectParts`, in double precision. -/
noncomputable def collectPartsF (F : Fp) (buf : List Char) (len : Nat) : IdPairs → (obsval : ℝ) → (status : Int) → (tbuf : List Char) →
    RawRnxObs → (errno : Int) → Res (Int ⊕ (ℝ × Int × List Char × RawRnxObs × Int))
  | [], v, st, tbuf, o, errno => .ok (.inr (v, st, tbuf, o, errno))
  | pr :: prs, v, st, tbuf, o, errno =>
      let idx := pr.1 * 16 + 3
      if len ≥ idx + 16 then do
        let tbuf ← memcpyAt tbuf 0 ((buf.drop idx).take 16)
        let r ← rawResolve tbuf o errno
        let val := F.rnd (r.2.1.val : ℝ)
        if r.1 ≠ 0 then pure (.inl r.2.2)
        else if val ≠ F.rnd (MISSING : ℝ) then collectPartsF F buf len prs (F.rnd (v + F.rnd (val * (pr.2 : ℝ)))) st tbuf r.2.1 r.2.2
        else collectPartsF F buf len prs (F.rnd (MISSING : ℝ)) (st - 1) tbuf r.2.1 r.2.2
      else collectPartsF F buf len prs (F.rnd (MISSING : ℝ)) st tbuf { o with val := MISSING } errno

/-- Storing `vals[k] = v`: undefined outside the vector. -/
noncomputable def valStoreF (vals : List ℝ) (k : Nat) (v : ℝ) : Res (List ℝ) :=
  if k < vals.length then .ok (vals.set k v) else .ub

/-- The observables of a satellite — obsrnx.cpp:769-792, as `collectObs`. -/
noncomputable def collectObsF (F : Fp) (buf : List Char) (len : Nat) : List IdPairs → (k : Nat) → (vals : List ℝ) → (status : Int) →
    (tbuf : List Char) → RawRnxObs → (errno : Int) → Res (Int × List ℝ × Int)
  | [], _, vals, st, _, _, errno => .ok (st, vals, errno)
  | obsrv :: rest, k, vals, st, tbuf, o, errno => do
      match ← collectPartsF F buf len obsrv 0 st tbuf o errno with
      | .inl errno => pure (2, vals, errno)
      | .inr (v, st, tbuf, o, errno) => do
        let vals ← valStoreF vals k v
        collectObsF F buf len rest (k + 1) vals st tbuf o errno

/-- `sat_epoch_collect` — obsrnx.cpp:752-795, as `satEpochCollect`. -/
noncomputable def satEpochCollectF (F : Fp) (raw0 : RawRnxObs) (buf : List Char) (sysobs : List IdPairs) (vals : List ℝ) (errno : Int) :
    Res (Int × Int × List ℝ × Int) := do
  let c1 ← getAt buf 1
  let c2 ← getAt buf 2
  let tbuf := c1 :: c2 :: List.replicate 15 NUL
  let p ← strtolA tbuf
  let errno := if strtolErr p then ERANGE else errno
  let prn := toInt32 (strtolVal p)
  if (errno ≠ 0 ∨ p = none) ∨ prn < 1 ∨ prn > 99 then pure (1, prn, vals, errno)
  else
    let len := (← cstrOf buf).length
    let r ← collectObsF F buf len sysobs 0 vals 0 tbuf raw0 errno
    pure (r.1, prn, r.2.1, r.2.2)

/-- `struct Sp3EpochSvRecord` — sp3c.hpp:46-51 with doubles. -/
structure Sp3RecF where
  sys : SatSys
  prn : Int
  vals : List ℝ
  flag : Sp3Flag

/-- Result of `get_next_position`. -/
structure Sp3PosOutF where
  status : Int
  out : Sp3RecF
  errno : Int

/-- The unit conversion of sp3c.cpp:359-361 (`1e3` is a double). -/
noncomputable def sp3ScaleF (F : Fp) : List Rat → List ℝ
  | [x, y, z, c] => [F.rnd (F.rnd x * 1000), F.rnd (F.rnd y * 1000), F.rnd (F.rnd z * 1000), F.rnd c]
  | l => l.map (fun x => F.rnd (x : ℝ))

open Classical in
/-- sp3c.cpp:363-376, as `sp3Flags`. -/
noncomputable def sp3FlagsF (vals : List ℝ) (line : List Char) : Res Sp3Flag := do
  let f : Sp3Flag := {}
  let f := f.setIf ((vals.take 3).any (fun d => d = 0)) .bad_abscent_position
  let f := f.setIf (decide (vals.getD 3 0 ≥ 999999)) .bad_abscent_clock
  let c74 ← getAt line 74
  let f := f.setIf (c74 = 'E') .clock_event
  let c75 ← getAt line 75
  let f := f.setIf (c75 = 'P') .clock_prediction
  let c78 ← getAt line 78
  let f := f.setIf (c78 = 'M') .maneuver
  let c79 ← getAt line 79
  let f := f.setIf (c79 = 'E') .orbit_prediction
  pure f

/-- `Sp3c::get_next_position` — sp3c.cpp:329-379, as `getNextPosition`. -/
noncomputable def getNextPositionF (F : Fp) (line : List Char) (r : Sp3RecF) (errno : Int) : Res Sp3PosOutF := do
  let r := { r with flag := r.flag.reset }
  let c0 ← getAt line 0
  if c0 ≠ 'P' then pure ⟨2, r, errno⟩
  else
    let c1 ← getAt line 1
    match charToSatsys c1 with
    | .ok sys => do
      let p ← strtolA (line.drop 2)
      let errno := if strtolErr p then ERANGE else errno
      if errno = ERANGE ∨ p = none then pure ⟨4, r, 0⟩
      else
        let cols ← sp3Cols errno line 4 0
        match cols.2 with
        | some i => pure ⟨5 + (i : Int), r, 0⟩
        | none => do
          let vals := sp3ScaleF F cols.1
          let fl ← sp3FlagsF vals line
          pure ⟨0, ⟨sys, toInt32 (strtolVal p), vals, fl⟩, errno⟩
    | _ => pure ⟨3, r, errno⟩

end Ggnss
