import Verif.Model.Nav
/-!
# Model of `src/sp3c.hpp` and of the epoch reader of `src/sp3c.cpp`

`DEBUG` not defined.  Doubles are exact rationals.  The epoch `t` is kept as the components passed to
the (external) constructor of `ngpt::datetime<microseconds>`.
-/
namespace Ggnss

/-- `enum class Sp3Event` — sp3c.hpp:21-28. -/
inductive Sp3Event where
  | bad_abscent_position
  | bad_abscent_clock
  | clock_event
  | clock_prediction
  | maneuver
  | orbit_prediction
  deriving DecidableEq, Repr

/-- The numeric values of the enumerators — sp3c.hpp:21-28. -/
def Sp3Event.code : Sp3Event → Nat
  | .bad_abscent_position => 0
  | .bad_abscent_clock => 1
  | .clock_event => 2
  | .clock_prediction => 3
  | .maneuver => 4
  | .orbit_prediction => 5

/-- `struct Sp3Flag`: `unsigned char bits_{0}` — sp3c.hpp:32-33. -/
structure Sp3Flag where
  bits : BitVec 8 := 0
  deriving DecidableEq, Repr

namespace Sp3Flag

/-- `Sp3Flag::set` — sp3c.hpp:34-36. -/
def set (f : Sp3Flag) (e : Sp3Event) : Sp3Flag := ⟨f.bits ||| ((1 : BitVec 8) <<< e.code)⟩

/-- `Sp3Flag::clear` — sp3c.hpp:37-39. -/
def clear (f : Sp3Flag) (e : Sp3Event) : Sp3Flag := ⟨f.bits &&& ~~~((1 : BitVec 8) <<< e.code)⟩

/-- `Sp3Flag::reset` — sp3c.hpp:40. -/
def reset (_ : Sp3Flag) : Sp3Flag := ⟨0⟩

/-- `Sp3Flag::is_set` — sp3c.hpp:41-43. -/
def isSet (f : Sp3Flag) (e : Sp3Event) : Bool := (f.bits >>> e.code) &&& 1 ≠ 0

/-- `if (c) flag.set(e);` -/
def setIf (f : Sp3Flag) (c : Bool) (e : Sp3Event) : Sp3Flag := if c then f.set e else f

end Sp3Flag

/-- `struct Sp3EpochSvRecord` — sp3c.hpp:46-51. -/
structure Sp3Rec where
  sys : SatSys := .gps
  prn : Int := 0
  vals : List Rat := [0, 0, 0, 0]
  flag : Sp3Flag := {}
  deriving DecidableEq, Repr

/-- Result of `get_next_position`: status, the four output arguments, `errno`. -/
structure Sp3PosOut where
  status : Int
  out : Sp3Rec
  errno : Int

/-- The loop over the four columns — sp3c.cpp:349-357: the numbers read so far and, when it
stops early, the index of the offending column. -/
def sp3Cols (errno : Int) (line : List Char) : (n i : Nat) → Res (List Rat × Option Nat)
  | 0, _ => .ok ([], none)
  | n + 1, i => do
      match ← strtodA (line.drop (4 + 14 * i)) with
      | none => pure ([], some i)
      | some v =>
          if errno = ERANGE ∨ v.2.2 = true then pure ([], some i)
          else
            let r ← sp3Cols errno line n (i + 1)
            pure (v.1 :: r.1, r.2)

/-- sp3c.cpp:363-376: the flags of a record with coordinates `vals` on the line `line`. -/
def sp3Flags (vals : List Rat) (line : List Char) : Res Sp3Flag := do
  let f : Sp3Flag := {}
  let f := f.setIf ((vals.take 3).any (fun d => d = 0)) .bad_abscent_position
  let f := f.setIf (decide (vals.getD 3 0 ≥ 999999)) .bad_abscent_clock
  let c74 ← getAt line 74
  let f := f.setIf (c74 = 'E') .clock_event
  let c75 ← getAt line 75
  let f := f.setIf (c75 = 'P') .clock_prediction
  let c78 ← getAt line 78
  let f := f.setIf (c78 = 'M') .maneuver
  let c79 ← getAt line 79
  let f := f.setIf (c79 = 'E') .orbit_prediction
  pure f

/-- The unit conversion of sp3c.cpp:359-361. -/
def sp3Scale : List Rat → List Rat
  | [x, y, z, c] => [x * 1000, y * 1000, z * 1000, c]
  | l => l

/-- `Sp3c::get_next_position` — sp3c.cpp:329-379.  When it fails the four outputs are not used by
the caller, so only the flag reset is kept of them. -/
def getNextPosition (line : List Char) (r : Sp3Rec) (errno : Int) : Res Sp3PosOut := do
  let r := { r with flag := r.flag.reset }
  let c0 ← getAt line 0
  if c0 ≠ 'P' then pure ⟨2, r, errno⟩
  else
    let c1 ← getAt line 1
    match charToSatsys c1 with
    | .ok sys => do
      let p ← strtolA (line.drop 2)
      let errno := if strtolErr p then ERANGE else errno
      if errno = ERANGE ∨ p = none then pure ⟨4, r, 0⟩
      else
        let cols ← sp3Cols errno line 4 0
        match cols.2 with
        | some i => pure ⟨5 + (i : Int), r, 0⟩
        | none => do
          let vals := sp3Scale cols.1
          let fl ← sp3Flags vals line
          pure ⟨0, ⟨sys, toInt32 (strtolVal p), vals, fl⟩, errno⟩
    | _ => pure ⟨3, r, errno⟩

/-- The arguments of the constructor of `t` — sp3c.cpp:276-279. -/
structure Sp3Epoch where
  year : Int
  month : Int
  day : Int
  hour : Int
  minute : Int
  micros : Int
  deriving DecidableEq, Repr

/-- Result of `get_next_epoch`: status, the three output arguments, stream and `errno`. -/
structure Sp3Out where
  status : Int
  t : Sp3Epoch
  vec : List Sp3Rec
  satsRead : Int
  strm : Stream
  errno : Int

/-- The integers of the epoch header after the year — sp3c.cpp:261-269: month, day, hour and
minute, `n` of them still to read, the `i`-th next; `none`: a column is not a number. -/
def sp3Date (errno : Int) (line : List Char) : (n i : Nat) → Res (List Int × Option Nat)
  | 0, _ => .ok ([], none)
  | n + 1, i => do
      let p ← strtolA (line.drop (8 + 3 * (i - 1)))
      if (if strtolErr p then ERANGE else errno) = ERANGE ∨ p = none then pure ([], some i)
      else
        let r ← sp3Date errno line n (i + 1)
        pure (toInt32 (strtolVal p) :: r.1, r.2)

/-- What the header line of an epoch says, or the error status — sp3c.cpp:254-279. -/
def sp3Header (line : List Char) (errno : Int) : Res (Except Int Sp3Epoch × Int) := do
  let c0 ← getAt line 0
  let c1 ← getAt line 1
  if c0 ≠ '*' ∨ c1 ≠ ' ' then pure (.error 2, errno)
  else
    let p ← strtolA (line.drop 3)
    let errno := if strtolErr p then ERANGE else errno
    if toInt32 (strtolVal p) = 0 ∨ errno = ERANGE then pure (.error 5, 0)
    else
      let d ← sp3Date errno line 4 1
      match d.2 with
      | some i => pure (.error (5 + (i : Int)), 0)
      | none =>
        match ← strtodA (line.drop 20) with
        | none => pure (.error 11, 0)
        | some sec => do
          if sec.2.2 = true then pure (.error 11, 0) else
          let us ← castLong (sec.1 * 1000000)
          pure (.ok ⟨toInt32 (strtolVal p), d.1.getD 0 0, d.1.getD 1 0, d.1.getD 2 0, d.1.getD 3 0, us⟩, errno)

/-- Storing `*it = rec` for `it = vec.begin() + n`: undefined when `n` is not an index of `vec`. -/
def vecStore (vec : List Sp3Rec) (n : Nat) (r : Sp3Rec) : Res (List Sp3Rec) :=
  if n < vec.length then .ok (vec.set n r) else .ub

/-- Is the `char` obtained from `peek()` equal to '*'?  (`EOF` becomes the char 0xFF.) -/
def peekedStar : Option Char → Bool
  | none => false
  | some c => c = '*'

/-- What one iteration of the loop of sp3c.cpp:295-313 does with the line it read (299-309):
`inl`: go on with vector, index and errno; `inr`: leave the function with this status. -/
def sp3Line (buf : List Char) (vec : List Sp3Rec) (n : Nat) (errno : Int) :
    Res ((List Sp3Rec × Nat × Int) ⊕ (Int × Int)) := do
  let c0 ← getAt buf 0
  if c0 = 'P' then
    let o ← getNextPosition buf {} errno
    if o.status ≠ 0 then pure (.inr (o.status + 20, o.errno))
    else
      let vec ← vecStore vec n o.out
      pure (.inl (vec, n + 1, o.errno))
  else
    let e ← strncmpEq 3 buf (cArr c!"EOF")
    if e then pure (.inr (-1, errno)) else pure (.inl (vec, n, errno))

/-- The loop of sp3c.cpp:295-316 with the final assignment of `sats_read`.  `buf` is the array
`line`, `n` the distance of `it` from the beginning of the vector.  Nothing in the loop stops it at
the end of the file; `fuel` bounds the number of iterations. -/
def sp3Loop (t : Sp3Epoch) (satsRead : Int) : (fuel : Nat) → (buf : List Char) → (vec : List Sp3Rec) →
    (n : Nat) → Stream → (errno : Int) → Res Sp3Out
  | 0, _, _, _, _, _ => .diverge
  | fuel + 1, buf, vec, n, s, errno =>
      let p := s.peek
      if peekedStar p.1 then .ok ⟨0, t, vec, n, p.2, errno⟩
      else
        let g := p.2.getline MAX_RECORD_CHARS
        let buf := fillLine buf g.1
        match sp3Line buf vec n errno with
        | .ok (.inl (vec, n, errno)) => sp3Loop t satsRead fuel buf vec n g.2 errno
        | .ok (.inr (st, errno)) =>
            if st = -1 then .ok ⟨-1, t, vec, n, g.2, errno⟩ else .ok ⟨st, t, vec, satsRead, g.2, errno⟩
        | .throw e => .throw e
        | .terminate => .terminate
        | .ub => .ub
        | .diverge => .diverge

/-- `Sp3c::get_next_epoch` — sp3c.cpp:243-317.  `junk` is the indeterminate content of the array
`line`. -/
def getNextEpoch (junk : List Char) (fuel : Nat) (t : Sp3Epoch) (vec : List Sp3Rec) (satsRead : Int)
    (s : Stream) (errno : Int) : Res Sp3Out :=
  Res.noexcept (
    if !s.good then .ok ⟨1, t, vec, satsRead, s, errno⟩
    else do
      let g := s.getline MAX_RECORD_CHARS
      let buf := fillLine junk g.1
      let h ← sp3Header buf errno
      match h.1 with
      | .error e => pure ⟨e, t, vec, satsRead, g.2, h.2⟩
      | .ok t => sp3Loop t satsRead fuel buf vec 0 g.2 h.2)

end Ggnss
