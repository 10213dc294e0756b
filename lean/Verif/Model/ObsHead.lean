import Verif.Model.ObsRead
import Verif.Model.Antenna
/-!
# Model of the constructor of `ObservationRnx` (`src/obsrnx.cpp:81-343`): reading the header

The file could be opened (`is_open()` is true).  Messages to `std::cerr`/`std::cout` are not
modelled.  `ngpt::strptime_ymd_hms<microseconds>` of ggdatetime is the parameter `strptime` (it gets
the bytes of the array `line`).  `errno` at the call is the parameter `errno0` (non-zero or not):
within `read_header` only the conversion of the version (a `float`) and conversions that make it
return an error change it.
-/
namespace Ggnss

/-- `MAX_HEADER_CHARS` — obsrnx.cpp:16. -/
def OBS_HEADER_CHARS : Nat := 85

/-- The members of `ObservationRnx` that the header determines — obsrnx.hpp:142-175.  `__version` is a
`float` in the code, the exact number read here; `firstObs = none` is a default constructed date;
`endOfHead = none` is `pos_type(-1)`. -/
structure ObsFileObj where
  version : Rat
  sys : SatSys
  endOfHead : Option Nat
  antenna : List Char
  markerName : List Char
  markerNumber : List Char
  recNumber : List Char
  recType : List Char
  approx : List Rat
  ecc : List Rat
  clkApplied : Bool
  firstObs : Option DateTime
  obst : ObsTypes
  deriving DecidableEq, Repr

/-- Position of an enumerator, the order of the keys of `std::map<SATELLITE_SYSTEM, …>` —
satsys.hpp:54-63. -/
def sysRank : SatSys → Nat
  | .gps => 0
  | .glonass => 1
  | .sbas => 2
  | .galileo => 3
  | .beidou => 4
  | .qzss => 5
  | .irnss => 6
  | .mixed => 7

/-- `__obstmap[sys] = v` for a key that is not in the map — obsrnx.cpp:338. -/
def obsInsert (sys : SatSys) (v : List ObsCode) : ObsTypes → ObsTypes
  | [] => [(sys, v)]
  | e :: m => if sysRank sys < sysRank e.1 then (sys, v) :: e :: m else e :: obsInsert sys v m

/-- `std::strncmp(line + 60, label, strlen(label)) == 0` — obsrnx.cpp:194-248. -/
def obsLabel (buf label : List Char) : Res Bool := strncmpEq label.length (buf.drop 60) (cArr label)

/-- The loop of `__resolve_obstypes_304__` — obsrnx.cpp:308-335, with `n` passes to go: `inl` is the
code the function returns, `inr` the vector. -/
def obsTypesLoop : (n : Nat) → (resolved : Nat) → (line : List Char) → List ObsCode → Stream →
    Res ((Int ⊕ List ObsCode) × Stream)
  | 0, _, _, acc, s => .ok (.inr acc, s)
  | n + 1, resolved, line, acc, s => do
      match ObsCode.parse (← cstrOf (line.drop (7 + resolved * 4))) with
      | .ok code =>
        if resolved + 1 = 13 then do
          let g := s.getline OBS_HEADER_CHARS
          let line := fillLine line g.1
          if ← obsLabel line c!"SYS / # / OBS TYPES" then obsTypesLoop n 0 line (acc ++ [code]) g.2
          else pure (.inl 4, g.2)
        else obsTypesLoop n (resolved + 1) line (acc ++ [code]) s
      | .throw _ => pure (.inl 3, s)
      | _ => .ub

/-- `__resolve_obstypes_304__` — obsrnx.cpp:286-343: (returned code, map, stream).  The `do`-`while`
loop runs at least once. -/
def obsTypesResolve (errno0 : Bool) (line : List Char) (obst : ObsTypes) (s : Stream) : Res (Int × ObsTypes × Stream) :=
  Res.noexcept (do
    let sys ← charToSatsys (← getAt line 0)
    if (obst.lookup sys).isSome then pure (1, obst, s)
    else
      let p ← strtolA (line.drop 3)
      let obsnum := toInt32 (strtolVal p)
      if (errno0 = true ∨ strtolErr p = true) ∨ p = none then pure (2, obst, s)
      else
        match ← obsTypesLoop (max 1 obsnum.toNat) 0 line [] s with
        | (.inl e, s) => pure (e, obst, s)
        | (.inr v, s) => if (v.length : Int) = obsnum then pure (0, obsInsert sys v obst, s) else pure (9, obst, s))

/-- The line "ANT # / TYPE" — obsrnx.cpp:208-211; `g` is the uninitialised memory of `ant`. -/
def obsAntenna (g line : List Char) : Res (List Char) := do
  let t ← rtrimStart (line.drop 20) (some 20)
  let ant ← antOfCStr g t.1
  if ← stringIsEmpty line (some 20) then pure ant else antSetSerial ant (← cstrOf line)

/-- The line "RCV CLOCK OFFS APPL" — obsrnx.cpp:232-240: `none` is the error return.  When nothing can
be converted, `end` is `line` and the value 0. -/
def obsClock (errno0 : Bool) (line : List Char) : Res (Option Bool) := do
  let p ← strtolA line
  let i := toInt32 (strtolVal p)
  if (errno0 = true ∨ strtolErr p = true) ∨ (line.drop 3).length = (strtolEnd line p).length ∨ (i ≠ 0 ∧ i ≠ 1) then pure none
  else pure (some (i = 1))

/-- What the body of the loop of `read_header` does with the line it has read — obsrnx.cpp:197-255:
(returned code or 0, object, stream). -/
def obsHeadLine (strptime : List Char → Res DateTime) (gAnt : Nat → List Char) (errno0 : Bool) (line : List Char)
    (o : ObsFileObj) (s : Stream) : Res (Int × ObsFileObj × Stream) := do
  if ← obsLabel line c!"MARKER NAME" then do
    let t ← rtrimStart line (some 60)
    pure (0, { o with markerName := t.1 }, s)
  else if ← obsLabel line c!"MARKER NUMBER" then do
    let t ← rtrimStart line (some 20)
    pure (0, { o with markerNumber := t.1 }, s)
  else if ← obsLabel line c!"REC # / TYPE / VERS" then do
    let t ← rtrimStart line (some 20)
    let u ← rtrimStart (line.drop 20) (some 20)
    pure (0, { o with recNumber := t.1, recType := u.1 }, s)
  else if ← obsLabel line c!"ANT # / TYPE" then do
    let a ← obsAntenna (gAnt s.pos) line
    pure (0, { o with antenna := a }, s)
  else if ← obsLabel line c!"APPROX POSITION XYZ" then do
    let r ← char2double errno0 14 3 line
    if r.1 then pure (0, { o with approx := r.2 }, s) else pure (51, o, s)
  else if ← obsLabel line c!"ANTENNA: DELTA H/E/N" then do
    let r ← char2double errno0 14 3 line
    if r.1 then pure (0, { o with ecc := r.2 }, s) else pure (52, o, s)
  else if ← obsLabel line c!"SYS / # / OBS TYPES" then do
    let r ← obsTypesResolve errno0 line o.obst s
    pure (r.1, { o with obst := r.2.1 }, r.2.2)
  else if ← obsLabel line c!"RCV CLOCK OFFS APPL" then do
    match ← obsClock errno0 line with
    | none => pure (60, o, s)
    | some b => pure (0, { o with clkApplied := b }, s)
  else if ← obsLabel line c!"TIME OF FIRST OBS" then
    match strptime line with
    | .ok t => pure (0, { o with firstObs := some t }, s)
    | .throw .invalid_argument => pure (61, o, s)
    | .throw e => .throw e
    | .terminate => .terminate
    | .ub => .ub
    | .diverge => .diverge
  else pure (0, o, s)

/-- The loop of `read_header` — obsrnx.cpp:194-257; `left` is `MAX_HEADER_LINES - dummy_it`:
(returned code or 0, remaining count, object, stream). -/
def obsHeadLoop (strptime : List Char → Res DateTime) (gAnt : Nat → List Char) (errno0 : Bool) : (left : Nat) → (line : List Char) →
    ObsFileObj → Stream → Res (Int × Nat × ObsFileObj × Stream)
  | 0, _, o, s => .ok (0, 0, o, s)
  | left + 1, line, o, s => do
      if ← obsLabel line c!"END OF HEADER" then pure (0, left + 1, o, s)
      else
        let g := s.getline OBS_HEADER_CHARS
        let line := fillLine line g.1
        let r ← obsHeadLine strptime gAnt errno0 line o g.2
        if r.1 ≠ 0 then pure (r.1, left + 1, r.2.1, r.2.2) else obsHeadLoop strptime gAnt errno0 left line r.2.1 r.2.2

/-- `ObservationRnx::read_header` — obsrnx.cpp:163-267: (status, object, stream).  `junk` is the
indeterminate content of the array `line`. -/
def obsReadHeader (strptime : List Char → Res DateTime) (gAnt : Nat → List Char) (errno0 : Bool) (junk : List Char)
    (o : ObsFileObj) (s : Stream) : Res (Int × ObsFileObj × Stream) :=
  Res.noexcept (do
    let s := s.seekg 0
    let g := s.getline OBS_HEADER_CHARS
    let line := fillLine junk g.1
    match ← strtodA line with
    | none => pure (10, { o with version := 0 }, g.2)
    | some v => do
      if (← getAt line 20) ≠ 'O' then pure (11, { o with version := v.1 }, g.2)
      else
        match charToSatsys (← getAt line 40) with
        | .ok sys => do
          let g := g.2.getline OBS_HEADER_CHARS
          let r ← obsHeadLoop strptime gAnt (errno0 || strtofErr (some v)) 1000 (fillLine line g.1) { o with version := v.1, sys := sys } g.2
          if r.1 ≠ 0 then pure (r.1, r.2.2.1, r.2.2.2)
          else if r.2.1 = 0 then pure (20, r.2.2.1, r.2.2.2)
          else pure (0, { r.2.2.1 with endOfHead := r.2.2.2.tellg.1 }, r.2.2.2.tellg.2)
        | _ => pure (12, { o with version := v.1 }, g.2))

/-- The members before `read_header` — obsrnx.cpp:82-83, obsrnx.hpp:142-175; `a` is the default
constructed antenna. -/
def obsInitial (a : List Char) : ObsFileObj :=
  ⟨0, .mixed, some 0, a, [], [], [], [], [0, 0, 0], [0, 0, 0], false, none, []⟩

/-- `ObservationRnx::ObservationRnx(const char*)` for a file with these bytes — obsrnx.cpp:81-96: the
object, its stream and the array `__buf` (indeterminate content `buf0`).  `g0` is the uninitialised
memory of `__antenna`. -/
def obsOpen (strptime : List Char → Res DateTime) (gAnt : Nat → List Char) (errno0 : Bool) (g0 junk : List Char)
    (buf0 : Nat → List Char) (content : List Char) : Res (ObsFileObj × Stream × List Char) := do
  let a ← antInit g0
  let r ← obsReadHeader strptime gAnt errno0 junk (obsInitial a) ⟨content, 0, false, false⟩
  if r.1 ≠ 0 then .throw .runtime_error else pure (r.2.1, r.2.2, buf0 (obsBufSize r.2.1.obst))

/-- `ObservationRnx::rewind` — obsrnx.hpp:60 (`seekg(pos_type(-1))` fails). -/
def obsRewind (o : ObsFileObj) (s : Stream) : Stream :=
  match o.endOfHead with
  | some e => s.seekg e
  | none => if s.fail then { s with eof := false } else { s with eof := false, fail := true }

end Ggnss
