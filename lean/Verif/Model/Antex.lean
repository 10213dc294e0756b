import Verif.Model.Nav
import Verif.Model.Obs
import Verif.Model.Antenna
/-!
# Model of `src/antex.hpp`, `src/antex.cpp` (and `src/antenna_pcv.hpp`)

`DEBUG` not defined; the file could be opened (`is_open()` is true).  The external
`ngpt::strptime_ymd_hms` is the parameter `strptime` (it gets the bytes of the array from the given
pointer on).  Doubles are exact rationals.  Arrays and objects that the code does not initialise have
the contents given by the `AtxJunk` argument.
-/
namespace Ggnss

/-- `MAX_HEADER_CHARS` — antex.cpp:18. -/
def ATX_HEADER_CHARS : Nat := 85
/-- `MAX_GRID_CHARS` — antex.cpp:46. -/
def ATX_GRID_CHARS : Nat := 512

/-- Indeterminate contents of local arrays, by stream position at the call: `char[85]`, `char[512]`,
and the 41 bytes of a `ReceiverAntenna`. -/
structure AtxJunk where
  head : Nat → List Char
  grid : Nat → List Char
  ant : Nat → List Char

/-- `std::strncmp(line + 60, pat, strlen(pat)) == 0`. -/
def atxLabel (line pat : List Char) : Res Bool := strncmpEq pat.length (line.drop 60) (cArr pat)

/-- `getline(line, n) && !strncmp(line + 60, pat, ..)`: the comparison is only made when `getline`
succeeded. -/
def atxExpect (n : Nat) (pat buf : List Char) (s : Stream) : Res (Bool × List Char × Stream) := do
  let g := s.getline n
  let buf := fillLine buf g.1
  if g.2.fail then pure (false, buf, g.2)
  else
    let e ← atxLabel buf pat
    pure (e, buf, g.2)

/-- `seekg(pos)` with a `pos_type`; `none` is `pos_type(-1)`, which makes the call fail. -/
def atxSeek (s : Stream) : Option Nat → Stream
  | some p => s.seekg p
  | none => { s with eof := false, fail := true }

/-! ## The header -/

/-- The loop of antex.cpp:156-162; `left` is `MAX_HEADER_LINES - dummy_it`: remaining count, stream. -/
def atxSkipHeader : (left : Nat) → (buf : List Char) → Stream → Res (Nat × Stream)
  | 0, _, s => .ok (0, s)
  | left + 1, buf, s => do
      let e ← atxLabel buf c!"END OF HEADER"
      if e then pure (left + 1, s)
      else
        let g := s.getline ATX_HEADER_CHARS
        atxSkipHeader left (fillLine buf g.1) g.2

/-- `Antex::read_header` — antex.cpp:114-172: (status, `__end_of_head`, `__satsys`, stream).
`fvers` (a `float`) is the exact number read.  `__version` is not kept: nothing reads it. -/
def atxReadHeader (J : AtxJunk) (s : Stream) : Res (Int × Option Nat × SatSys × Stream) :=
  Res.noexcept (do
    let s := s.seekg 0
    let g := s.getline ATX_HEADER_CHARS
    let buf := fillLine (J.head s.pos) g.1
    let buf ← setAt buf 15 NUL
    let v ← strtodA buf
    let fvers : Rat := match v with | some x => x.1 | none => 0
    if ¬ (|fvers - 14 / 10| < 1 / 1000 ∨ |fvers - 13 / 10| < 1 / 1000) then pure (10, some 0, .mixed, g.2)
    else
      match charToSatsys (← getAt buf 20) with
      | .ok sys => do
        let g := g.2.getline ATX_HEADER_CHARS
        let buf := fillLine buf g.1
        if (← getAt buf 0) ≠ 'A' then pure (12, some 0, sys, g.2)
        else
          let g := g.2.getline ATX_HEADER_CHARS
          let r ← atxSkipHeader 1000 (fillLine buf g.1) g.2
          if r.1 = 0 then pure (20, some 0, sys, r.2)
          else pure (0, r.2.tellg.1, sys, r.2.tellg.2)
      | _ => pure (11, some 0, .mixed, g.2))

/-- An `Antex` object. -/
structure AtxFile where
  endOfHead : Option Nat
  sys : SatSys
  strm : Stream

/-- `Antex::Antex(const char*)` (and `reset_to_file`) for a file with these bytes —
antex.cpp:60-69, 80-93. -/
def atxOpen (J : AtxJunk) (content : List Char) : Res AtxFile := do
  let r ← atxReadHeader J ⟨content, 0, false, false⟩
  if r.1 ≠ 0 then .throw .runtime_error else pure ⟨r.2.1, r.2.2.1, r.2.2.2⟩

/-! ## Antennas -/

/-- antex.cpp:226-231: the serial number is set when one of `n` columns from `i` on is not blank. -/
def atxSerial (buf ant : List Char) : (n i : Nat) → Res (List Char)
  | 0, _ => .ok ant
  | n + 1, i => do
      let c ← getAt buf i
      if c ≠ ' ' then
        let sn ← cstrOf (buf.drop 20)
        antSetSerial ant sn
      else atxSerial buf ant n (i + 1)

/-- Result of `read_next_antenna_type`: status, the antenna, the caller's array `c`, stream. -/
structure AtxType where
  status : Int
  ant : List Char
  c : List Char
  strm : Stream

/-- `Antex::read_next_antenna_type` — antex.cpp:199-239.  `c` is the caller's array (always passed
in the model; a caller that passes no array ignores it). -/
def atxReadType (J : AtxJunk) (ant c : List Char) (s : Stream) : Res AtxType := do
  let r ← atxExpect ATX_HEADER_CHARS c!"START OF ANTENNA" (J.head s.pos) s
  if r.1 = false then
    if r.2.2.eof then pure ⟨-1, ant, c, r.2.2.clear⟩ else pure ⟨10, ant, c, r.2.2⟩
  else
    let r ← atxExpect ATX_HEADER_CHARS c!"TYPE / SERIAL NO" r.2.1 r.2.2
    if r.1 = false then pure ⟨11, ant, c, r.2.2⟩
    else
      let buf := r.2.1
      let ant ← antOfCStr (J.ant s.pos) (← cstrOf buf)
      let ant ← atxSerial buf ant 20 20
      let c ← memcpyAt c 0 (buf.take 60)
      pure ⟨0, ant, c, r.2.2⟩

/-- The loop of `skip_rest_of_antenna` — antex.cpp:253-264; `left` is `max_antenna_lines - dummy_it`. -/
def atxSkipLoop : (left : Nat) → (buf : List Char) → Stream → Res (Int × Stream)
  | 0, _, s => .ok (1, s)
  | left + 1, buf, s => do
      let g := s.getline ATX_GRID_CHARS
      let buf := fillLine buf g.1
      let e ← atxLabel buf c!"END OF ANTENNA"
      if e then pure (if left = 0 then 1 else 0, g.2)
      else atxSkipLoop left buf g.2

/-- `Antex::skip_rest_of_antenna` — antex.cpp:249-265. -/
def atxSkip (J : AtxJunk) (s : Stream) : Res (Int × Stream) := atxSkipLoop 5000 (J.grid s.pos) s

/-- Result of the search for a receiver antenna: status, `ant_out`, `ant_pos`, stream. -/
structure AtxMatch where
  status : Int
  ant : List Char
  pos : Option Nat
  strm : Stream

/-- antex.cpp:305-310, after the loop.  `stat2` is `none` as long as it was not assigned: reading it
then is undefined. -/
def atxMatchEnd (stat1 : Int) (stat2 : Option Int) (best : List Char) (bestPos : Option Nat) (s : Stream) :
    Res AtxMatch :=
  if stat1 > 0 then .ok ⟨1, best, bestPos, s⟩
  else
    match stat2 with
    | none => .ub
    | some st => if st ≠ 0 then .ok ⟨1, best, bestPos, s⟩ else .ok ⟨0, best, bestPos, s⟩

/-- The loop of `find_closest_antenna_match` — antex.cpp:291-303; every iteration consumes at least
two lines, `fuel` bounds their number. -/
def atxMatchLoop (J : AtxJunk) (antIn : List Char) : (fuel : Nat) → (cur best : List Char) →
    (bestPos : Option Nat) → (stat2 : Option Int) → Stream → Res AtxMatch
  | 0, _, _, _, _, _ => .diverge
  | fuel + 1, cur, best, bestPos, stat2, s => do
      let r ← atxReadType J cur (J.head s.pos) s
      if r.status ≠ 0 then atxMatchEnd r.status stat2 best bestPos r.strm
      else
        let same ← antIsSame r.ant antIn
        if same then
          let t := r.strm.tellg
          pure ⟨-1, r.ant, t.1, t.2⟩
        else
          let cm ← antCompareModel r.ant antIn
          let hs ← (if cm then antHasSerial r.ant else pure true)
          let b := if cm && !hs then (r.ant, r.strm.tellg) else (best, (bestPos, r.strm))
          let k ← atxSkip J b.2.2
          if k.1 ≠ 0 then atxMatchEnd 0 (some k.1) b.1 b.2.1 k.2
          else atxMatchLoop J antIn fuel r.ant b.1 b.2.1 (some k.1) k.2

/-- `Antex::find_closest_antenna_match` — antex.cpp:281-311.  A default constructed `pos_type` is 0. -/
def atxFindMatch (J : AtxJunk) (fuel : Nat) (f : AtxFile) (antIn : List Char) : Res AtxMatch :=
  Res.noexcept (do
    let s := atxSeek f.strm f.endOfHead
    let cur ← antInit (J.ant s.pos)
    atxMatchLoop J antIn fuel cur cur (some 0) none s)

/-! ## Satellite antennas -/

/-- `class Satellite` — satellite.hpp:107-117: system, PRN, SVN, antenna name (21 bytes), COSPAR id
(9 bytes). -/
structure AtxSat where
  sys : SatSys
  prn : Int
  svn : Int
  ant : List Char
  cospar : List Char
  deriving DecidableEq, Repr

/-- `std::stoi(std::string(p, n))` for the bytes `t`. -/
def stoi (t : List Char) : Res Int :=
  match strtol t with
  | none => .throw .invalid_argument
  | some (v, _, er) =>
      if er = true ∨ v > 2147483647 ∨ v < -2147483648 then .throw .out_of_range else .ok v

/-- `std::stod(tmp)` for the bytes `t` before the terminator. -/
def stod (t : List Char) : Res Rat :=
  match strtod t with
  | none => .throw .invalid_argument
  | some v => if v.2.2 = true then .throw .out_of_range else .ok v.1

/-- antex.cpp:373-381: the optional SVN. `none`: return 10. -/
def atxSvn (line : List Char) (sat : AtxSat) : Res (Option AtxSat) := do
  let e ← stringIsEmpty (line.drop 40) (some 10)
  if e then pure (some sat)
  else if (← getAt line 40) ≠ (← getAt line 20) then pure none
  else
    match stoi ((line.drop 41).take 5) with
    | .ok v => pure (some { sat with svn := v })
    | _ => pure none

/-- antex.cpp:384-388: the optional COSPAR id. -/
def atxCospar (line : List Char) (sat : AtxSat) : Res AtxSat := do
  let e ← stringIsEmpty (line.drop 50) (some 10)
  if e then pure sat
  else pure { sat with cospar := (line.drop 50).take 8 ++ [NUL] }

/-- antex.cpp:356-360: system and PRN. `none`: return 5. -/
def atxSysPrn (line : List Char) (sat : AtxSat) : Res (Option AtxSat × AtxSat) := do
  match charToSatsys (← getAt line 20) with
  | .ok sys =>
    match stoi ((line.drop 21).take 5) with
    | .ok p => pure (some { sat with sys := sys, prn := p }, { sat with sys := sys, prn := p })
    | _ => pure (none, { sat with sys := sys })
  | _ => pure (none, sat)

/-- `resolve_satellite_antenna_line` — antex.cpp:338-391: (status, `sat`). -/
def atxResolve (line : List Char) (sat : AtxSat) : Res (Int × AtxSat) := do
  let str ← cstrOf line
  if str.length < 60 then pure (1, sat)
  else
    let a ← satAntCopy sat.ant str
    let sat := { sat with ant := a }
    if (← getAt line 20) ≠ ' ' then
      let r ← atxSysPrn line sat
      match r.1 with
      | none => pure (5, r.2)
      | some sat =>
        match ← atxSvn line sat with
        | none => pure (10, sat)
        | some sat => do
          let sat ← atxCospar line sat
          pure (0, sat)
    else pure (5, sat)

/-- antex.cpp:426-440: what a line says about the validity; `inr`: leave the function. -/
def ctiLine (strptime : List Char → Res DateTime) (buf : List Char) (from_ to_ : Option DateTime) :
    Res ((Option DateTime × Option DateTime) ⊕ Int) := do
  if ← atxLabel buf c!"VALID FROM" then
    match strptime buf with
    | .ok d => pure (.inl (some d, to_))
    | .throw _ => pure (.inr 11)
    | .terminate => .terminate
    | .ub => .ub
    | .diverge => .diverge
  else if ← atxLabel buf c!"VALID UNTIL" then
    match strptime buf with
    | .ok d => pure (.inl (from_, some d))
    | .throw _ => pure (.inr 12)
    | .terminate => .terminate
    | .ub => .ub
    | .diverge => .diverge
  else pure (.inl (from_, to_))

/-- antex.cpp:458-466. -/
def ctiVerdict (eph : DateTime) : Option DateTime → Option DateTime → Int
  | none, _ => 21
  | some d, none => if d.total ≤ eph.total then 0 else 1
  | some d, some e => if d.total ≤ eph.total ∧ eph.total ≤ e.total then 0 else 1

/-- The loop of `check_time_interval` — antex.cpp:424-444 — and its end.  `dummy_it` is not
incremented in the loop; `fuel` bounds the number of iterations. -/
def ctiLoop (strptime : List Char → Res DateTime) (eph : DateTime) : (fuel : Nat) → (buf : List Char) →
    (from_ to_ : Option DateTime) → Stream → Res (Int × Stream)
  | 0, _, _, _, _ => .diverge
  | fuel + 1, buf, from_, to_, s => do
      let g := s.getline ATX_GRID_CHARS
      let buf := fillLine buf g.1
      match ← ctiLine strptime buf from_ to_ with
      | .inr st => pure (st, g.2)
      | .inl (from_, to_) =>
        if from_.isSome && to_.isSome then pure (ctiVerdict eph from_ to_, g.2)
        else
          let e ← atxLabel buf c!"START OF FREQUENCY"
          if e then pure (ctiVerdict eph from_ to_, g.2)
          else ctiLoop strptime eph fuel buf from_ to_ g.2

/-- `check_time_interval` — antex.cpp:410-467. -/
def checkTimeInterval (strptime : List Char → Res DateTime) (J : AtxJunk) (fuel : Nat) (eph : DateTime)
    (s : Stream) : Res (Int × Stream) :=
  Res.noexcept (do
    let r ← atxExpect ATX_GRID_CHARS c!"METH / BY / # / DATE" (J.grid s.pos) s
    if r.1 = false then pure (10, r.2.2)
    else ctiLoop strptime eph fuel r.2.1 none none r.2.2)

/-- Result of the search for a satellite antenna: status, `ant_pos`, `cur_sat`, stream. -/
structure AtxSatOut where
  status : Int
  pos : Option Nat
  sat : AtxSat
  strm : Stream

/-- antex.cpp:518-521. -/
def atxSatEnd (stat1 : Int) (stat2 : Option Int) (pos : Option Nat) (sat : AtxSat) (s : Stream) : Res AtxSatOut :=
  if stat1 > 0 then .ok ⟨1, pos, sat, s⟩
  else
    match stat2 with
    | none => .ub
    | some st => if st ≠ 0 then .ok ⟨1, pos, sat, s⟩ else .ok ⟨10, pos, sat, s⟩

/-- antex.cpp:504-512: does the block match?  (true: return 0). -/
def atxSatTest (strptime : List Char → Res DateTime) (J : AtxJunk) (fuel : Nat) (prn : Int) (ss : SatSys)
    (eph : DateTime) (c : List Char) (sat : AtxSat) (s : Stream) : Res (Bool × AtxSat × Stream) := do
  let r ← atxResolve c sat
  if r.1 = 0 ∧ r.2.prn = prn ∧ r.2.sys = ss then
    let t ← checkTimeInterval strptime J fuel eph s
    pure (t.1 = 0, r.2, t.2)
  else pure (false, r.2, s)

/-- The loop of `find_satellite_antenna` — antex.cpp:501-515. -/
def atxSatLoop (strptime : List Char → Res DateTime) (J : AtxJunk) (prn : Int) (ss : SatSys) (eph : DateTime) :
    (fuel : Nat) → (cur c : List Char) → (sat : AtxSat) → (pos : Option Nat) → (stat2 : Option Int) → Stream →
    Res AtxSatOut
  | 0, _, _, _, _, _, _ => .diverge
  | fuel + 1, cur, c, sat, pos, stat2, s => do
      let r ← atxReadType J cur c s
      if r.status ≠ 0 then atxSatEnd r.status stat2 pos sat r.strm
      else
        let sat := { sat with sys := .mixed }
        let t := r.strm.tellg
        let m ← atxSatTest strptime J fuel prn ss eph r.c sat t.2
        if m.1 then pure ⟨0, t.1, m.2.1, m.2.2⟩
        else
          let k ← atxSkip J m.2.2
          if k.1 ≠ 0 then atxSatEnd 0 (some k.1) t.1 m.2.1 k.2
          else atxSatLoop strptime J prn ss eph fuel r.ant r.c m.2.1 t.1 (some k.1) k.2

/-- `Antex::find_satellite_antenna` — antex.cpp:489-522.  `cospar` are the indeterminate 9 bytes of
`cur_sat`. -/
def atxFindSat (strptime : List Char → Res DateTime) (J : AtxJunk) (cospar : List Char) (fuel : Nat) (f : AtxFile)
    (prn : Int) (ss : SatSys) (eph : DateTime) : Res AtxSatOut :=
  Res.noexcept (do
    let s := atxSeek f.strm f.endOfHead
    let cur ← antInit (J.ant s.pos)
    atxSatLoop strptime J prn ss eph fuel cur (J.head s.pos) ⟨.mixed, -1, -1, List.replicate 21 NUL, cospar⟩
      (some 0) none s)

/-! ## Phase centre offsets -/

/-- `class AntennaPco` — antenna_pcv.hpp:44-61. -/
structure Pco where
  code : ObsCode
  sys : SatSys
  dn : Rat
  de : Rat
  du : Rat
  deriving DecidableEq, Repr

/-- The loops `do { getline } while (fin && strncmp(line+60, pat))` — antex.cpp:728-730, 741-743,
776-778: array and stream at the end.  Every iteration but the last consumes bytes; `fuel` bounds
their number. -/
def atxScanTo (n : Nat) (pat : List Char) : (fuel : Nat) → (buf : List Char) → Stream → Res (List Char × Stream)
  | 0, _, _ => .diverge
  | fuel + 1, buf, s => do
      let g := s.getline n
      let buf := fillLine buf g.1
      if g.2.fail then pure (buf, g.2)
      else
        let e ← atxLabel buf pat
        if e then pure (buf, g.2) else atxScanTo n pat fuel buf g.2

/-- antex.cpp:738-751: be at a START OF FREQUENCY line; `inr`: leave the function. -/
def pcoAtFreq (fuel : Nat) (hline gline : List Char) (s : Stream) :
    Res ((List Char × List Char × Stream) ⊕ (Int × Stream)) := do
  let at_ ← (if s.fail then pure false else atxLabel hline c!"START OF FREQUENCY")
  if at_ then pure (.inl (hline, gline, s))
  else if ← atxLabel hline c!"START OF FREQ RMS" then
    let r ← atxScanTo ATX_GRID_CHARS c!"END OF FREQ RMS" fuel gline s
    let e ← atxExpect ATX_HEADER_CHARS c!"START OF FREQUENCY" hline r.2
    if e.1 then pure (.inl (e.2.1, r.1, e.2.2)) else pure (.inr (11, e.2.2))
  else pure (.inr (5, s))

/-- antex.cpp:754-758: system letter and band; `none`: return 6. -/
def pcoBand (hline : List Char) : Res (Option (SatSys × Int)) := do
  match charToSatsys (← getAt hline 3) with
  | .ok sys =>
    match stoi ((hline.drop 4).take 2) with
    | .ok b => pure (some (sys, b))
    | _ => pure none
  | _ => pure none

/-- The loop over the frequencies — antex.cpp:736-781, `n` of them to go. -/
def pcoLoop (fuel : Nat) : (n : Nat) → (hline gline : List Char) → (list : List Pco) → Stream →
    Res (Int × List Pco × Stream)
  | 0, _, _, list, s => .ok (0, list, s)
  | n + 1, hline, gline, list, s => do
      match ← pcoAtFreq fuel hline gline s with
      | .inr (st, s) => pure (st, list, s)
      | .inl (hline, gline, s) =>
        match ← pcoBand hline with
        | none => pure (6, list, s)
        | some (sys, bn) => do
          let r ← atxExpect ATX_HEADER_CHARS c!"NORTH / EAST / UP" hline s
          if r.1 = false then pure (7, list, r.2.2)
          else
            let dn ← stod (r.2.1.take 10)
            let de ← stod ((r.2.1.drop 10).take 10)
            let du ← stod ((r.2.1.drop 20).take 10)
            let list := list ++ [⟨⟨.any, bn, '?'⟩, sys, dn, de, du⟩]
            let e ← atxScanTo ATX_GRID_CHARS c!"END OF FREQUENCY" fuel gline r.2.2
            let g := e.2.getline ATX_HEADER_CHARS
            pcoLoop fuel n (fillLine r.2.1 g.1) e.1 list g.2

/-- `collect_pco` — antex.cpp:689-784, appending to `list`. -/
def collectPco (J : AtxJunk) (fuel : Nat) (list : List Pco) (s : Stream) : Res (Int × List Pco × Stream) :=
  Res.noexcept (do
    let r ← atxExpect ATX_HEADER_CHARS c!"METH / BY / # / DATE" (J.head s.pos) s
    if r.1 = false then pure (1, list, r.2.2)
    else
      let r ← atxExpect ATX_HEADER_CHARS c!"DAZI" r.2.1 r.2.2
      if r.1 = false then pure (2, list, r.2.2)
      else
        let r ← atxExpect ATX_HEADER_CHARS c!"ZEN1 / ZEN2 / DZEN" r.2.1 r.2.2
        if r.1 = false then pure (3, list, r.2.2)
        else
          let r ← atxExpect ATX_HEADER_CHARS c!"# OF FREQUENCIES" r.2.1 r.2.2
          if r.1 = false then pure (4, list, r.2.2)
          else
            match stoi (r.2.1.take 6) with
            | .ok nf => do
              let e ← atxScanTo ATX_HEADER_CHARS c!"START OF FREQUENCY" fuel r.2.1 r.2.2
              pcoLoop fuel nf.toNat e.1 (J.grid s.pos) list e.2
            | _ => pure (4, list, r.2.2))

/-! ## The public queries -/

/-- `Antex::get_antenna_pco(const ReceiverAntenna&, AntennaPcoList&, bool)` — antex.cpp:653-677:
(status, list, object afterwards). -/
def atxPcoReceiver (J : AtxJunk) (fuel : Nat) (f : AtxFile) (antIn : List Char) (mustMatchSerial : Bool) :
    Res (Int × List Pco × AtxFile) := do
  let m ← atxFindMatch J fuel f antIn
  if m.status > 0 then pure (m.status, [], { f with strm := m.strm })
  else if m.status = 0 ∧ mustMatchSerial = true then pure (10, [], { f with strm := m.strm })
  else
    let c ← collectPco J fuel [] (atxSeek m.strm m.pos)
    pure (c.1, c.2.1, { f with strm := c.2.2 })

/-- `Antex::get_antenna_pco(int, SATELLITE_SYSTEM, ...)` — antex.cpp:616-636: (status, list, `*sv` if it
was assigned, object afterwards). -/
def atxPcoSatellite (strptime : List Char → Res DateTime) (J : AtxJunk) (cospar : List Char) (fuel : Nat)
    (f : AtxFile) (prn : Int) (ss : SatSys) (eph : DateTime) : Res (Int × List Pco × Option AtxSat × AtxFile) := do
  let m ← atxFindSat strptime J cospar fuel f prn ss eph
  if m.status > 0 then pure (m.status, [], none, { f with strm := m.strm })
  else
    let c ← collectPco J fuel [] (atxSeek m.strm m.pos)
    pure (c.1, c.2.1, some m.sat, { f with strm := c.2.2 })

/-- `Antex::get_satellite_info` — antex.cpp:592-597: (status, `sv` if it was assigned, object). -/
def atxSatInfo (strptime : List Char → Res DateTime) (J : AtxJunk) (cospar : List Char) (fuel : Nat)
    (f : AtxFile) (prn : Int) (ss : SatSys) (eph : DateTime) : Res (Int × Option AtxSat × AtxFile) := do
  let m ← atxFindSat strptime J cospar fuel f prn ss eph
  pure (m.status, if m.status = 0 then some m.sat else none, { f with strm := m.strm })

end Ggnss
