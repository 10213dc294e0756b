import Verif.Model.Nav
/-!
# Model of `src/bern_utils.cpp`: Bernese SATELLIT files

`DEBUG` not defined; the file could be opened (`is_open()` is true).  The external function
`ngpt::strptime_ymd_hms` of ggdatetime is a parameter `strptime` of the model: it gets the bytes of
the array from the given pointer on.
-/
namespace Ggnss

/-- `MAX_SATELLIT_CHARS` — bern_utils.cpp:11. -/
def MAX_SATELLIT_CHARS : Nat := 256

/-- The line announcing the records — bern_utils.cpp:114. -/
def bernPart2 : List Char := c!"PART 2: ON-BOARD SENSORS"

/-- The first line of the file — bern_utils.cpp:111-112. -/
def bernLine1 : List Char := c!"SATELLITE-SPECIFIC INFO FOR GPS/GLONASS/GEO/LEO/SLR, BSW5.2"

/-- First heading line — bern_utils.cpp:147-149. -/
def bernHead1 : List Char :=
  c!"                                              START TIME " ++
  c!"          END TIME                 SENSOR OFFSETS (M)    " ++
  c!"   SENSOR BORESIGHT VECTOR (U) SENSOR AZIMUTH VECTOR (N)"

/-- Second heading line — bern_utils.cpp:154-158. -/
def bernHead2 : List Char :=
  c!"PRN  TYPE  SENSOR NAME______SVN  NUMBER  YYYY MM DD HH MM SS  YYYY MM " ++
  c!"DD HH MM SS         DX        DY        DZ         X       Y       Z    " ++
  c!"      X       Y       Z      ANTEX SENSOR NAME___  IFRQ  SIGNAL " ++
  c!"LIST___________------>"

/-- Result of `get_frequency_channel`: status, the two output arguments, stream and `errno`. -/
structure BernOut where
  status : Int
  ifrqn : Int
  prn : Int
  strm : Stream
  errno : Int

/-- The end of validity — bern_utils.cpp:71-77: `none` is `datetime::max()`. `n` columns still to
look at, the next one is `i`. -/
def bernStop (strptime : List Char → Res DateTime) (line : List Char) : (n i : Nat) → Res (Option DateTime)
  | 0, _ => .ok none
  | n + 1, i => do
      let c ← getAt line i
      if c ≠ ' ' then
        let d ← strptime (line.drop 62)
        pure (some d)
      else bernStop strptime line n (i + 1)

/-- `eph < stop`; every epoch is before `datetime::max()` (an epoch equal to `max()` is not
modelled). -/
def beforeStop (eph : DateTime) : Option DateTime → Bool
  | none => true
  | some d => decide (eph.total < d.total)

/-- What is done with a record line — bern_utils.cpp:63-92: `inl`: go on with this `errno`;
`inr`: leave the function with (status, ifrqn, prn, errno). -/
def bernLine (strptime : List Char → Res DateTime) (svn : Int) (eph : DateTime) (ifrqn prn : Int)
    (line : List Char) (errno : Int) : Res (Int ⊕ (Int × Int × Int × Int)) := do
  let c5 ← getAt line 5
  let c6 ← getAt line 6
  if c5 = 'M' ∧ c6 = 'W' then
    let p ← strtolA (line.drop 28)
    let errno := if strtolErr p then ERANGE else errno
    if errno = ERANGE ∨ p = none then pure (.inr (2, ifrqn, prn, 0))
    else if toInt32 (strtolVal p) = svn then
      let start ← strptime (line.drop 41)
      let stop ← bernStop strptime line 20 62
      if start.total ≤ eph.total ∧ beforeStop eph stop = true then
        let q ← strtolA line
        let errno := if strtolErr q then ERANGE else errno
        let r ← strtolA (line.drop 193)
        let errno := if strtolErr r then ERANGE else errno
        if errno = ERANGE then pure (.inr (3, toInt32 (strtolVal r), toInt32 (strtolVal q), 0))
        else pure (.inr (0, toInt32 (strtolVal r), toInt32 (strtolVal q), errno))
      else pure (.inl errno)
    else pure (.inl errno)
  else pure (.inl errno)

/-- The loop of bern_utils.cpp:59-100; `left` is `max_lines - line_count`, `line` the array.  The
loop is left through `satellite_matched` only by a `return`, so the final status is `-1`. -/
def bernLoop (strptime : List Char → Res DateTime) (svn : Int) (eph : DateTime) (ifrqn prn : Int) :
    (left : Nat) → (line : List Char) → Stream → (errno : Int) → Res BernOut
  | 0, _, s, errno => .ok ⟨-1, ifrqn, prn, s, errno⟩
  | left + 1, line, s, errno => do
      let r ← bernLine strptime svn eph ifrqn prn line errno
      match r with
      | .inr x => pure ⟨x.1, x.2.1, x.2.2.1, s, x.2.2.2⟩
      | .inl errno => do
        let g := s.getline MAX_SATELLIT_CHARS
        let line := fillLine line g.1
        let str ← cstrOf line
        let part3 ← strncmpEq 6 (cArr c!"PART 3") line
        if str.length < 10 ∨ part3 = true then pure ⟨-1, ifrqn, prn, g.2, errno⟩
        else bernLoop strptime svn eph ifrqn prn left line g.2 errno

/-- `BernSatellit::get_frequency_channel` — bern_utils.cpp:41-101.  `junk` is the indeterminate
content of the array `line`, `part2` the member `__part2`. -/
def getFrequencyChannel (strptime : List Char → Res DateTime) (junk : List Char) (part2 : Nat)
    (svn : Int) (eph : DateTime) (ifrqn prn : Int) (s : Stream) (errno : Int) : Res BernOut :=
  let s := s.seekg part2
  let g := s.getline MAX_SATELLIT_CHARS
  bernLoop strptime svn eph ifrqn prn 1000 (fillLine junk g.1) g.2 errno

/-- The search for 'PART 2' — bern_utils.cpp:135-139; `left` is `max_lines - line_count`. -/
def bernSkip : (left : Nat) → (line : List Char) → Stream → Res (Nat × List Char × Stream)
  | 0, line, s => do
      let _ ← strncmpEq bernPart2.length (cArr bernPart2) line
      pure (0, line, s)
  | left + 1, line, s => do
      let e ← strncmpEq bernPart2.length (cArr bernPart2) line
      if e = true then pure (left + 1, line, s)
      else
        let g := s.getline MAX_SATELLIT_CHARS
        bernSkip left (fillLine line g.1) g.2

/-- `BernSatellit::initialize` — bern_utils.cpp:109-170: status, `__part2` (`none` is
`pos_type(-1)`) and stream. -/
def bernInitialize (junk : List Char) (s : Stream) : Res (Int × Option Nat × Stream) :=
  Res.noexcept (do
    let s := s.seekg 0
    let g := s.getline MAX_SATELLIT_CHARS
    let line := fillLine junk g.1
    let e ← strncmpEq bernLine1.length (cArr bernLine1) line
    if e = false then pure (10, some 0, g.2)
    else
      let k ← bernSkip 1000 line g.2
      if k.2.2.good = false ∨ k.1 = 0 then pure (11, some 0, k.2.2)
      else
        let g1 := k.2.2.getline MAX_SATELLIT_CHARS
        let line := fillLine k.2.1 g1.1
        let g2 := g1.2.getline MAX_SATELLIT_CHARS
        let line := fillLine line g2.1
        let e ← strncmpEq bernHead1.length (cArr bernHead1) line
        if e = false then pure (12, some 0, g2.2)
        else
          let g3 := g2.2.getline MAX_SATELLIT_CHARS
          let line := fillLine line g3.1
          let e ← strncmpEq bernHead2.length (cArr bernHead2) line
          if e = false then pure (13, some 0, g3.2)
          else
            let g4 := g3.2.getline MAX_SATELLIT_CHARS
            pure (0, g4.2.tellg.1, g4.2.tellg.2))

/-- The object built by the constructor. -/
structure BernFile where
  part2 : Option Nat
  strm : Stream

/-- `BernSatellit::BernSatellit` for a file with these bytes — bern_utils.cpp:19-27. -/
def bernOpen (junk content : List Char) : Res BernFile := do
  let r ← bernInitialize junk ⟨content, 0, false, false⟩
  if r.1 ≠ 0 then .throw .runtime_error else pure ⟨r.2.1, r.2.2⟩

end Ggnss
