import Verif.Model.Stream
import Verif.Model.Time
import Verif.Model.Str
import Verif.Model.SatSys
/-!
# Model of `src/navrnx.hpp`, `src/navrnx.cpp` (production build, `DEBUG` not defined)

The external library ggdatetime is represented by `DateTime` (modified Julian day and seconds of
day, the semantics of its class `datetime<seconds>`) and by the parameter `strptime` of the
functions that call `ngpt::strptime_ymd_hms` (a function of the C string it is given).
-/
namespace Ggnss

/-- `class NavDataFrame` — navrnx.hpp:14-17, 235-240: `data__` has 31 elements. -/
structure NavFrame where
  sys : SatSys
  prn : Int
  toc : DateTime
  toe : DateTime
  data : List Rat
  deriving DecidableEq, Repr

/-- `data__[i]`: undefined outside the 31 elements. -/
def dataAt (d : List Rat) (i : Nat) : Res Rat :=
  match d[i]? with
  | some v => .ok v
  | none => .ub

/-- Storing `vals` at `data__ + off`: undefined when one of them falls outside the array. -/
def storeAt (d : List Rat) (off : Nat) (vals : List Rat) : Res (List Rat) :=
  if off + vals.length ≤ d.length then
    .ok (d.take off ++ vals ++ d.drop (off + vals.length))
  else .ub

/-- `__lines_per_satsys_v3__` — navrnx.cpp:38-64: (lines of a block, `records_in_last_line`);
the caller's `records_in_last_line` is 0 when the system is not handled. -/
def linesPerSatsys : SatSys → Int × Nat
  | .gps => (8, 2)
  | .qzss => (8, 2)
  | .beidou => (8, 2)
  | .galileo => (8, 1)
  | .irnss => (8, 1)
  | .glonass => (4, 4)
  | .sbas => (4, 4)
  | .mixed => (-10, 0)

/-- `MAX_RECORD_CHARS` — navrnx.cpp:21. -/
def MAX_RECORD_CHARS : Nat := 128

/-- The `errno` value for range errors. -/
def ERANGE : Int := 34

/-- `gps_toe2date`, also used by `gal_toe2date` — navrnx.hpp:467-471, 484-486. -/
def gpsToe (f : NavFrame) : Res DateTime := do
  let wk ← castInt (← dataAt f.data 21)
  let sc ← castLong (← dataAt f.data 11)
  pure (DateTime.ofGpsWeek wk sc)

/-- `bds_toe2date` — navrnx.hpp:494-498. -/
def bdsToe (f : NavFrame) : Res DateTime := do
  let wk ← castInt (← dataAt f.data 21)
  let sc ← castLong (← dataAt f.data 11)
  pure (DateTime.ofGpsWeek (wk + 1356) sc)

/-- `glo_toe2date` — navrnx.hpp:516-557 (`long`/`int` arithmetic without overflow). -/
def gloToe (f : NavFrame) : Res DateTime := do
  let dwToc := f.toc.sow.tdiv 86400
  let swToe ← castLong (← dataAt f.data 2)
  let dwToe := swToe.tdiv 86400
  let offset := dwToc - dwToe
  let sdToe := swToe.tmod 86400
  pure ⟨f.toc.mjd - offset, sdToe⟩

/-- `toe2date` — navrnx.hpp:26-48. -/
def toe2date (f : NavFrame) : Res DateTime :=
  match f.sys with
  | .gps => gpsToe f
  | .glonass => gloToe f
  | .galileo => gpsToe f
  | .beidou => bdsToe f
  | _ => .throw .runtime_error

/-- `sv_health` — navrnx.hpp:75-94. -/
def svHealth (f : NavFrame) : Res Int :=
  match f.sys with
  | .glonass => do castInt (← dataAt f.data 6)
  | .gps => do castInt (← dataAt f.data 24)
  | .galileo => do castInt (← dataAt f.data 24)
  | .beidou => do castInt (← dataAt f.data 24)
  | _ => .throw .runtime_error

/-- `gps_fit_interval` — gpsnav.cpp:253-255: `3600L * (int)` converted back to `int`. -/
def gpsFitInterval (f : NavFrame) : Res Int := do
  let h ← castInt (← dataAt f.data 28)
  pure (toInt32 (3600 * h))

/-- `fit_interval` — navrnx.hpp:96-116 (seconds). -/
def fitInterval (f : NavFrame) : Res Int :=
  match f.sys with
  | .glonass => .ok 900
  | .gps => gpsFitInterval f
  | .galileo => .ok 14400
  | .beidou => .ok 14400
  | _ => .throw .runtime_error

/-- What a call that reads a record leaves behind: returned status, frame, stream, `errno`. -/
structure NavOut where
  status : Int
  frame : NavFrame
  strm : Stream
  errno : Int

/-- Numbers on the `ln`-th broadcast orbit line that is not the last one — navrnx.cpp:111-144
(Galileo and BeiDou take 3 from line #5). -/
def recsOnLine (sys : SatSys) (ln : Nat) : Nat :=
  if (sys = .galileo ∨ sys = .beidou) ∧ ln = 4 then 3 else 4

/-- The two loops of navrnx.cpp:112-123 and 125-143, `n` lines to go, at line `ln`; `buf` is the
array `line`.  `none`: the loop ran to its end. -/
def orbitLines (sys : SatSys) (errno : Int) : (n ln : Nat) → (buf : List Char) → (f : NavFrame) →
    (s : Stream) → Res (Option Int × List Char × NavFrame × Stream)
  | 0, _, buf, f, s => .ok (none, buf, f, s)
  | n + 1, ln, buf, f, s => do
      let g := s.getline MAX_RECORD_CHARS
      let buf := fillLine buf g.1
      if g.2.fail then pure (some 5, buf, f, g.2)
      else
        let buf ← for2cpp buf
        let r ← char2double (errno ≠ 0) 19 (recsOnLine sys ln) (buf.drop 4)
        let d ← storeAt f.data (3 + ln * 4) r.2
        let f := { f with data := d }
        if r.1 then orbitLines sys errno n (ln + 1) buf f g.2
        else pure (some 6, buf, f, g.2)

/-- The GLONASS state vector from km to m — navrnx.cpp:160-163. -/
def gloScale (d : List Rat) : List Rat :=
  d.mapIdx (fun i v => if i ∈ [3, 4, 5, 7, 8, 9, 11, 12, 13] then v * 1000 else v)

/-- `NavDataFrame::set_from_rnx3` up to the end of the block, navrnx.cpp:76-163: (frame as filled
in from the file, or an error status).  `junk` is the indeterminate content of the array `line` at
entry. -/
def readBlock (strptime : List Char → Res DateTime) (junk : List Char) (f : NavFrame) (s : Stream)
    (errno : Int) : Res NavOut := do
  let g := s.getline MAX_RECORD_CHARS
  let buf := fillLine junk g.1
  let s := g.2
  if s.fail then pure ⟨1, f, s, errno⟩
  else
    let sys ← charToSatsys (← getAt buf 0)
    let toc ← strptime (← cstrOf (buf.drop 3))
    let p ← strtolA (buf.drop 1)
    let prn := toInt32 (strtolVal p)
    let errno := if strtolErr p then ERANGE else errno
    let f := { f with sys := sys, toc := toc, prn := prn }
    if prn = 0 ∨ errno = ERANGE then pure ⟨2, f, s, 0⟩
    else
      let tail ← for2cpp (buf.drop 23)
      let buf := buf.take 23 ++ tail
      let r ← char2double (errno ≠ 0) 19 3 (buf.drop 23)
      let d ← storeAt f.data 0 r.2
      let f := { f with data := d }
      if !r.1 then pure ⟨3, f, s, 0⟩
      else
        let lines := (linesPerSatsys sys).1 - 1
        if lines < 0 then pure ⟨4, f, s, errno⟩
        else
          let n := (lines - 1).toNat
          let o ← orbitLines sys errno n 0 buf f s
          let buf := o.2.1
          let f := o.2.2.1
          let s := o.2.2.2
          match o.1 with
          | some 5 => pure ⟨5, f, s, errno⟩
          | some e => pure ⟨e, f, s, 0⟩
          | none =>
            let g := s.getline MAX_RECORD_CHARS
            let buf := fillLine buf g.1
            let s := g.2
            if s.fail then pure ⟨7, f, s, errno⟩
            else
              let buf ← for2cpp buf
              let r ← char2double (errno ≠ 0) 19 (linesPerSatsys sys).2 (buf.drop 4)
              let d ← storeAt f.data (3 + n * 4) r.2
              let f := { f with data := d }
              if !r.1 then pure ⟨8, f, s, 0⟩
              else
                pure ⟨0, { f with data := if sys = .glonass then gloScale d else d }, s, errno⟩

/-- `NavDataFrame::set_from_rnx3` — navrnx.cpp:76-180: the block, then the time of ephemeris for
the four systems that define it (174-179).  It is `noexcept`: exceptions of `char_to_satsys` and
of the date parser end the program. -/
def setFromRnx3 (strptime : List Char → Res DateTime) (junk : List Char) (f : NavFrame) (s : Stream)
    (errno : Int) : Res NavOut :=
  Res.noexcept (do
    let o ← readBlock strptime junk f s errno
    if o.status ≠ 0 then pure o
    else if o.frame.sys = .gps ∨ o.frame.sys = .glonass ∨ o.frame.sys = .galileo ∨
        o.frame.sys = .beidou then
      let toe ← toe2date o.frame
      pure { o with frame := { o.frame with toe := toe } }
    else pure o)

/-- `NavigationRnx::read_next_record` — navrnx.cpp:256-268. -/
def readNextRecord (strptime : List Char → Res DateTime) (junk : List Char) (f : NavFrame)
    (s : Stream) (errno : Int) : Res NavOut :=
  match s.peek with
  | (some _, s) => setFromRnx3 strptime junk f s errno
  | (none, s) => if s.eof then .ok ⟨-1, f, s.clear, errno⟩ else .ok ⟨50, f, s, errno⟩

/-- Is the char returned by `peek()` and stored in a (signed) `char` equal to `EOF`?  True at end of
file and also for the byte 0xFF — navrnx.cpp:284-285, 322-323. -/
def peekedEof : Option Char → Bool
  | none => true
  | some c => c = '\xff'

/-- `n` times `getline`, stopping at the first failure: (no failure, stream). -/
def skipLines : Nat → Stream → Bool × Stream
  | 0, s => (true, s)
  | n + 1, s =>
      let g := (s.getline MAX_RECORD_CHARS).2
      if g.fail then (false, g) else skipLines n g

/-- `NavigationRnx::ignore_next_block` — navrnx.cpp:279-306: (status, stream). -/
def ignoreNextBlock (s : Stream) : Int × Stream :=
  match s.peek with
  | (c, s) =>
    if peekedEof c then (-1, s.clear)
    else
      match charToSatsys (c.getD NUL) with
      | .ok sys =>
          let r := skipLines (linesPerSatsys sys).1.toNat s
          if r.1 then (0, r.2) else (2, r.2)
      | _ => (1, s)

/-- `NavigationRnx::peak_satsys` — navrnx.cpp:314-334: (status, system, stream). -/
def peakSatsys (s : Stream) : Int × SatSys × Stream :=
  match s.peek with
  | (c, s) =>
    if peekedEof c then (-1, .mixed, s.clear)
    else
      match charToSatsys (c.getD NUL) with
      | .ok sys => (0, sys, s)
      | _ => (1, .mixed, s)

/-- The loop shared by `find_next` (navrnx.cpp:368-381) and `find_next_valid`
(navrnx.hpp:650-695).  `accept` is what happens with a record of the requested system that was read:
`some st` ends the search with status `st`, `none` continues.  `junk p` is the indeterminate content
of the local array of the call made at stream position `p`.  The counter `dummy_it` is never
incremented, so only the body ends the loop; `fuel` bounds the number of iterations. -/
def findLoop (strptime : List Char → Res DateTime) (junk : Nat → List Char)
    (accept : NavFrame → Res (Option Int)) (sys : SatSys) :
    (fuel : Nat) → NavFrame → Stream → (errno : Int) → Res NavOut
  | 0, _, _, _ => .diverge
  | fuel + 1, f, s, errno =>
      match peakSatsys s with
      | (status, csys, s) =>
        if status ≠ 0 then .ok ⟨status, f, s, errno⟩
        else if csys = sys then do
          let o ← readNextRecord strptime (junk s.pos) f s errno
          if o.status ≠ 0 then pure { o with strm := o.strm.clear }
          else
            match ← accept o.frame with
            | some st => pure { o with status := st }
            | none => findLoop strptime junk accept sys fuel o.frame o.strm o.errno
        else
          match ignoreNextBlock s with
          | (status, s) =>
            if status ≠ 0 then .ok ⟨status, f, s.clear, errno⟩
            else findLoop strptime junk accept sys fuel f s errno

/-- Acceptance test of `find_next` — navrnx.cpp:375-376. -/
def acceptPrn (prn : Int) (f : NavFrame) : Res (Option Int) :=
  .ok (if prn = -1 ∨ prn = f.prn then some 0 else none)

/-- `NavigationRnx::find_next` — navrnx.cpp:359-384: `curpos` and the outcome. -/
def findNext (strptime : List Char → Res DateTime) (junk : Nat → List Char) (fuel : Nat)
    (sys : SatSys) (prn : Int) (f : NavFrame) (s : Stream) (errno : Int) :
    Res (Option Nat × NavOut) := do
  let t := s.tellg
  let o ← findLoop strptime junk (acceptPrn prn) sys fuel f t.2 errno
  pure (t.1, o)

/-- Acceptance test of `find_next_valid` — navrnx.hpp:657-690.  `t` is the query epoch in
milliseconds since MJD 0 (the code compares it with `toc<milliseconds>()`, so `T` is
`milliseconds`). -/
def acceptValid (t : Int) (sys : SatSys) (prn : Int) (f : NavFrame) : Res (Option Int) :=
  if prn = f.prn then
    let toc := 1000 * f.toc.total
    if toc > t ∧ toc - t > 3600 * 4 * 1000 then .ok (some (-1))
    else do
      let h ← svHealth f
      if h = 0 then
        let fit ← fitInterval f
        if sys ≠ .glonass then
          let maxT := toc + 1000 * fit
          pure (if t ≥ toc ∧ t < maxT then some 0 else none)
        else
          let maxT := 1000 * f.toe.total + 1000 * fit
          let minT := 1000 * f.toe.total - 1000 * fit
          pure (if t ≥ minT ∧ t < maxT then some 0 else none)
      else pure none
  else .ok none

/-- `NavigationRnx::find_next_valid` — navrnx.hpp:637-698 (`noexcept`). -/
def findNextValid (strptime : List Char → Res DateTime) (junk : Nat → List Char) (fuel : Nat)
    (t : Int) (sys : SatSys) (prn : Int) (f : NavFrame) (s : Stream) (errno : Int) :
    Res (Option Nat × NavOut) :=
  Res.noexcept (do
    let tg := s.tellg
    let o ← findLoop strptime junk (acceptValid t sys prn) sys fuel f tg.2 errno
    pure (tg.1, o))

/-- `NavigationRnx::rewind` — navrnx.cpp:338-345; `none` is `pos_type(-1)`. -/
def navRewind (endOfHead : Nat) (s : Stream) : Option Nat → Stream
  | none => s.seekg endOfHead
  | some p => s.seekg p

end Ggnss
