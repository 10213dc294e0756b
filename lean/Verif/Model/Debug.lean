import Verif.Model.Nav
import Verif.Model.Orbit
import Verif.Model.ObsRead
/-!
# Model of the build with `DEBUG` defined

`src/Makefile.am` and `test/Makefile.am` compile with `-DDEBUG` (and without `-DNDEBUG`, so `assert` is active); `Makefile.am.production`
does not.  The other modules model the build without `DEBUG`.  Some blocks under `#ifdef DEBUG` do more than print: here are the functions
that contain such a block, with it, and those that call them.  A failing `assert` ends the program: `.terminate`.
-/
namespace Ggnss

/-- `assert(c)`. -/
def cassert (c : Bool) : Res Unit := if c then .ok () else .terminate

/-- `std::abs(x - n) < 1e-15`. -/
def nearInt (x : Rat) (n : Int) : Bool := decide (|x - (n : Rat)| < 1 / 1000000000000000)

/-! ## Navigation records -/

/-- `assert(std::abs(data__[i] - (int)data__[i]) < 1e-15)` — navrnx.cpp:168-172. -/
def assertWhole (d : List Rat) (i : Nat) : Res Unit := do
  let x ← dataAt d i
  let n ← castInt x
  cassert (nearInt x n)

/-- The assertions before the time of ephemeris is set — navrnx.cpp:166-173. -/
def toeAsserts (f : NavFrame) : Res Unit :=
  match f.sys with
  | .glonass => assertWhole f.data 2
  | .gps => assertWhole f.data 11
  | .galileo => assertWhole f.data 11
  | .beidou => assertWhole f.data 11
  | _ => .ok ()

/-- `glo_toe2date` with its assertions — navrnx.hpp:516-557 (`DEBUG` blocks at 525-527 and 532-552): after the
assertions the result is that of `gloToe`. -/
def gloToeD (f : NavFrame) : Res DateTime := do
  let x ← dataAt f.data 2
  let swToe ← castLong x
  cassert (nearInt x swToe)
  let dwToe := swToe.tdiv 86400
  let sdToe := swToe.tmod 86400
  let test := x - (dwToe : Rat) * 86400
  let health ← castInt (← dataAt f.data 6)
  cassert (health ≠ 0 || nearInt test sdToe)
  gloToe f

/-- `toe2date` — navrnx.hpp:26-48. -/
def toe2dateD (f : NavFrame) : Res DateTime :=
  match f.sys with
  | .glonass => gloToeD f
  | _ => toe2date f

/-- `NavDataFrame::set_from_rnx3` — navrnx.cpp:76-180 with the blocks 80-83 and 166-173. -/
def setFromRnx3D (strptime : List Char → Res DateTime) (junk : List Char) (f : NavFrame) (s : Stream)
    (errno : Int) : Res NavOut :=
  if s.good = false then .ok ⟨50, f, s, errno⟩
  else
    Res.noexcept (do
      let o ← readBlock strptime junk f s errno
      if o.status ≠ 0 then pure o
      else
        toeAsserts o.frame
        if o.frame.sys = .gps ∨ o.frame.sys = .glonass ∨ o.frame.sys = .galileo ∨ o.frame.sys = .beidou then
          let toe ← toe2dateD o.frame
          pure { o with frame := { o.frame with toe := toe } }
        else pure o)

/-- `NavigationRnx::read_next_record` — navrnx.cpp:256-268 with the block 257-260. -/
def readNextRecordD (strptime : List Char → Res DateTime) (junk : List Char) (f : NavFrame)
    (s : Stream) (errno : Int) : Res NavOut :=
  if s.good = false then .ok ⟨50, f, s, errno⟩
  else
    match s.peek with
    | (some _, s) => setFromRnx3D strptime junk f s errno
    | (none, s) => if s.eof then .ok ⟨-1, f, s.clear, errno⟩ else .ok ⟨50, f, s, errno⟩

/-- `NavigationRnx::ignore_next_block` — navrnx.cpp:279-306 with the block 280-283. -/
def ignoreNextBlockD (s : Stream) : Int × Stream := if s.good = false then (50, s) else ignoreNextBlock s

/-- `NavigationRnx::peak_satsys` — navrnx.cpp:314-334 with the block 315-320. -/
def peakSatsysD (s : Stream) : Int × SatSys × Stream := if s.good = false then (10, .mixed, s) else peakSatsys s

/-- The loop shared by `find_next` (navrnx.cpp:368-381) and `find_next_valid` (navrnx.hpp:650-695), calling the functions above;
as `findLoop`. -/
def findLoopD (strptime : List Char → Res DateTime) (junk : Nat → List Char)
    (accept : NavFrame → Res (Option Int)) (sys : SatSys) :
    (fuel : Nat) → NavFrame → Stream → (errno : Int) → Res NavOut
  | 0, _, _, _ => .diverge
  | fuel + 1, f, s, errno =>
      match peakSatsysD s with
      | (status, csys, s) =>
        if status ≠ 0 then .ok ⟨status, f, s, errno⟩
        else if csys = sys then do
          let o ← readNextRecordD strptime (junk s.pos) f s errno
          if o.status ≠ 0 then pure { o with strm := o.strm.clear }
          else
            match ← accept o.frame with
            | some st => pure { o with status := st }
            | none => findLoopD strptime junk accept sys fuel o.frame o.strm o.errno
        else
          match ignoreNextBlockD s with
          | (status, s) =>
            if status ≠ 0 then .ok ⟨status, f, s.clear, errno⟩
            else findLoopD strptime junk accept sys fuel f s errno

/-- `NavigationRnx::find_next` — navrnx.cpp:359-384 with the block 361-364; `cur0` is what the caller's `curpos` holds before. -/
def findNextD (strptime : List Char → Res DateTime) (junk : Nat → List Char) (fuel : Nat) (cur0 : Option Nat)
    (sys : SatSys) (prn : Int) (f : NavFrame) (s : Stream) (errno : Int) :
    Res (Option Nat × NavOut) :=
  if s.good = false then .ok (cur0, ⟨50, f, s, errno⟩)
  else do
    let t := s.tellg
    let o ← findLoopD strptime junk (acceptPrn prn) sys fuel f t.2 errno
    pure (t.1, o)

/-- `NavigationRnx::find_next_valid` — navrnx.hpp:637-698 with the block 643-646. -/
def findNextValidD (strptime : List Char → Res DateTime) (junk : Nat → List Char) (fuel : Nat) (cur0 : Option Nat)
    (t : Int) (sys : SatSys) (prn : Int) (f : NavFrame) (s : Stream) (errno : Int) :
    Res (Option Nat × NavOut) :=
  if s.good = false then .ok (cur0, ⟨50, f, s, errno⟩)
  else
    Res.noexcept (do
      let tg := s.tellg
      let o ← findLoopD strptime junk (acceptValid t sys prn) sys fuel f tg.2 errno
      pure (tg.1, o))

/-! ## Orbits and clocks -/

/-- `kepler2state<S>` — navrnx.hpp:267-351 with the block 283-289. -/
noncomputable def kepler2stateD (k : KeplerConst) (f : NavFrame) (tSec : ℝ) (o : KeplerOut) : KeplerOut :=
  let tk := tSec - f.toeSec
  open Classical in
  if tk < -302400 ∨ tk > 302400 then { o with status := -1 } else kepler2state k f tSec o

/-- `sv_clock<S>` — navrnx.hpp:387-439 with the block 396-406. -/
noncomputable def svClockD (k : KeplerConst) (f : NavFrame) (tSec : ℝ) (Ein : Option ℝ) (c0 : ℝ) : Int × ℝ :=
  let dt := tSec - f.tocSec
  open Classical in
  if dt < -302400 ∨ dt > 302400 then (-1, c0) else svClock k f tSec Ein c0

/-- `gps_stateNclock`, `gal_stateNclock`, `bds_stateNclock` — navrnx.hpp:144-184, calling the functions above. -/
noncomputable def keplerStateNclockD (k : KeplerConst) (f : NavFrame) (t : Epoch) (o : StateClock) : StateClock :=
  let r := kepler2stateD k f (ref2toe f t) ⟨0, ![o.state 0, o.state 1, o.state 2], 0⟩
  if r.status ≠ 0 then { o with status := r.status }
  else
    let c := svClockD k f (ref2toc f t) none o.clock
    ⟨c.1, putPos o.state r.state, c.2⟩

/-- `stateNclock` — navrnx.hpp:50-73. -/
noncomputable def stateNclockD (f : NavFrame) (fuel : Nat) (t : Epoch) (o : StateClock) : Res StateClock :=
  match f.sys with
  | .gps => .ok (keplerStateNclockD gpsConst f t o)
  | .glonass => gloStateNclock f fuel t o
  | .galileo => .ok (keplerStateNclockD galConst f t o)
  | .beidou => .ok (keplerStateNclockD bdsConst f t o)
  | _ => .throw .runtime_error

/-! ## Observation epochs -/

/-- The date of an epoch header — obsrnx.cpp:393-398: `assert(dom.is_valid(year, month))` (`dateOk`, of the external library) and the
conversion `mjdOf`. -/
def mjdOfD (dateOk : Int → Int → Int → Bool) (mjdOf : Int → Int → Int → Res Int) (y m d : Int) : Res Int := do
  cassert (dateOk y m d)
  mjdOf y m d

/-- `sat_epoch_collect` — obsrnx.cpp:752-795 with the block 759-761. -/
def satEpochCollectD (raw0 : RawRnxObs) (buf : List Char) (sysobs : List IdPairs) (vals : List Rat) (errno : Int) :
    Res (Int × Int × List Rat × Int) := do
  cassert (decide (sysobs.length ≤ vals.length))
  satEpochCollect raw0 buf sysobs vals errno

/-- The loop of `collect_epoch` — obsrnx.cpp:854-883; as `collectLoop`. -/
def collectLoopD (raw0 : RawRnxObs) (mmap : ReadMap) : (n i : Nat) → List SatVals → (buf : List Char) → Stream → (errno : Int) →
    Res CollectOut
  | 0, i, ov, buf, s, errno => .ok ⟨0, i, ov, buf, s, errno⟩
  | n + 1, i, ov, buf, s, errno => do
      let g := s.getline buf.length
      let buf := fillLine buf g.1
      match charToSatsys (← getAt buf 0) with
      | .ok sys =>
        match mmap.lookup sys with
        | none => collectLoopD raw0 mmap n i ov buf g.2 errno
        | some sysobs =>
          match ov[i]? with
          | none => .ub
          | some e => do
            let r ← satEpochCollectD raw0 buf sysobs e.2 errno
            if r.1 > 0 then pure ⟨1, i, ov.set i (e.1, r.2.2.1), buf, g.2, r.2.2.2⟩
            else collectLoopD raw0 mmap n (i + 1) (ov.set i ((sys, r.2.1), r.2.2.1)) buf g.2 r.2.2.2
      | _ => pure ⟨1, i, ov, buf, g.2, errno⟩

/-- `collect_epoch` — obsrnx.cpp:839-885 with the block 851-853: `numsats` is converted to `std::size_t`, so a negative number is larger than
any size. -/
def collectEpochD (raw0 : RawRnxObs) (mmap : ReadMap) (numsats : Int) (ov : List SatVals) (buf : List Char) (s : Stream)
    (errno : Int) : Res CollectOut := do
  cassert (decide (0 ≤ numsats ∧ numsats ≤ ov.length))
  collectLoopD raw0 mmap numsats.toNat 0 ov buf s errno

/-- `read_next_epoch` — obsrnx.cpp:932-956, calling the functions above; as `readNextEpoch`. -/
def readNextEpochD (dateOk : Int → Int → Int → Bool) (mjdOf : Int → Int → Int → Res Int) (raw0 : RawRnxObs) (mmap : ReadMap)
    (ov : List SatVals) (buf : List Char) (s : Stream) (errno : Int) : Res EpochOut :=
  match s.peek with
  | (none, s) => .ok (epochEnd 0 none ov buf s errno)
  | (some _, s) => do
      let g := s.getline buf.length
      let buf := fillLine buf g.1
      match ← resolveEpoch (mjdOfD dateOk mjdOf) buf errno with
      | .inl e => pure ⟨20 + e.1, 0, none, ov, buf, g.2, e.2⟩
      | .inr h => do
        let r ← collectEpochD raw0 mmap h.numSats ov buf g.2 errno
        if r.status ≠ 0 then pure ⟨30 + r.status, r.sats, some h, r.satobs, r.buf, r.strm, r.errno⟩
        else pure (epochEnd r.sats (some h) r.satobs r.buf r.strm r.errno)

end Ggnss
