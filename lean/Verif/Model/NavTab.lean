import Verif.Model.Orbit
import Verif.Model.NavHead
import Verif.Model.Antex
/-!
# Model of the orbit table program `test/test_navrnx.cpp`

The program writes, for one satellite of a navigation file, its position and clock correction once a minute for a day.  What it
writes is represented by the list of lines of the table; messages on the error stream are left out.
-/
namespace Ggnss

/-- `msg_is_ok` — test_navrnx.cpp:27-60 (`t` in milliseconds since MJD 0).  The last `return -100` cannot be reached for ordered dates. -/
def tabMsgOk (msg : NavFrame) (t : Int) : Res Int := do
  let h ← svHealth msg
  if h ≠ 0 then pure (-1)
  else
    let fit ← fitInterval msg
    let toc := 1000 * msg.toc.total
    if msg.sys = .glonass then
      let maxT := toc + 1000 * fit
      let minT := toc - 1000 * fit
      pure (if t ≥ minT ∧ t < maxT then 0 else if t ≥ maxT then 1 else if t < minT then 100 else -100)
    else if t ≥ toc then pure (if t < toc + 1000 * fit then 0 else 1)
    else pure 100

/-- A line of the table: epoch (milliseconds since MJD 0), the message used, position and clock correction. -/
structure TabLine where
  t : Int
  msg : NavFrame
  pos : Fin 3 → ℝ
  clock : ℝ

/-- What does not change while the program runs: date readers of ggdatetime, indeterminate memory, and bounds for loops that the code
does not bound. -/
structure TabWorld where
  files : List Char → Option (List Char)
  navDate : List Char → Res DateTime
  atxDate : List Char → Res DateTime
  junkNav : List Char
  navJunk : Nat → List Char
  J : AtxJunk
  cospar : List Char
  fresh : NavFrame
  fuel : Nat

/-- An epoch as day and seconds of day. -/
noncomputable def msEpoch (t : Int) : Epoch := ⟨t / 86400000, ((t % 86400000 : Int) : ℝ) / 1000⟩

/-- `stateNclock(start, state, clock)` with the array `double state[3]` of test_navrnx.cpp:108, 135: the GLONASS algorithm
stores six numbers (glonav.cpp:310, 352) unless it gives up with status 10. -/
noncomputable def tabState (W : TabWorld) (msg : NavFrame) (t : Int) (o : StateClock) : Res StateClock := do
  let c ← stateNclock msg W.fuel (msEpoch t) o
  if msg.sys = .glonass ∧ c.status ≠ 10 then .ub else pure c

/-- The loop of test_navrnx.cpp:110-140: exit code and lines of the table. -/
noncomputable def tabLoop (W : TabWorld) (sys : SatSys) (prn stop : Int) :
    (fuel : Nat) → (msg : NavFrame) → Stream → (errno : Int) → (t : Int) → StateClock → Res (Int × List TabLine)
  | 0, _, _, _, _, _ => .diverge
  | fuel + 1, msg, s, errno, t, o =>
      if t < stop then do
        let j ← tabMsgOk msg t
        if j = -1 ∨ j = 1 then
          let r ← findNext W.navDate W.navJunk W.fuel sys prn msg s errno
          if r.2.status ≠ 0 then pure (0, [])
          else tabLoop W sys prn stop fuel r.2.frame r.2.strm r.2.errno (if j = -1 then 1000 * r.2.frame.toc.total else t) o
        else
          let c ← tabState W msg t o
          if c.status ≠ 0 then pure (200, [])
          else
            let r ← tabLoop W sys prn stop fuel msg s errno (t + 60000) c
            pure (r.1, ⟨t, msg, ![c.state 0, c.state 1, c.state 2], c.clock⟩ :: r.2)
      else .ok (0, [])

/-- A file that cannot be opened makes the constructors and `reset_to_file` throw — navrnx.cpp:191-199, 210-211, antex.cpp:80-93, 118-119. -/
def tabFile (W : TabWorld) (name : List Char) : Res (List Char) :=
  match W.files name with
  | some c => .ok c
  | none => .throw .runtime_error

/-- The `Antex` object — test_navrnx.cpp:83-84, antex.hpp:47: without a third argument it is default constructed; its stream was never
opened, so every operation on it fails. -/
def tabAntex (W : TabWorld) : Option (List Char) → Res AtxFile
  | some name => do atxOpen W.J (← tabFile W name)
  | none => .ok ⟨some 0, .mixed, ⟨[], 0, false, true⟩⟩

/-- `main` — test_navrnx.cpp:62-143: exit code and table.  `o` are the uninitialised `state` and `clock`.  An exception that nobody
catches terminates the program. -/
noncomputable def tabMain (W : TabWorld) (o : StateClock) (argv : List (List Char)) : Res (Int × List TabLine) :=
  Res.noexcept (
    match argv with
    | _ :: a1 :: a2 :: more => do
      match charToSatsys (a2.headD NUL) with
      | .ok sys => do
        let p ← strtolA (a2.drop 1 ++ [NUL])
        let prn := toInt32 (strtolVal p)
        let atx ← tabAntex W more.head?
        let nav ← navOpen W.junkNav (← tabFile W a1)
        let r ← findNext W.navDate W.navJunk W.fuel sys prn W.fresh nav.strm (if strtolErr p then ERANGE else 0)
        if r.2.status ≠ 0 then pure (10, [])
        else
          let start := r.2.frame.toc
          let i ← atxSatInfo W.atxDate W.J W.cospar W.fuel atx prn sys start
          if i.1 ≠ 0 then pure (5, [])
          else tabLoop W sys prn (1000 * start.total + 86400000) W.fuel r.2.frame r.2.strm r.2.errno (1000 * start.total) o
      | _ => pure (1, [])
    | _ => pure (1, []))

end Ggnss
