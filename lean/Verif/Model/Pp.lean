import Verif.Model.Nav
/-!
# Model of the message cache of the positioning program `test/pp_rnx.cpp`

The program keeps a vector with the navigation message last used for every satellite and searches the
navigation file only when that message is not in force.  Epochs are milliseconds since MJD 0.
-/
namespace Ggnss

/-- `check_nav_msg` — pp_rnx.cpp:162-186. -/
def checkNavMsg (msg : NavFrame) (t : Int) : Res Int := do
  let h ← svHealth msg
  if h ≠ 0 then pure (-1)
  else
    let fit ← fitInterval msg
    if msg.sys = .glonass then
      let maxT := 1000 * msg.toe.total + 1000 * fit
      let minT := 1000 * msg.toe.total - 1000 * fit
      pure (if t ≥ minT ∧ t < maxT then 0 else 1)
    else if t ≥ 1000 * msg.toc.total then
      pure (if t < 1000 * msg.toc.total + 1000 * fit then 0 else 1)
    else pure 1

/-- The search `std::find_if` of pp_rnx.cpp:194-198 from element `i` on: the position found and what
the predicate, called on one element after the other until it holds, leaves in `status`. -/
def findCached (sys : SatSys) (prn : Int) (t : Int) : (i : Nat) → List NavFrame → (status : Int) → Res (Int × Nat)
  | i, [], status => .ok (status, i)
  | i, p :: ps, status =>
      if sys = p.sys ∧ prn = p.prn then do
        let st ← checkNavMsg p t
        if st = 0 then pure (0, i) else findCached sys prn t (i + 1) ps st
      else findCached sys prn t (i + 1) ps status

/-- `std::find_if` of pp_rnx.cpp:211-213: the first message of the satellite. -/
def findSat (sys : SatSys) (prn : Int) : (i : Nat) → List NavFrame → Nat
  | i, [] => i
  | i, p :: ps => if sys = p.sys ∧ prn = p.prn then i else findSat sys prn (i + 1) ps

/-- `update_msg` — pp_rnx.cpp:142-154: status, the message (`msg` is kept when nothing is found), the
stream and `errno`.  `fresh` is the default constructed `nmsg`, `endOfHead` the end of the header (used by
`rewind` only when the position could not be told). -/
def updateMsg (strptime : List Char → Res DateTime) (junk : Nat → List Char) (fuel endOfHead : Nat) (fresh : NavFrame)
    (t : Int) (s : Stream) (errno : Int) (msg : NavFrame) : Res (Int × NavFrame × Stream × Int) := do
  let r ← findNextValid strptime junk fuel t msg.sys msg.prn fresh s errno
  pure (r.2.status, (if r.2.status = 0 then r.2.frame else msg), navRewind endOfHead r.2.strm r.1, r.2.errno)

/-- What `get_valid_msg` leaves behind: `status`, the position the returned iterator denotes
(`cache.length` is `end()`), the vector, the navigation file and `errno`. -/
structure MsgOut where
  status : Int
  at_ : Nat
  cache : List NavFrame
  strm : Stream
  errno : Int

/-- `get_valid_msg` — pp_rnx.cpp:188-226. -/
def getValidMsg (strptime : List Char → Res DateTime) (junk : Nat → List Char) (fuel endOfHead : Nat) (fresh : NavFrame)
    (sys : SatSys) (prn : Int) (t : Int) (cache : List NavFrame) (s : Stream) (errno : Int) : Res MsgOut := do
  let c ← findCached sys prn t 0 cache (-200)
  if c.1 = 0 then pure ⟨0, c.2, cache, s, errno⟩
  else
    let u ← updateMsg strptime junk fuel endOfHead fresh t s errno { fresh with sys := sys, prn := prn }
    if u.1 ≠ 0 then pure ⟨u.1, cache.length, cache, u.2.2.1, u.2.2.2⟩
    else if c.1 ≥ 0 then
      let i := findSat sys prn 0 cache
      if i < cache.length then pure ⟨0, i, cache.set i u.2.1, u.2.2.1, u.2.2.2⟩ else .terminate
    else pure ⟨0, cache.length, cache ++ [u.2.1], u.2.2.1, u.2.2.2⟩

/-- The calls of `get_valid_msg` one after the other, as the program makes them for the satellites of all
epochs: for each its status and the message the iterator refers to. -/
def getValidMsgs (strptime : List Char → Res DateTime) (junk : Nat → List Char) (fuel endOfHead : Nat) (fresh : NavFrame) :
    List (SatSys × Int × Int) → List NavFrame → Stream → Int → Res (List (Int × Option NavFrame) × List NavFrame × Stream × Int)
  | [], cache, s, errno => .ok ([], cache, s, errno)
  | q :: qs, cache, s, errno => do
      let o ← getValidMsg strptime junk fuel endOfHead fresh q.1 q.2.1 q.2.2 cache s errno
      let r ← getValidMsgs strptime junk fuel endOfHead fresh qs o.cache o.strm o.errno
      pure ((o.status, o.cache[o.at_]?) :: r.1, r.2)

end Ggnss
