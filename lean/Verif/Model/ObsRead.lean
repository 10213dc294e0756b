import Verif.Model.Obs
import Verif.Model.Nav
/-!
# Model of `src/obsrnx.hpp`, `src/obsrnx.cpp`: reading observation epochs

`DEBUG` not defined.  `std::map<SATELLITE_SYSTEM, T>` is the list of its (key, value) pairs in
iteration order, every key once.  Doubles are exact rationals.  Messages written to `std::cerr` are
not modelled.
-/
namespace Ggnss

/-- `RNXOBS_MISSING_VAL` — obsrnx.hpp:19. -/
def MISSING : Rat := -99999 / 100

/-- `MAX_SAT_IN_EPOCH` — obsrnx.cpp:22. -/
def MAX_SAT_IN_EPOCH : Nat := 80

/-- `struct RawRnxObs__` — obsrnx.hpp:22-29. -/
structure RawRnxObs where
  val : Rat
  lli : Int
  ssi : Int
  deriving DecidableEq, Repr

/-- `(c == ' ') ? 0 : (c - '0')` — obsrnx.cpp:66-67. -/
def flagDigit (c : Char) : Int := if c = ' ' then 0 else scharVal c - 48

/-- `RawRnxObs__::resolve` — obsrnx.cpp:55-70: (returned status, object, `errno`).  `o` is the object
before the call. -/
def rawResolve (str : List Char) (o : RawRnxObs) (errno : Int) : Res (Int × RawRnxObs × Int) := do
  let e ← stringIsEmpty str (some 14)
  if e then pure (0, { o with val := MISSING }, errno)
  else
    match ← strtodA str with
    | none => pure (1, { o with val := 0 }, 0)
    | some v => do
      if errno ≠ 0 ∨ v.2.2 = true then pure (1, { o with val := v.1 }, 0)
      else
        let c14 ← getAt str 14
        let c15 ← getAt str 15
        pure (0, ⟨v.1, flagDigit c14, flagDigit c15⟩, errno)

/-- `vecof_idpair`: (column, coefficient) pairs of one observable — obsrnx.hpp:32-33. -/
abbrev IdPairs := List (Nat × Rat)
/-- The header's observation types, `__obstmap` — obsrnx.hpp:168. -/
abbrev ObsTypes := List (SatSys × List ObsCode)
/-- What `set_read_map` returns. -/
abbrev ReadMap := List (SatSys × List IdPairs)
/-- What `set_read_map` is asked for. -/
abbrev ReqMap := List (SatSys × List Observable)

/-- The loop of `obs_getter` — obsrnx.cpp:704-725: (pairs, status). -/
def getterLoop (codes : List ObsCode) (sys : SatSys) : List ObsPart → IdPairs → IdPairs × Int
  | [], acc => (acc, 0)
  | p :: ps, acc =>
      if p.type.sys ≠ sys then ([], 1)
      else
        let j := codes.findIdx (fun c => decide (c = p.type.code))
        if j = codes.length then ([], -2)
        else getterLoop codes sys ps (acc ++ [(j, p.coef)])

/-- `obs_getter` — obsrnx.cpp:684-727: (pairs, `sys`, `status`).  `vec[0]` of an observable without
parts is undefined behaviour. -/
def obsGetter (obst : ObsTypes) (o : Observable) : Res (IdPairs × SatSys × Int) :=
  match o.vec with
  | [] => .ub
  | p :: _ =>
    let sys := p.type.sys
    match obst.lookup sys with
    | none => .ok ([], sys, -1)
    | some codes => .ok ((getterLoop codes sys o.vec []).1, sys, (getterLoop codes sys o.vec []).2)

/-- The inner loop of `set_read_map` — obsrnx.cpp:586-640, for the key `k`: `todo` are the observables
from the iterator on, `kept` the ones before it, `out` what was added for this key.  `inl`: the
function returns an empty map, the vector being what is given; `inr`: (vector, `resmap[k]`). -/
def readMapSys (obst : ObsTypes) (skip : Bool) (k : SatSys) : (todo kept : List Observable) → (out : List IdPairs) →
    Res (List Observable ⊕ (List Observable × List IdPairs))
  | [], kept, out => .ok (.inr (kept, out))
  | o :: todo, kept, out => do
      let g ← obsGetter obst o
      if g.2.1 ≠ k ∨ g.2.2 > 0 then pure (.inl (kept ++ o :: todo))
      else if g.2.2 = 0 then readMapSys obst skip k todo (kept ++ [o]) (out ++ [g.1])
      else if skip then readMapSys obst skip k todo kept out
      else pure (.inl (kept ++ o :: todo))

/-- The outer loop of `set_read_map` — obsrnx.cpp:583-657: (returned map, `inmap` afterwards).  A key
gets into `resmap` with its first observable; keys come in increasing order, so `resmap` keeps the
order of `inmap`. -/
def readMapLoop (obst : ObsTypes) (skip : Bool) : (todo done : ReqMap) → (resmap : ReadMap) → Res (ReadMap × ReqMap)
  | [], done, resmap => .ok (resmap.filter (fun e => e.2.length ≠ 0), done)
  | (k, v) :: todo, done, resmap => do
      match ← readMapSys obst skip k v [] [] with
      | .inl v' => pure ([], done ++ (k, v') :: todo)
      | .inr (v', out) => readMapLoop obst skip todo (done ++ [(k, v')]) (if out = [] then resmap else resmap ++ [(k, out)])

/-- `ObservationRnx::set_read_map` — obsrnx.cpp:568-658. -/
def setReadMap (obst : ObsTypes) (inmap : ReqMap) (skip : Bool) : Res (ReadMap × ReqMap) :=
  if inmap = [] then .ok ([], []) else readMapLoop obst skip inmap [] []

/-- The parts of one observable — obsrnx.cpp:771-786; `len` is `strlen(__buf)`, `tbuf` the local
array.  `inr`: (value, `status`, array, raw object, `errno`); `inl errno`: the function returns 2. -/
def collectParts (buf : List Char) (len : Nat) : IdPairs → (obsval : Rat) → (status : Int) → (tbuf : List Char) →
    RawRnxObs → (errno : Int) → Res (Int ⊕ (Rat × Int × List Char × RawRnxObs × Int))
  | [], v, st, tbuf, o, errno => .ok (.inr (v, st, tbuf, o, errno))
  | pr :: prs, v, st, tbuf, o, errno =>
      let idx := pr.1 * 16 + 3
      if len ≥ idx + 16 then do
        let tbuf ← memcpyAt tbuf 0 ((buf.drop idx).take 16)
        let r ← rawResolve tbuf o errno
        if r.1 ≠ 0 then pure (.inl r.2.2)
        else if r.2.1.val ≠ MISSING then collectParts buf len prs (v + r.2.1.val * pr.2) st tbuf r.2.1 r.2.2
        else collectParts buf len prs MISSING (st - 1) tbuf r.2.1 r.2.2
      else collectParts buf len prs MISSING st tbuf { o with val := MISSING } errno

/-- Storing `vals[k] = v`: undefined outside the vector. -/
def valStore (vals : List Rat) (k : Nat) (v : Rat) : Res (List Rat) :=
  if k < vals.length then .ok (vals.set k v) else .ub

/-- The observables of a satellite — obsrnx.cpp:769-792. `none`: the function returns 2. -/
def collectObs (buf : List Char) (len : Nat) : List IdPairs → (k : Nat) → (vals : List Rat) → (status : Int) →
    (tbuf : List Char) → RawRnxObs → (errno : Int) → Res (Int × List Rat × Int)
  | [], _, vals, st, _, _, errno => .ok (st, vals, errno)
  | obsrv :: rest, k, vals, st, tbuf, o, errno => do
      match ← collectParts buf len obsrv 0 st tbuf o errno with
      | .inl errno => pure (2, vals, errno)
      | .inr (v, st, tbuf, o, errno) => do
        let vals ← valStore vals k v
        collectObs buf len rest (k + 1) vals st tbuf o errno

/-- `sat_epoch_collect` — obsrnx.cpp:752-795: (returned status, `prn`, `vals`, `errno`).  `buf` is the
array `__buf`, `raw0` the indeterminate content of `raw_obs`. -/
def satEpochCollect (raw0 : RawRnxObs) (buf : List Char) (sysobs : List IdPairs) (vals : List Rat) (errno : Int) :
    Res (Int × Int × List Rat × Int) := do
  let c1 ← getAt buf 1
  let c2 ← getAt buf 2
  let tbuf := c1 :: c2 :: List.replicate 15 NUL
  let p ← strtolA tbuf
  let errno := if strtolErr p then ERANGE else errno
  let prn := toInt32 (strtolVal p)
  if (errno ≠ 0 ∨ p = none) ∨ prn < 1 ∨ prn > 99 then pure (1, prn, vals, errno)
  else
    let len := (← cstrOf buf).length
    let r ← collectObs buf len sysobs 0 vals 0 tbuf raw0 errno
    pure (r.1, prn, r.2.1, r.2.2)

/-- One element of the output vector: satellite (system and PRN) and values. -/
abbrev SatVals := (SatSys × Int) × List Rat

/-- What the epoch reading functions leave behind: status, satellites collected, output vector, array
`__buf`, stream and `errno`. -/
structure CollectOut where
  status : Int
  sats : Nat
  satobs : List SatVals
  buf : List Char
  strm : Stream
  errno : Int

/-- The loop of `collect_epoch` — obsrnx.cpp:854-883; `n` satellites to go, `i` is the position of
`ovec_it` (and `satscollected`).  `getline` is not checked. -/
def collectLoop (raw0 : RawRnxObs) (mmap : ReadMap) : (n i : Nat) → List SatVals → (buf : List Char) → Stream → (errno : Int) →
    Res CollectOut
  | 0, i, ov, buf, s, errno => .ok ⟨0, i, ov, buf, s, errno⟩
  | n + 1, i, ov, buf, s, errno => do
      let g := s.getline buf.length
      let buf := fillLine buf g.1
      match charToSatsys (← getAt buf 0) with
      | .ok sys =>
        match mmap.lookup sys with
        | none => collectLoop raw0 mmap n i ov buf g.2 errno
        | some sysobs =>
          match ov[i]? with
          | none => .ub
          | some e => do
            let r ← satEpochCollect raw0 buf sysobs e.2 errno
            if r.1 > 0 then pure ⟨1, i, ov.set i (e.1, r.2.2.1), buf, g.2, r.2.2.2⟩
            else collectLoop raw0 mmap n (i + 1) (ov.set i ((sys, r.2.1), r.2.2.1)) buf g.2 r.2.2.2
      | _ => pure ⟨1, i, ov, buf, g.2, errno⟩

/-- `collect_epoch` — obsrnx.cpp:839-885 (a negative number of satellites means no iteration). -/
def collectEpoch (raw0 : RawRnxObs) (mmap : ReadMap) (numsats : Int) (ov : List SatVals) (buf : List Char) (s : Stream)
    (errno : Int) : Res CollectOut :=
  collectLoop raw0 mmap numsats.toNat 0 ov buf s errno

/-- `n` integers, one char between them — obsrnx.cpp:383-394: `none` is the error return; otherwise the
integers and the text from `start` on.  A pointer is represented by the bytes from it on; `++end`
drops one of them (past the end of the array: undefined when dereferenced). -/
def epochInts : (n : Nat) → (start : List Char) → (errno : Int) → Res (Option (List Int × List Char))
  | 0, start, _ => .ok (some ([], start))
  | n + 1, start, errno => do
      match ← strtolA start with
      | none => pure none
      | some (v, rest, er) =>
        if errno ≠ 0 ∨ er = true then pure none
        else do
          match ← epochInts n (rest.drop 1) errno with
          | none => pure none
          | some r => pure (some (toInt32 v :: r.1, r.2))

/-- What an epoch header says: (day, second of day, flag, number of satellites, clock offset or `none`
when the variable is left alone). -/
structure EpochHead where
  mjd : Int
  sec : Rat
  flag : Int
  numSats : Int
  clock : Option Rat
  deriving DecidableEq, Repr

/-- Text from `end` on after `strtol(start, &end, 10)`. -/
def strtolEnd (start : List Char) : Option (Int × List Char × Bool) → List Char
  | none => start
  | some (_, r, _) => r

/-- Text from `end` on after `strtod(start, &end)`. -/
def strtodEnd (start : List Char) : Option (Rat × List Char × Bool) → List Char
  | none => start
  | some (_, r, _) => r

/-- The value of `strtod` (0 when nothing could be converted). -/
def strtodVal : Option (Rat × List Char × Bool) → Rat
  | none => 0
  | some (v, _, _) => v

/-- `__resolve_epoch_304__` — obsrnx.cpp:361-438: `inl e` is the error code (1..5) and the new `errno`,
`inr` what the header says.  `mjdOf` is the constructor `modified_julian_day(year, month,
day_of_month)` of ggdatetime.  The output arguments of failed calls are not kept.  Two pointers into
the array are equal when equally many bytes follow them. -/
def resolveEpoch (mjdOf : Int → Int → Int → Res Int) (cline : List Char) (errno : Int) : Res ((Int × Int) ⊕ EpochHead) :=
  Res.noexcept (do
    let str ← cstrOf cline
    let c0 ← getAt cline 0
    if c0 ≠ '>' ∨ str.length < 35 then pure (.inl (1, errno))
    else
      match ← epochInts 5 (cline.drop 2) errno with
      | some ([y, m, d, hh, mm], start) => do
        let mjd ← mjdOf y m d
        let rs ← strtodA start
        if (errno ≠ 0 ∨ strtodErr rs = true) ∨ rs = none then pure (.inl (3, 0))
        else
          let c31 ← getAt cline 31
          let ns ← strtolA (cline.drop 32)
          let errno := if strtolErr ns then ERANGE else errno
          if errno ≠ 0 ∨ start.length = (strtolEnd (cline.drop 32) ns).length then pure (.inl (4, 0))
          else if str.length > 41 then do
            let blank ← stringIsEmpty (cline.drop 41) none
            let ck ← strtodA (cline.drop 41)
            let endp := if blank then strtolEnd (cline.drop 32) ns else strtodEnd (cline.drop 41) ck
            if (blank = false ∧ strtodErr ck = true) ∨ start.length = endp.length then pure (.inl (5, 0))
            else pure (.inr ⟨mjd, ((hh : Rat) * 60 + mm) * 60 + strtodVal rs, scharVal c31 - 48, toInt32 (strtolVal ns),
              some (if blank then 0 else strtodVal ck)⟩)
          else pure (.inr ⟨mjd, ((hh : Rat) * 60 + mm) * 60 + strtodVal rs, scharVal c31 - 48, toInt32 (strtolVal ns), none⟩)
      | _ => pure (.inl (2, 0)))

/-- Outcome of `read_next_epoch`: returned status, `sats`, day and second of day (`none` when the
header could not be resolved), output vector, array `__buf`, stream and `errno`. -/
structure EpochOut where
  status : Int
  sats : Nat
  head : Option EpochHead
  satobs : List SatVals
  buf : List Char
  strm : Stream
  errno : Int

/-- The end of `read_next_epoch` — obsrnx.cpp:951-955. -/
def epochEnd (sats : Nat) (head : Option EpochHead) (ov : List SatVals) (buf : List Char) (s : Stream) (errno : Int) : EpochOut :=
  if s.eof then ⟨-1, sats, head, ov, buf, s.clear, errno⟩ else ⟨0, sats, head, ov, buf, s, errno⟩

/-- `read_next_epoch` — obsrnx.cpp:932-956. -/
def readNextEpoch (mjdOf : Int → Int → Int → Res Int) (raw0 : RawRnxObs) (mmap : ReadMap) (ov : List SatVals) (buf : List Char)
    (s : Stream) (errno : Int) : Res EpochOut :=
  match s.peek with
  | (none, s) => .ok (epochEnd 0 none ov buf s errno)
  | (some _, s) => do
      let g := s.getline buf.length
      let buf := fillLine buf g.1
      match ← resolveEpoch mjdOf buf errno with
      | .inl e => pure ⟨20 + e.1, 0, none, ov, buf, g.2, e.2⟩
      | .inr h => do
        let r ← collectEpoch raw0 mmap h.numSats ov buf g.2 errno
        if r.status ≠ 0 then pure ⟨30 + r.status, r.sats, some h, r.satobs, r.buf, r.strm, r.errno⟩
        else pure (epochEnd r.sats (some h) r.satobs r.buf r.strm r.errno)

/-- `initialize_epoch_vector` — obsrnx.cpp:964-977; a default constructed `Satellite` is
(`mixed`, -1) — satellite.hpp:52-53. -/
def initEpochVector (mmap : ReadMap) : List SatVals :=
  let maxObs := mmap.foldl (fun m e => if e.2.length > m then e.2.length else m) 0
  List.replicate MAX_SAT_IN_EPOCH ((.mixed, -1), List.replicate maxObs MISSING)

/-- `max_obs` — obsrnx.cpp:124-141. -/
def maxObs (obst : ObsTypes) : Nat := obst.foldl (fun m e => if e.2.length > m then e.2.length else m) 0

/-- Size of `__buf` — obsrnx.cpp:91-92. -/
def obsBufSize (obst : ObsTypes) : Nat := maxObs obst * 16 + 4

end Ggnss
