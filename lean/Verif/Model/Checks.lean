import Verif.Model.NavTab
import Verif.Model.Sp3Head
import Verif.Model.ObsHead
/-!
# Model of the check programs in `test/`

What the programs print is represented by the values of their counters, the last status and the lines of data; the
listing of header members (`print_members`) and the messages are left out.
-/
namespace Ggnss

/-! ## test_sp3.cpp -/

/-- What does not change while `test_sp3` runs: files, date library, indeterminate memory, initial values of `t` and
`nsats`, a bound for the loops. -/
structure Sp3World where
  files : List Char → Option (List Char)
  L : Sp3Lib
  junk0 : List Char
  junk : Nat → List Char
  t0 : Sp3Epoch
  nsats0 : Int
  fuel : Nat

/-- The loop — test_sp3.cpp:21-26: the counter `epochs` and the last status. -/
def sp3Count (junk : Nat → List Char) (fuel : Nat) : (n : Nat) → Sp3Epoch → List Sp3Rec → Int → Stream → Int → (epochs : Nat) → Res (Nat × Int)
  | 0, _, _, _, _, _, _ => .diverge
  | n + 1, t, vec, sr, s, errno, epochs => do
      let o ← getNextEpoch (junk s.pos) fuel t vec sr s errno
      if o.status = 0 then sp3Count junk fuel n o.t o.vec o.satsRead o.strm o.errno (epochs + 1)
      else pure (epochs + 1, o.status)

/-- `main` — test_sp3.cpp:8-39: exit code; number of epochs and last status, if it gets there.  The constructor
throws when the file cannot be opened (sp3c.cpp:22-30); nobody catches. -/
def sp3Check (W : Sp3World) (argv : List (List Char)) : Res (Int × Option (Nat × Int)) :=
  Res.noexcept (
    match argv with
    | [_, a1] =>
        match W.files a1 with
        | none => .throw .runtime_error
        | some content => do
          let f ← sp3Open W.L false W.junk0 content
          let vec ← sp3Allocate f.numSats
          let r ← sp3Count W.junk W.fuel W.fuel W.t0 vec W.nsats0 f.strm 0 0
          pure (0, some r)
    | _ => .ok (1, none))

/-! ## test_obsrnx.cpp -/

/-- What does not change while `test_obsrnx` runs. -/
structure ObsWorld where
  files : List Char → Option (List Char)
  obsDate : List Char → Res DateTime
  mjdOf : Int → Int → Int → Res Int
  gAnt : Nat → List Char
  g0 : List Char
  junkObs : List Char
  buf0 : Nat → List Char
  raw0 : RawRnxObs
  sec0 : Rat
  fuel : Nat

/-- A pseudorange code such as `C1C`. -/
def rangeCode (band : Int) (att : Char) : ObsCode := ⟨.pseudorange, band, att⟩

/-- The request — test_obsrnx.cpp:26-58 (`std::map`: in the order of the enumerators, satsys.hpp:18-29; the decimals
`.3` stand for the nearest doubles). -/
def obsCheckRequest : ReqMap :=
  [(.gps, [⟨[⟨⟨.gps, rangeCode 5 'Q'⟩, 1⟩]⟩, ⟨[⟨⟨.gps, rangeCode 1 'C'⟩, 0.5⟩, ⟨⟨.gps, rangeCode 2 'W'⟩, 0.5⟩]⟩]),
   (.glonass, [⟨[⟨⟨.glonass, rangeCode 1 'P'⟩, 1⟩]⟩,
      ⟨[⟨⟨.glonass, rangeCode 1 'C'⟩, 0.3⟩, ⟨⟨.glonass, rangeCode 2 'P'⟩, 0.3⟩, ⟨⟨.glonass, rangeCode 3 'Q'⟩, 0.3⟩]⟩]),
   (.galileo, [⟨[⟨⟨.galileo, rangeCode 1 'C'⟩, 1⟩]⟩,
      ⟨[⟨⟨.galileo, rangeCode 6 'C'⟩, 0.3⟩, ⟨⟨.galileo, rangeCode 7 'Q'⟩, 0.3⟩, ⟨⟨.galileo, rangeCode 8 'Q'⟩, 0.3⟩]⟩,
      ⟨[⟨⟨.galileo, rangeCode 8 'Q'⟩, 1⟩]⟩, ⟨[⟨⟨.galileo, rangeCode 5 'X'⟩, 1⟩]⟩])]

/-- The loop over the satellites of an epoch — test_obsrnx.cpp:98-104: the lines printed (second of day and values);
`hm` is `map[galileo].size()`.  Elements behind the end of a vector are undefined. -/
def obsPrint (hm : Nat) (sec : Rat) : List SatVals → Res (List (Rat × List Rat))
  | [] => .ok []
  | v :: vs =>
      if v.1 = (.galileo, 12) then
        if hm ≤ v.2.length then do
          let r ← obsPrint hm sec vs
          pure ((sec, v.2.take hm) :: r)
        else .ub
      else obsPrint hm sec vs

/-- The loop — test_obsrnx.cpp:90-106: `epoch_counter`, last status, lines printed. -/
def obsCount (W : ObsWorld) (m : ReadMap) (hm : Nat) : (n : Nat) → List SatVals → (sec : Rat) → List Char → Stream → Int → (count : Nat) →
    Res (Nat × Int × List (Rat × List Rat))
  | 0, _, _, _, _, _, _ => .diverge
  | n + 1, ov, sec, buf, s, errno, count => do
      let o ← readNextEpoch W.mjdOf W.raw0 m ov buf s errno
      let sec := match o.head with
        | some h => h.sec
        | none => sec
      let ls ← if o.sats ≤ o.satobs.length then obsPrint hm sec (o.satobs.take o.sats) else .ub
      if o.status = 0 then
        let r ← obsCount W m hm n o.satobs sec o.buf o.strm o.errno (count + 1)
        pure (r.1, r.2.1, ls ++ r.2.2)
      else pure (count + 1, o.status, ls)

/-- `main` — test_obsrnx.cpp:14-112: exit code; counter, last status and lines of data. -/
def obsCheck (W : ObsWorld) (argv : List (List Char)) : Res (Int × Option (Nat × Int × List (Rat × List Rat))) :=
  Res.noexcept (
    match argv with
    | [_, a1] =>
        match W.files a1 with
        | none => .throw .runtime_error
        | some content => do
          let f ← obsOpen W.obsDate W.gAnt false W.g0 W.junkObs W.buf0 content
          let m ← setReadMap f.1.obst obsCheckRequest true
          let hm := ((m.2.lookup .galileo).getD []).length
          let r ← obsCount W m.1 hm W.fuel (initEpochVector m.1) W.sec0 f.2.2 f.2.1 0 0
          pure (0, some r)
    | _ => .ok (1, none))

/-! ## test_navrnx_G/E/C/R.cpp: reading through the file -/

/-- The four programs. -/
inductive NavProg where
  | G | E | C | R
  deriving DecidableEq

/-- The system a program is about. -/
def NavProg.sys : NavProg → SatSys
  | .G => .gps
  | .E => .galileo
  | .C => .beidou
  | .R => .glonass

/-- What program G evaluates for the listing of a GPS frame — test_navrnx_G.cpp:29 (`gps_ura` is always defined). -/
def navShow (p : NavProg) (f : NavFrame) : Res Unit :=
  if p = .G ∧ f.sys = .gps then do
    let _ ← dataAt f.data 23
    let _ ← svHealth f
    let _ ← fitInterval f
    pure ()
  else .ok ()

/-- What the first loop leaves: frame, stream, `errno`, `block_nr`, `block_prn_nr`, last status. -/
structure NavCount where
  frame : NavFrame
  strm : Stream
  errno : Int
  blocks : Nat
  ofSat : Nat
  status : Int

/-- The first loop — test_navrnx_G.cpp:26-31, _E.cpp:26-30, _C.cpp:26-30, _R.cpp:54-59 (only R counts the frames of the
satellite). -/
def navCount (W : TabWorld) (p : NavProg) (prn : Int) : (n : Nat) → NavFrame → Stream → Int → (blocks ofSat : Nat) → Res NavCount
  | 0, _, _, _, _, _ => .diverge
  | n + 1, f, s, errno, blocks, ofSat => do
      let o ← readNextRecord W.navDate (W.navJunk s.pos) f s errno
      navShow p o.frame
      let k := if o.frame.prn = prn ∧ o.frame.sys = p.sys then ofSat + 1 else ofSat
      if o.status = 0 then navCount W p prn n o.frame o.strm o.errno (blocks + 1) k
      else pure ⟨o.frame, o.strm, o.errno, blocks + 1, k, o.status⟩

/-- `PRN` — test_navrnx_G.cpp:13, 21, _E.cpp:13, 21, _C.cpp:13, 21, _R.cpp:15, 50: 1 or the second argument, through `std::atoi`; and the
`errno` left. -/
def navPrn : List (List Char) → Res (Int × Int)
  | [_, _, a2] => do
      let p ← strtolA (a2 ++ [NUL])
      pure (toInt32 (strtolVal p), if strtolErr p then ERANGE else 0)
  | _ => .ok (1, 0)

/-- `main` up to the end of the first loop — test_navrnx_G.cpp:15-33, _E.cpp:15-32, _C.cpp:15-32, _R.cpp:44-62: exit code 1, or the opened file, `PRN` and
the counts that are printed. -/
def navThrough (W : TabWorld) (p : NavProg) (argv : List (List Char)) : Res (Int ⊕ (NavFile × Int × NavCount)) :=
  match argv with
  | _ :: a1 :: more =>
      if more.length ≤ 1 then do
        let q ← navPrn argv
        let nav ← navOpen W.junkNav (← tabFile W a1)
        let r ← navCount W p q.1 W.fuel W.fresh nav.strm q.2 0 0
        pure (.inr (nav, q.1, r))
      else .ok (.inl 1)
  | _ => .ok (.inl 1)

end Ggnss
