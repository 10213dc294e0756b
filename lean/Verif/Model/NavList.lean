import Verif.Model.Checks
/-!
# Model of the listings of test/test_navrnx_G.cpp, _E.cpp, _C.cpp and _R.cpp

After reading through the file (`navThrough`) the programs go back to its beginning and list position and clock of one satellite once a
minute.  What they print is represented by the list of lines (`TabLine`).
-/
namespace Ggnss

/-- The constants of the system (program R does not use them). -/
noncomputable def NavProg.konst : NavProg → KeplerConst
  | .G => gpsConst
  | .E => galConst
  | .C => bdsConst
  | .R => gpsConst

/-- Reading the first two frames — test_navrnx_G.cpp:39-57, _E.cpp:38-62, _C.cpp:38-62.  `first` is `navar[0]` once `frames_read` is 1.
Programs E and C drop the first frame when the second one has the same time of clock.  The status that `peak_satsys` and
`ignore_next_block` report in `j` is not looked at, so that the loop goes on for ever at the end of the file.  `inl`: the program ends with that code;
`inr`: `navar[0]`, `navar[1]` (which is also `block`), stream and `errno`. -/
def listFirst (W : TabWorld) (p : NavProg) (prn : Int) : (fuel : Nat) → (first : Option NavFrame) → (block : NavFrame) → Stream → (errno : Int) →
    Res (Int ⊕ (NavFrame × NavFrame × Stream × Int))
  | 0, _, _, _, _ => .diverge
  | n + 1, first, block, s, errno =>
      let k := peakSatsys s
      if k.2.1 = p.sys then do
        let o ← readNextRecord W.navDate (W.navJunk s.pos) block k.2.2 errno
        if o.status ≠ 0 then pure (.inl 10)
        else if o.frame.prn = prn then
          match first with
          | none => listFirst W p prn n (some o.frame) o.frame o.strm o.errno
          | some f0 =>
              if p ≠ .G ∧ f0.toc.total = o.frame.toc.total then listFirst W p prn n (some o.frame) o.frame o.strm o.errno
              else pure (.inr (f0, o.frame, o.strm, o.errno))
        else listFirst W p prn n first o.frame o.strm o.errno
      else
        listFirst W p prn n first block (ignoreNextBlock k.2.2).2 errno

/-- Finding the next frame — test_navrnx_G.cpp:80-107, _E.cpp:84-113, _C.cpp:87-116; `after` is the time of clock of `navar[1]`, looked at by
E and C only.  `inl`: the program ends with that code; `inr`: the frame found. -/
def listNext (W : TabWorld) (p : NavProg) (prn after : Int) : (fuel : Nat) → (block : NavFrame) → Stream → (errno : Int) →
    Res (Int ⊕ (NavFrame × Stream × Int))
  | 0, _, _, _ => .diverge
  | n + 1, block, s, errno =>
      let k := peakSatsys s
      if k.1 < 0 then .ok (.inl (-1))
      else if k.1 > 0 then .ok (.inl k.1)
      else if k.2.1 = p.sys then do
        let o ← readNextRecord W.navDate (W.navJunk s.pos) block k.2.2 errno
        if o.status ≠ 0 then pure (.inl 10)
        else if o.frame.prn = prn ∧ (p = .G ∨ after < o.frame.toc.total) then pure (.inr (o.frame, o.strm, o.errno))
        else listNext W p prn after n o.frame o.strm o.errno
      else
        listNext W p prn after n block (ignoreNextBlock k.2.2).2 errno

/-- The loop over the epochs — test_navrnx_G.cpp:63-109, _E.cpp:68-115, _C.cpp:68-118: exit code and lines.  Its condition
compares a date with the date one day later and is always true.  The line is computed with `block`, and the status of the
computation is not looked at.  `t` in milliseconds since MJD 0. -/
noncomputable def listLoop (W : TabWorld) (p : NavProg) (prn : Int) : (fuel : Nat) → (n0 n1 block : NavFrame) → Stream → (errno : Int) → (t : Int) →
    StateClock → Res (Int × List TabLine)
  | 0, _, _, _, _, _, _, _ => .diverge
  | n + 1, n0, n1, block, s, errno, t, o =>
      if t ≥ 1000 * n0.toc.total ∧ (t < 1000 * n1.toc.total ∨ (p = .G ∧ t = 1000 * n1.toc.total)) then do
        let c := keplerStateNclock p.konst block (msEpoch t) o
        let l : TabLine := ⟨t, block, ![c.state 0, c.state 1, c.state 2], c.clock⟩
        if t + 60000 ≥ 1000 * n1.toc.total then
          match ← listNext W p prn n1.toc.total W.fuel block s errno with
          | .inl code => pure (code, [l])
          | .inr (f, s, errno) => do
            let r ← listLoop W p prn n n1 f f s errno (t + 60000) c
            pure (r.1, l :: r.2)
        else do
          let r ← listLoop W p prn n n0 n1 block s errno (t + 60000) c
          pure (r.1, l :: r.2)
      else .ok (5, [])

/-- `main` of the programs G, E and C — test_navrnx_G.cpp:15-112, _E.cpp:15-118, _C.cpp:15-121: what was counted first, exit code and listing.  `o` is the
uninitialised `state` and `dt = 0`. -/
noncomputable def listMain (W : TabWorld) (p : NavProg) (o : StateClock) (argv : List (List Char)) : Res (Int × List TabLine) :=
  Res.noexcept (do
    match ← navThrough W p argv with
    | .inl c => pure (c, [])
    | .inr (nav, prn, r) => do
      let s := match nav.endOfHead with
        | some e => navRewind e r.strm none
        | none => { r.strm with eof := false, fail := true }
      match ← listFirst W p prn W.fuel none r.frame s r.errno with
      | .inl c => pure (c, [])
      | .inr (f0, f1, s, errno) => listLoop W p prn W.fuel f0 f1 f1 s errno (1000 * f0.toc.total) { o with clock := 0 })

end Ggnss
