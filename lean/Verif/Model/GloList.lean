import Verif.Model.Checks
/-!
# Model of the listing of test/test_navrnx_R.cpp

After reading through the file (`navThrough`) the program goes back to its beginning and lists position and clock of one GLONASS satellite.
What it prints is represented by the list of lines (`TabLine`); `utc2gps` and `pz902wgs` are false (test_navrnx_R.cpp:13-14).
-/
namespace Ggnss

/-- Reading the first frame — test_navrnx_R.cpp:69-84.  The status of `ignore_next_block` is not looked at.  `inl`: the program ends with that code. -/
def gloFirst (W : TabWorld) (prn : Int) : (fuel : Nat) → (block : NavFrame) → Stream → (errno : Int) → Res (Int ⊕ (NavFrame × Stream × Int))
  | 0, _, _, _ => .diverge
  | n + 1, block, s, errno =>
      let k := peakSatsys s
      if k.2.1 = .glonass then do
        let o ← readNextRecord W.navDate (W.navJunk s.pos) block k.2.2 errno
        if o.status ≠ 0 then pure (.inl 10)
        else if o.frame.prn = prn then pure (.inr (o.frame, o.strm, o.errno))
        else gloFirst W prn n o.frame o.strm o.errno
      else gloFirst W prn n block (ignoreNextBlock k.2.2).2 errno

/-- `read_next_glo_frame` — test_navrnx_R.cpp:17-43.  `inl`: the status it returns when it is not 0. -/
def gloNext (W : TabWorld) (prn : Int) : (fuel : Nat) → (block : NavFrame) → Stream → (errno : Int) → Res (Int ⊕ (NavFrame × Stream × Int))
  | 0, _, _, _ => .diverge
  | n + 1, block, s, errno =>
      let k := peakSatsys s
      if k.2.1 = .glonass then do
        let o ← readNextRecord W.navDate (W.navJunk s.pos) block k.2.2 errno
        if o.status ≠ 0 then pure (.inl 10)
        else if o.frame.prn = prn then pure (.inr (o.frame, o.strm, o.errno))
        else gloNext W prn n o.frame o.strm o.errno
      else
        let g := ignoreNextBlock k.2.2
        if g.1 ≠ 0 then .ok (.inl g.1) else gloNext W prn n block g.2 errno

/-- The loop over the epochs — test_navrnx_R.cpp:100-136: exit code and lines.  `left` is `1499 - it`: `++it<1500` fails when it is 0
(the condition before it may fail as well, then the result is the same).  `t` in milliseconds since MJD 0; the differences of dates are exact.  The
last `else` cannot be reached. -/
noncomputable def gloList (W : TabWorld) (prn limit : Int) : (left : Nat) → (block : NavFrame) → Stream → (errno : Int) → (t : Int) → StateClock →
    Res (Int × List TabLine)
  | 0, _, _, _, _, _ => .ok (0, [])
  | n + 1, block, s, errno, t, o =>
      if t ≤ limit then
        let d := 1000 * block.toe.total - t
        if |d| < 900000 then do
          let c ← gloStateNclock block W.fuel (msEpoch t) o
          if c.status ≠ 0 then pure (10, [])
          else do
            let r ← gloList W prn limit n block s errno (t + 60001) c
            pure (r.1, ⟨t, block, ![c.state 0, c.state 1, c.state 2], c.clock⟩ :: r.2)
        else if d ≤ -900000 then do
          match ← gloNext W prn W.fuel block s errno with
          | .inl _ => pure (5, [])
          | .inr (f, s, errno) => gloList W prn limit n f s errno t o
        else gloList W prn limit n block s errno (t + 60001) o
      else .ok (0, [])

/-- `main` — test_navrnx_R.cpp:45-139: exit code and listing.  `o` is the uninitialised `state` and `dt`. -/
noncomputable def gloListMain (W : TabWorld) (o : StateClock) (argv : List (List Char)) : Res (Int × List TabLine) :=
  Res.noexcept (do
    match ← navThrough W .R argv with
    | .inl c => pure (c, [])
    | .inr (nav, prn, r) => do
      let s := match nav.endOfHead with
        | some e => navRewind e r.strm none
        | none => { r.strm with eof := false, fail := true }
      match ← gloFirst W prn W.fuel r.frame s r.errno with
      | .inl c => pure (c, [])
      | .inr (f, s, errno) =>
          gloList W prn (1000 * f.toc.total + 86400000) 1499 f s errno (1000 * f.toc.total - 10800000) o)

end Ggnss
