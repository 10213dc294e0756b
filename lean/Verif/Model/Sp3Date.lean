import Verif.Model.Sp3Head

/-!
`Sp3c::get_next_epoch` with the constructor of the date.

`getNextEpoch` (Model/Sp3) keeps the calendar components of the epoch; the code converts them with the
constructor of `ngpt::datetime<microseconds>` (sp3c.cpp:276-279), which may throw on an impossible
date.  Here that conversion is part of the model; the library is the parameter `L`.
-/
namespace Ggnss

/-- Result of `get_next_epoch`, the epoch being a date of the library. -/
structure Sp3Dated where
  status : Int
  t : MicroTime
  vec : List Sp3Rec
  satsRead : Int
  strm : Stream
  errno : Int

/-- `Sp3c::get_next_epoch` — sp3c.cpp:243-317, with the assignment of `t` of lines 276-279: the
constructor runs after the header line has been read and before any other line is. -/
def sp3NextEpoch (L : Sp3Lib) (junk : List Char) (fuel : Nat) (t : MicroTime) (vec : List Sp3Rec) (satsRead : Int)
    (s : Stream) (errno : Int) : Res Sp3Dated :=
  Res.noexcept (
    if !s.good then .ok ⟨1, t, vec, satsRead, s, errno⟩
    else do
      let g := s.getline MAX_RECORD_CHARS
      let buf := fillLine junk g.1
      let h ← sp3Header buf errno
      match h.1 with
      | .error e => pure ⟨e, t, vec, satsRead, g.2, h.2⟩
      | .ok c => do
        let t ← L.date c
        let o ← sp3Loop c satsRead fuel buf vec 0 g.2 h.2
        pure ⟨o.status, t, o.vec, o.satsRead, o.strm, o.errno⟩)

/-- A caller that reads until the status is not 0 — test/test_sp3.cpp:21-26; at most `calls` calls. -/
def sp3ReadAll (L : Sp3Lib) (junk : Nat → List Char) (fuel : Nat) : (calls : Nat) → MicroTime → List Sp3Rec → Int → Stream → Int →
    Res (List Sp3Dated)
  | 0, _, _, _, _, _ => .ok []
  | k + 1, t, vec, sr, s, errno => do
      let o ← sp3NextEpoch L (junk s.pos) fuel t vec sr s errno
      if o.status ≠ 0 then pure [o]
      else
        let r ← sp3ReadAll L junk fuel k o.t o.vec o.satsRead o.strm o.errno
        pure (o :: r)

end Ggnss
