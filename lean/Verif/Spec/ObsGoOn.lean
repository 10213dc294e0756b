import Verif.Spec.ObsSeries
/-!
# Specification for C117: a caller who keeps reading an observation file after a defect

The words are those of Spec/ObsSeries.  A refused header uses up its line, a refused data line the lines up to it, an epoch within which the file ends the rest of the file;
the next call begins behind them, with the vector as it has been left.
-/
namespace Ggnss

/-- The answers to `calls` calls of a caller that never stops, when these lines are ahead and the vector of the caller is `ov` (fewer if a call does not come back). -/
inductive ObsGoesOn (mjdOf : Int → Int → Int → Res Int) (mmap : List (SatSys × List (List (Nat × Rat)))) (nl : Bool) :
    (calls : Nat) → List (List Char) → List ((SatSys × Int) × List Rat) → List ObsAnswer → Prop
  | enough (ls ov) : ObsGoesOn mjdOf mmap nl 0 ls ov []
  | atEnd (k ov rest) : ObsGoesOn mjdOf mmap nl k [] ov rest → ObsGoesOn mjdOf mmap nl (k + 1) [] ov (.atEnd :: rest)
  | epoch (k l0 ls ov h out ov' rest) : HeaderGives mjdOf l0 h → (h.numSats.toNat < ls.length ∨ h.numSats.toNat = ls.length ∧ nl = true) →
      LinesGive mmap (ls.take h.numSats.toNat) out → Holds ov ov' out → ObsGoesOn mjdOf mmap nl k (ls.drop h.numSats.toNat) ov' rest →
      ObsGoesOn mjdOf mmap nl (k + 1) (l0 :: ls) ov (.epoch h out.length ov' :: rest)
  | last (k l0 ls ov h out ov' rest) : HeaderGives mjdOf l0 h → h.numSats.toNat = ls.length → nl = false → LinesGive mmap ls out → Holds ov ov' out →
      ObsGoesOn mjdOf mmap nl k [] ov' rest → ObsGoesOn mjdOf mmap nl (k + 1) (l0 :: ls) ov (.last h out.length ov' :: rest)
  | header (k l0 ls ov c rest) : HeaderFails mjdOf l0 c → ObsGoesOn mjdOf mmap nl k ls ov rest → ObsGoesOn mjdOf mmap nl (k + 1) (l0 :: ls) ov (.defect (20 + c) 0 none ov :: rest)
  | refused (k l0 ls ov h out ov' j l rest) : HeaderGives mjdOf l0 h → j < h.numSats.toNat → LinesGive mmap (ls.take j) out → out.length ≤ ov.length → ls[j]? = some l →
      LineFails mmap l → (Wanted mmap l → out.length < ov.length) → HoldsUpTo ov ov' out → ObsGoesOn mjdOf mmap nl k (ls.drop (j + 1)) ov' rest →
      ObsGoesOn mjdOf mmap nl (k + 1) (l0 :: ls) ov (.defect 31 out.length (some h) ov' :: rest)
  | short (k l0 ls ov h out ov' rest) : HeaderGives mjdOf l0 h → ls.length < h.numSats.toNat → LinesGive mmap ls out → Holds ov ov' out →
      ObsGoesOn mjdOf mmap nl k [] ov' rest → ObsGoesOn mjdOf mmap nl (k + 1) (l0 :: ls) ov (.defect 31 out.length (some h) ov' :: rest)
  | date (k l0 ls ov y mo d hh mi rest e) : l0.head? = some '>' → 35 ≤ l0.length → DateIn l0 [y, mo, d, hh, mi] rest →
      mjdOf (toInt32 y) (toInt32 mo) (toInt32 d) = .throw e → ObsGoesOn mjdOf mmap nl (k + 1) (l0 :: ls) ov [.killed]
  | full (k l0 ls ov h out j l) : HeaderGives mjdOf l0 h → j < h.numSats.toNat → LinesGive mmap (ls.take j) out → out.length = ov.length → ls[j]? = some l → Wanted mmap l →
      ObsGoesOn mjdOf mmap nl (k + 1) (l0 :: ls) ov [.undefined]

/-- A caller that never stops: what is seen of `calls` calls. -/
def obsAllCalls (mjdOf : Int → Int → Int → Res Int) (raw0 : RawRnxObs) (mmap : ReadMap) : (calls : Nat) → List SatVals → List Char → Stream → Int → List (Res EpochOut)
  | 0, _, _, _, _ => []
  | k + 1, ov, buf, s, errno =>
    match readNextEpoch mjdOf raw0 mmap ov buf s errno with
    | .ok o => .ok o :: obsAllCalls mjdOf raw0 mmap k o.satobs o.buf o.strm o.errno
    | r => [r]

/-- What is determined of an answer when the vector is not known: status, header, number of satellites. -/
def ObsAnswer.shape : ObsAnswer → Int × Option EpochHead × Nat
  | .epoch h n _ => (0, some h, n)
  | .last h n _ => (-1, some h, n)
  | .atEnd => (-1, none, 0)
  | .defect st n h _ => (st, h, n)
  | .undefined => (100, none, 0)
  | .killed => (101, none, 0)

end Ggnss
