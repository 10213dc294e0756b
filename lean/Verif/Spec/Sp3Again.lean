import Verif.Props.BadDate

/-!
Specification for C96: a caller that reads epochs and rewinds in any order.
-/
namespace Ggnss

/-- What a caller does with an open file. -/
inductive Sp3Op where
  /-- `get_next_epoch` -/
  | next
  /-- `rewind()` -/
  | rewind
deriving DecidableEq

/-- A caller that makes the calls `ops` on one open file, with one vector and one epoch variable: the results of the calls to
`get_next_epoch`, in order.  (Not code of /repo.)  `junk k` is the content of the uninitialised line buffer of the `k`-th call. -/
def sp3Client (L : Sp3Lib) (endOfHead : Option Nat) (junk : Nat → List Char) (fuel : Nat) :
    List Sp3Op → Nat → MicroTime → List Sp3Rec → Int → Stream → Int → Res (List Sp3Dated)
  | [], _, _, _, _, _, _ => .ok []
  | .rewind :: ops, k, t, vec, sr, s, errno =>
      sp3Client L endOfHead junk fuel ops (k + 1) t vec sr (sp3Rewind endOfHead s none) errno
  | .next :: ops, k, t, vec, sr, s, errno => do
      let o ← sp3NextEpoch L (junk k) fuel t vec sr s errno
      let r ← sp3Client L endOfHead junk fuel ops (k + 1) o.t o.vec o.satsRead o.strm o.errno
      pure (o :: r)

/-- The caller never asks for an epoch behind the last of `n`, when it stands before number `i`. -/
def NeverPast (n : Nat) : Nat → List Sp3Op → Prop
  | _, [] => True
  | _, .rewind :: ops => NeverPast n 0 ops
  | i, .next :: ops => i < n ∧ NeverPast n (i + 1) ops

/-- The epoch a caller stands before, after the calls `ops`. -/
def cursorAfter : Nat → List Sp3Op → Nat
  | i, [] => i
  | _, .rewind :: ops => cursorAfter 0 ops
  | i, .next :: ops => cursorAfter (i + 1) ops

/-- The answers a caller standing before epoch number `i` of the file with the epochs `bs` should get: a call delivers the epoch it
stands before, with status 0, and -1 for the last one; (`DeliversDate`: C95); behind the last one the status is 1; rewinding goes back to the first. -/
inductive Answers (L : Sp3Lib) (bs : List EpochBlock) : Nat → List Sp3Op → List Sp3Dated → Prop
  | done (i : Nat) : Answers L bs i [] []
  | rewind {i : Nat} {ops : List Sp3Op} {outs : List Sp3Dated} : Answers L bs 0 ops outs → Answers L bs i (.rewind :: ops) outs
  | epoch {i : Nat} {b : EpochBlock} {o : Sp3Dated} {ops : List Sp3Op} {outs : List Sp3Dated} : bs[i]? = some b → DeliversDate L b o →
      o.status = (if i + 1 = bs.length then -1 else 0) → Answers L bs (i + 1) ops outs → Answers L bs i (.next :: ops) (o :: outs)
  | past {i : Nat} {o : Sp3Dated} {ops : List Sp3Op} {outs : List Sp3Dated} : bs.length ≤ i → o.status = 1 →
      Answers L bs i ops outs → Answers L bs i (.next :: ops) (o :: outs)

end Ggnss
