import Verif.Model.Sp3Head
/-!
# Model of `LagrangeSp3Interpolator<SEC>::initialize` (`src/sp3c.hpp:149-184`)

The constructor is `lagrangeNew` of `Verif.Model.Sp3Head`.  Here an object is any value of the data
members; which ones the constructor leaves behind is another matter (C62).
-/
namespace Ggnss

/-- The data members of `LagrangeSp3Interpolator` — sp3c.hpp:187-190, without the pointer to the SP3
file, whose stream is passed separately. -/
structure Interp where
  K : Int
  running : Nat
  svec : List (List Sp3Rec)
  tvec : List Sp3Epoch

/-- `svec_[i][0] = r` — sp3c.hpp:161 and 174: undefined when there is no slot `i` or the slot is empty. -/
def slotSet (svec : List (List Sp3Rec)) (i : Nat) (r : Sp3Rec) : Res (List (List Sp3Rec)) :=
  match svec[i]? with
  | some (_ :: l) => .ok (svec.set i (r :: l))
  | _ => .ub

/-- `vec[i]` — sp3c.hpp:161, 167, 168, 174, 177: undefined behind the end. -/
def recAt (vec : List Sp3Rec) (i : Nat) : Res Sp3Rec :=
  match vec[i]? with
  | some r => .ok r
  | none => .ub

/-- The loop over the records of the first epoch — sp3c.hpp:160-161: `n` records still to store, the next
one is the `i`-th. -/
def interpFirst (vec : List Sp3Rec) : (n i : Nat) → List (List Sp3Rec) → Res (List (List Sp3Rec))
  | 0, _, svec => .ok svec
  | n + 1, i, svec => do
      let r ← recAt vec i
      let svec ← slotSet svec i r
      interpFirst vec n (i + 1) svec

/-- `std::find_if` over the first `running_sv` slots — sp3c.hpp:169-172: `n` slots still to look at, the
next one is the `i`-th.  `e[0]` of an empty slot, and a slot that is not there, are undefined. -/
def interpFind (svec : List (List Sp3Rec)) (sys : SatSys) (prn : Int) : (n i : Nat) → Res (Option Nat)
  | 0, _ => .ok none
  | n + 1, i =>
      match svec[i]? with
      | some (e :: _) => if e.sys = sys ∧ e.prn = prn then .ok (some i) else interpFind svec sys prn n (i + 1)
      | _ => .ub

/-- The body of the loop over the records of a later epoch — sp3c.hpp:167-178. -/
def interpAdd (r : Sp3Rec) (svec : List (List Sp3Rec)) (running : Nat) : Res (List (List Sp3Rec) × Nat) := do
  match ← interpFind svec r.sys r.prn running 0 with
  | none => do
      let svec ← slotSet svec running r
      pure (svec, running + 1)
  | some i => pure (svec.set i (svec.getD i [] ++ [r]), running)

/-- The loop over the records of a later epoch — sp3c.hpp:166-179. -/
def interpMore (vec : List Sp3Rec) : (n i : Nat) → List (List Sp3Rec) → (running : Nat) → Res (List (List Sp3Rec) × Nat)
  | 0, _, svec, running => .ok (svec, running)
  | n + 1, i, svec, running => do
      let r ← recAt vec i
      let x ← interpAdd r svec running
      interpMore vec n (i + 1) x.1 x.2

/-- What is done with an epoch that was read — sp3c.hpp:158-180; `k` is the number of epochs before. -/
def interpEpoch (o : Interp) (k : Nat) (t : Sp3Epoch) (vec : List Sp3Rec) (nsats : Int) : Res Interp :=
  if k = 0 then do
    let sv ← interpFirst vec nsats.toNat 0 o.svec
    pure { o with svec := sv, running := nsats.toNat, tvec := o.tvec ++ [t] }
  else do
    let x ← interpMore vec nsats.toNat 0 o.svec o.running
    pure { o with svec := x.1, running := x.2, tvec := o.tvec ++ [t] }

/-- The loop of sp3c.hpp:154-182 once its condition read `j` as 0: `n` iterations are left, `k` are done.
`junk` gives the indeterminate content of the array in `get_next_epoch`. -/
def interpLoop (junk : Nat → List Char) (fuel : Nat) : (n k : Nat) → Interp → Sp3Epoch → List Sp3Rec → Int → Stream → Int →
    Res (Int × Interp × Stream)
  | 0, _, o, _, _, _, s, _ => .ok (0, o, s)
  | n + 1, k, o, t, vec, nsats, s, errno => do
      let g ← getNextEpoch (junk s.pos) fuel t vec nsats s errno
      if g.status ≠ 0 then pure (g.status, o, g.strm)
      else
        let o ← interpEpoch o k g.t g.vec g.satsRead
        interpLoop junk fuel n (k + 1) o g.t g.vec g.satsRead g.strm g.errno

/-- `LagrangeSp3Interpolator<SEC>::initialize` — sp3c.hpp:149-184: status, object and stream.
`j0` is the indeterminate value of the local variable `j` that the condition of the loop reads before
any assignment (sp3c.hpp:151, 154); `nsats0` and `t0` those of `nsats` and `t`.
`k < K + 1` with the largest `int` as `K` overflows. -/
def interpInit (junk : Nat → List Char) (fuel : Nat) (j0 nsats0 : Int) (t0 : Sp3Epoch) (endOfHead : Option Nat) (numSats : Int)
    (o : Interp) (s : Stream) (errno : Int) : Res (Int × Interp × Stream) := do
  let s := sp3Rewind endOfHead s none
  let vec ← sp3Allocate numSats
  if j0 ≠ 0 then pure (0, o, s)
  else if o.K = 2147483647 then .ub
  else interpLoop junk fuel (o.K + 1).toNat 0 o t0 vec nsats0 s errno

end Ggnss
