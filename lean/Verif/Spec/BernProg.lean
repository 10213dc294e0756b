import Verif.Spec.Bern
/-!
# Specification: the answers a SATELLIT file gives to a list of questions
-/
namespace Ggnss

/-- The first record in force of satellite `svn` at `t`, its PRN and channel. -/
def BernFirst (recs : List BernRec) (svn : Int) (t : DateTime) (prn chan : Int) : Prop :=
  ∃ (pre : List BernRec) (r : BernRec) (post : List BernRec) (v : Nat) (start : DateTime) (stop : Option DateTime) (p : Nat), recs = pre ++ r :: post ∧ (∀ q ∈ pre, ¬ q.InForce svn t) ∧ r.InForce svn t ∧
    r.mw = some (v, start, stop, p, chan) ∧ prn = (p : Int)

/-- The file has no record in force. -/
def BernNone (recs : List BernRec) (svn : Int) (t : DateTime) : Prop := ∀ q ∈ recs, ¬ q.InForce svn t

/-- `a` is the answer of the file about satellite `svn` at `t`. -/
def BernTells (recs : List BernRec) (svn : Int) (t : DateTime) : Option (Int × Int) → Prop
  | some (prn, chan) => BernFirst recs svn t prn chan
  | none => BernNone recs svn t

end Ggnss
