import Verif.Spec.Sp3
import Verif.Model.Interp
/-!
# Specification: what an interpolator holds

From the model only the types of records, epochs and the data members are used.
-/
namespace Ggnss

/-- The satellite of a record. -/
def Sp3Rec.sat (r : Sp3Rec) : SatSys × Int := (r.sys, r.prn)

/-- The records of one satellite among `rs`, in their order. -/
def seriesOf (rs : List Sp3Rec) (sat : SatSys × Int) : List Sp3Rec := rs.filter (fun r => r.sat = sat)

/-- An object as the constructor is meant to leave it (sp3c.hpp:139-146): one slot per satellite with one
default record, no epochs. -/
structure Interp.Fresh (o : Interp) (numSats : Nat) : Prop where
  slots : o.svec = List.replicate numSats [({} : Sp3Rec)]
  times : o.tvec = []
  unused : o.running = 0

/-- The object holds the epochs `eps` (time and records): their times in order, and one slot per
satellite they have records of, with the records of that satellite in the order of the epochs. -/
structure Interp.Holds (o : Interp) (eps : List (Sp3Epoch × List Sp3Rec)) : Prop where
  times : o.tvec = eps.map Prod.fst
  slots : ∃ sats : List (SatSys × Int), sats.Nodup ∧ (∀ x, x ∈ sats ↔ ∃ e ∈ eps, ∃ r ∈ e.2, r.sat = x) ∧
    o.running = sats.length ∧ o.svec.take o.running = sats.map (seriesOf (eps.map Prod.snd).flatten)

/-- In every slot in use the `n`-th record is the record of that satellite at the `n`-th time. -/
def Interp.Aligned (o : Interp) (eps : List (Sp3Epoch × List Sp3Rec)) : Prop :=
  ∀ (i : Nat), i < o.running → ∃ slot, o.svec[i]? = some slot ∧ ∃ sat, slot.length = eps.length ∧
    ∀ (n : Nat) (r : Sp3Rec), slot[n]? = some r → r.sat = sat ∧ ∃ e, eps[n]? = some e ∧ r ∈ e.2

end Ggnss
