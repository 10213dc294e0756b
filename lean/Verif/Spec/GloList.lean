import Verif.Spec.NavTab
/-!
# Specification: the listing of a GLONASS satellite
-/
namespace Ggnss

/-- The message is 15 minutes old or older at `t` (milliseconds since MJD 0). -/
def NavItem.Past (r : NavItem) (t : Int) : Prop := ∃ toe, r.toeIs toe ∧ 1000 * toe + 900000 ≤ t

/-- `t` is less than 15 minutes away from the time of ephemeris. -/
def NavItem.Near (r : NavItem) (t : Int) : Prop := ∃ toe, r.toeIs toe ∧ |1000 * toe - t| < 900000

/-- `q` is the first of the messages that is not past at `t`. -/
def FirstNotPast (ms : List NavItem) (t : Int) (q : NavItem) : Prop :=
  ∃ a b, ms = a ++ q :: b ∧ (∀ x ∈ a, x.Past t) ∧ ¬ q.Past t

/-- The epochs of the listing: every 60.001 s from `t0` on, `K` of them. -/
def OnGrid (t0 : Int) (K : Nat) (t : Int) : Prop := ∃ k < K, t = t0 + 60001 * (k : Int)

/-- The listing of the messages `ms` over the first `K` epochs from `t0` on: in order of time, one line for exactly those epochs at which the first
message that is not past is near; every line shows what that message says. -/
structure ListsNear (ms : List NavItem) (t0 : Int) (K : Nat) (lines : List TabRow) : Prop where
  order : lines.Pairwise fun a b => a.1 < b.1
  line : ∀ l ∈ lines, OnGrid t0 K l.1 ∧ ∃ q, FirstNotPast ms l.1 q ∧ q.Near l.1 ∧ GloSays q l.1 l.2.1 l.2.2
  complete : ∀ t q, OnGrid t0 K t → FirstNotPast ms t q → q.Near t → ∃ l ∈ lines, l.1 = t

end Ggnss
