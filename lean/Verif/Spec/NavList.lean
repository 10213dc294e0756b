import Verif.Spec.NavTab
/-!
# Specification: the listings of the check programs
-/
namespace Ggnss
open NavItem

/-- `q` is the first of the messages whose time of clock is still to come at `t`. -/
def FirstAfter (ms : List NavItem) (t : Int) (q : NavItem) : Prop :=
  ∃ a b, ms = a ++ q :: b ∧ (∀ x ∈ a, 1000 * x.toc.total ≤ t) ∧ t < 1000 * q.toc.total

/-- `q` is the message in force at `t`: the last one whose time of clock has come. -/
def LatestBefore (ms : List NavItem) (t : Int) (q : NavItem) : Prop :=
  ∃ a b, ms = a ++ q :: b ∧ 1000 * q.toc.total ≤ t ∧ ∀ x ∈ b, t < 1000 * x.toc.total

/-- A listing once a minute from `t0` on, up to the time of clock of the last message, in which every line shows what the *next*
message broadcasts for the epoch of the line. -/
structure ListsNext (ms : List NavItem) (t0 : Int) (lines : List TabRow) : Prop where
  line : ∀ (k : Nat) (l : TabRow), lines[k]? = some l → l.1 = t0 + 60000 * k ∧ ∃ q, FirstAfter ms l.1 q ∧ KeplerSays q l.1 l.2.1 l.2.2
  complete : ∀ q ∈ ms, 1000 * q.toc.total ≤ t0 + 60000 * lines.length

/-- Consecutive messages are at least a minute apart; with `ties`, several messages may have the same time of clock. -/
def Spaced (ties : Bool) (ms : List NavItem) : Prop :=
  ms.Pairwise fun a b => a.toc.total + 60 ≤ b.toc.total ∨ (ties = true ∧ a.toc.total = b.toc.total)

end Ggnss
