import Verif.Spec.NavFate
/-!
# Specification for C112: what a search for a satellite makes of a navigation file whose records have arbitrary lines

`PrnOf`, `NumberIn`, `NoNumberIn`, `RecordSays` (Spec/NavSound) say what stands in a line and what a frame has of it, `ToeBeyond` (Spec/NavFate) when a time of
ephemeris cannot be made.
-/
namespace Ggnss

/-- A record of a file: system and lines. -/
abbrev NavBlock := SatSys × List (List Char)

/-- What a record is, when it is read: one of satellite `p`, refused with a status after some lines, undefined behaviour, or the end of the process. -/
inductive BlockKind where
  | good (p : Int)
  | bad (st : Int) (lines : Nat)
  | undefined
  | killed
  deriving DecidableEq

/-- Every number of the lines before `j` can be read. -/
def ReadableBefore (sys : SatSys) (ls : List (List Char)) (j : Nat) : Prop :=
  ∀ i < j, ∀ q, ls[i]? = some q → ∀ k < specCount sys i, ∃ v, NumberIn (numText q (navCol i k)) v

/-- The lines say what the record is; `valid`: the calendar takes the date. -/
inductive BlockIs (sys : SatSys) (ls : List (List Char)) (valid : List Char → Prop) : BlockKind → Prop
  | date (l) : ls.head? = some l → ¬ valid (l.drop 3) → BlockIs sys ls valid .killed
  | satellite (l) : ls.head? = some l → valid (l.drop 3) → (∀ p, PrnOf l p → p = 0) → BlockIs sys ls valid (.bad 2 1)
  | number (l p j k q) : ls.head? = some l → valid (l.drop 3) → PrnOf l p → p ≠ 0 → ls[j]? = some q → k < specCount sys j → NoNumberIn (numText q (navCol j k)) →
      ReadableBefore sys ls j → BlockIs sys ls valid (.bad (badStatus sys j) (j + 1))
  | good (l p) : ls.head? = some l → valid (l.drop 3) → PrnOf l p → p ≠ 0 → ReadableBefore sys ls ls.length → ¬ ToeBeyond sys ls → BlockIs sys ls valid (.good p)
  | beyond (l p) : ls.head? = some l → valid (l.drop 3) → PrnOf l p → p ≠ 0 → ReadableBefore sys ls ls.length → ToeBeyond sys ls → BlockIs sys ls valid .undefined

/-- How a search ends (`late`: a search for a message in force gives up at a message that is too late, Spec/NavFindValid). -/
inductive SearchWhat where
  | found
  | late
  | ended
  | refused (st : Int) (lines : Nat)
  | undefined
  | killed
  deriving DecidableEq

/-- How a search for satellite `prn` of system `sys` (-1: any) goes: the records `bs` are looked at one after the other, and it ends at the one with number `i`. -/
inductive SearchFate (valid : List Char → Prop) (sys : SatSys) (prn : Int) : List NavBlock → Nat → SearchWhat → Prop
  /-- no record is left -/
  | ended : SearchFate valid sys prn [] 0 .ended
  /-- a record of another system, whatever is in it -/
  | other {b bs i w} : b.1 ≠ sys → SearchFate valid sys prn bs i w → SearchFate valid sys prn (b :: bs) (i + 1) w
  /-- a record of another satellite -/
  | pass {b bs i w} (p : Int) : b.1 = sys → BlockIs sys b.2 valid (.good p) → prn ≠ -1 → p ≠ prn → SearchFate valid sys prn bs i w →
      SearchFate valid sys prn (b :: bs) (i + 1) w
  /-- the record -/
  | found {b bs} (p : Int) : b.1 = sys → BlockIs sys b.2 valid (.good p) → (prn = -1 ∨ p = prn) → SearchFate valid sys prn (b :: bs) 0 .found
  /-- a record of the system that cannot be read, whatever its satellite -/
  | refused {b bs} (st : Int) (m : Nat) : b.1 = sys → BlockIs sys b.2 valid (.bad st m) → SearchFate valid sys prn (b :: bs) 0 (.refused st m)
  | undefined {b bs} : b.1 = sys → BlockIs sys b.2 valid .undefined → SearchFate valid sys prn (b :: bs) 0 .undefined
  | killed {b bs} : b.1 = sys → BlockIs sys b.2 valid .killed → SearchFate valid sys prn (b :: bs) 0 .killed

/-- The lines of records. -/
def blockLines (bs : List NavBlock) : List (List Char) := (bs.map Prod.snd).flatten

/-- What the caller of the search sees (position of the beginning, status, frame, stream) when it ends at record `i`; `s`: the stream before. -/
def SearchDelivers (dateOf : List Char → Res DateTime) (sys : SatSys) (bs : List NavBlock) (s : Stream) (i : Nat) (r : Res (Option Nat × NavOut)) : SearchWhat → Prop
  | .found => ∃ f' g b, bs[i]? = some b ∧ RecordSays dateOf sys b.2 g f' ∧ r = .ok (some s.pos, ⟨0, f', { s with pos := s.pos + (linesText (blockLines (bs.take (i + 1)))).length }, 0⟩)
  | .late => ∃ f' g b, bs[i]? = some b ∧ RecordSays dateOf sys b.2 g f' ∧ r = .ok (some s.pos, ⟨-1, f', { s with pos := s.pos + (linesText (blockLines (bs.take (i + 1)))).length }, 0⟩)
  | .ended => i = bs.length ∧ ∃ f', r = .ok (some s.pos, ⟨-1, f', { s with pos := s.pos + (linesText (blockLines bs)).length }, 0⟩)
  | .refused st m => ∃ f' b, bs[i]? = some b ∧ r = .ok (some s.pos, ⟨st, f', { s with pos := s.pos + (linesText (blockLines (bs.take i) ++ b.2.take m)).length }, 0⟩)
  | .undefined => r = .ub
  | .killed => r = .terminate

end Ggnss
