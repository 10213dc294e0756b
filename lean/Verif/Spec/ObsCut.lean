import Verif.Spec.ObsExact
/-!
# Specification: observation files that end early

What may be delivered of an epoch of which only the beginning is in the file.
-/
namespace Ggnss

/-- What is seen of a data line of which only the beginning `p` is in the file: nothing, when the
system is not requested or the satellite number is not there; else the satellite with the number that
is there, and the values of the fields that are there (`GotAll`: a field that is not complete counts
as missing). -/
inductive CutLine (mmap : List (SatSys × List (List (Nat × Rat)))) (p : List Char) : List ((SatSys × Int) × List Rat) → Prop
  | empty : p = [] → CutLine mmap p []
  | skip (sys : SatSys) : p.head? = some (satsysToChar sys) → mmap.lookup sys = none → CutLine mmap p []
  | number (sys : SatSys) (sysobs : List (List (Nat × Rat))) : p.head? = some (satsysToChar sys) → mmap.lookup sys = some sysobs →
      p.length ≤ 2 → p[1]? = none ∨ p[1]? = some ' ' ∨ p[1]? = some '0' → CutLine mmap p []
  | sat (sys : SatSys) (prn : Nat) (sysobs : List (List (Nat × Rat))) (xss : List (List (Option Rat × Rat))) :
      p.head? = some (satsysToChar sys) → mmap.lookup sys = some sysobs → NatAt ((p.drop 1).take 2) 0 prn → 1 ≤ prn → prn ≤ 99 →
      List.Forall₂ (GotAll p) sysobs xss → CutLine mmap p [((sys, (prn : Int)), xss.map (codeSum · 0))]

/-- What is seen of an epoch of which only the beginning `p` (not all of it) is in the file: nothing when
the file ends in the header line; else the satellites of the complete data lines, and what is seen of
the line in which the file ends. -/
inductive CutSees (mmap : List (SatSys × List (List (Nat × Rat)))) (b : ObsEpochBlock) : List Char → List ((SatSys × Int) × List Rat) → Prop
  | head {p : List Char} : p <+: b.head.line → CutSees mmap b p []
  | lines {ls rest : List (List Char)} {l q : List Char} {out o : List ((SatSys × Int) × List Rat)} : b.lines = ls ++ l :: rest → q <+: l →
      EpochGot mmap ls out → CutLine mmap q o → CutSees mmap b (linesText (b.head.line :: ls) ++ q) (out ++ o)

/-- Within an observable the columns of the parts do not decrease (in particular: a raw observable). -/
def ColumnsInOrder (mmap : List (SatSys × List (List (Nat × Rat)))) : Prop :=
  ∀ m ∈ mmap, ∀ prs ∈ m.2, prs.Pairwise (fun a b => a.1 ≤ b.1)

/-- The text ends two chars into a line: in a data line, after the first of the two columns of the satellite number. -/
def EndsInNumber (p : List Char) : Prop := ∃ t a c, p = t ++ ['\n', a, c]

/-- `o'` is the satellite `o` with some of its values missing; when the file (`p`) ends in the satellite number,
only the system is the same. -/
structure PartOf (p : List Char) (o' o : (SatSys × Int) × List Rat) : Prop where
  system : o'.1.1 = o.1.1
  sat : o'.1 = o.1 ∨ EndsInNumber p
  values : List.Forall₂ (fun v' v => v' = v ∨ v' = missingMark) o'.2 o.2

end Ggnss
