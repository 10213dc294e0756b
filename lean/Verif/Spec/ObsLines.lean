import Verif.Spec.ObsBad
import Verif.Spec.ObsSound
import Verif.Spec.NavSound
/-!
# Specification for C101: what the data lines of an observation epoch, of arbitrary characters, give for a request

`fieldCols`: the 16 columns of an observation; `codeSum`: how readings of the parts of an observable are combined (Spec/ObsExact); `NumberIn`, `NoNumberIn`: whether a
text begins with a number (Spec/NavSound); `Holds`, `HoldsUpTo`: what is in the caller's vector (Spec/ObsFile, Spec/ObsBad).
-/
namespace Ggnss

/-- The line has the 16 columns of observation `i`, and the first 14 of them are not blank. -/
def FieldThere (l : List Char) (i : Nat) : Prop := 3 + 16 * i + 16 ≤ l.length ∧ ¬ ∀ c ∈ (fieldCols l i).take 14, c = ' '

/-- What the columns of observation `i` give: nothing if they are not there or blank, else the number they begin with (nothing if it is the missing-value marker). -/
inductive FieldGives (l : List Char) (i : Nat) : Option Rat → Prop
  | absent : ¬ FieldThere l i → FieldGives l i none
  | marker : FieldThere l i → NumberIn (fieldCols l i) missingMark → FieldGives l i none
  | value (v : Rat) : FieldThere l i → NumberIn (fieldCols l i) v → v ≠ missingMark → FieldGives l i (some v)

/-- The columns of observation `i` are there, but do not begin with a number. -/
def FieldFails (l : List Char) (i : Nat) : Prop := FieldThere l i ∧ NoNumberIn (fieldCols l i)

/-- The readings of the parts (columns and coefficients) of an observable. -/
def PartsGive (l : List Char) (prs : List (Nat × Rat)) (xs : List (Option Rat × Rat)) : Prop :=
  List.Forall₂ (fun (pr : Nat × Rat) (x : Option Rat × Rat) => FieldGives l pr.1 x.1 ∧ x.2 = pr.2) prs xs

/-- The two columns of the satellite number begin with the integer `p`, and it is one. -/
def SatNumber (l : List Char) (p : Int) : Prop := IntBegins ((l.drop 1).take 2) p ∧ 1 ≤ p ∧ p ≤ 99

/-- What lines give for a request (`mmap`: columns and coefficients per system), in the order of the lines. -/
inductive LinesGive (mmap : List (SatSys × List (List (Nat × Rat)))) : List (List Char) → List ((SatSys × Int) × List Rat) → Prop
  | nil : LinesGive mmap [] []
  | skip {l : List Char} {ls : List (List Char)} {out : List ((SatSys × Int) × List Rat)} (sys : SatSys) :
      l.head? = some (satsysToChar sys) → mmap.lookup sys = none → LinesGive mmap ls out → LinesGive mmap (l :: ls) out
  | sat {l : List Char} {ls : List (List Char)} {out : List ((SatSys × Int) × List Rat)} (sys : SatSys) (p : Int)
      (sysobs : List (List (Nat × Rat))) (xss : List (List (Option Rat × Rat))) :
      l.head? = some (satsysToChar sys) → mmap.lookup sys = some sysobs → SatNumber l p → List.Forall₂ (PartsGive l) sysobs xss →
      LinesGive mmap ls out → LinesGive mmap (l :: ls) (((sys, p), xss.map (codeSum · 0)) :: out)

/-- A line that gives nothing acceptable for a request. -/
inductive LineFails (mmap : List (SatSys × List (List (Nat × Rat)))) (l : List Char) : Prop
  | system : (∀ sys, l.head? ≠ some (satsysToChar sys)) → LineFails mmap l
  | number (sys : SatSys) (sysobs : List (List (Nat × Rat))) : l.head? = some (satsysToChar sys) → mmap.lookup sys = some sysobs →
      (∀ p, ¬ SatNumber l p) → LineFails mmap l
  | field (sys : SatSys) (sysobs : List (List (Nat × Rat))) (p : Int) (prs : List (Nat × Rat)) (pr : Nat × Rat) : l.head? = some (satsysToChar sys) →
      mmap.lookup sys = some sysobs → SatNumber l p → prs ∈ sysobs → pr ∈ prs → FieldFails l pr.1 → LineFails mmap l

/-- What reading an epoch with `n` data lines, the first of the lines `ls`, may come to: status, number of satellites, vector, lines consumed (`ov`: the vector before). -/
inductive DataOutcome (mmap : List (SatSys × List (List (Nat × Rat)))) (ls : List (List Char)) (n : Nat) (ov : List ((SatSys × Int) × List Rat)) :
    Int → Nat → List ((SatSys × Int) × List Rat) → Nat → Prop
  | complete (out ov') : LinesGive mmap (ls.take n) out → Holds ov ov' out → DataOutcome mmap ls n ov 0 out.length ov' n
  | refused (out ov' j l) : j < n → LinesGive mmap (ls.take j) out → ls[j]? = some l → LineFails mmap l → HoldsUpTo ov ov' out → DataOutcome mmap ls n ov 31 out.length ov' (j + 1)

/-- No requested field of the line is a hexadecimal number, an infinity or "not a number". -/
def PlainLine (mmap : List (SatSys × List (List (Nat × Rat)))) (l : List Char) : Prop :=
  ∀ sys sysobs, mmap.lookup sys = some sysobs → l.head? = some (satsysToChar sys) → ∀ prs ∈ sysobs, ∀ pr ∈ prs, ¬ OddNumber (fieldCols l pr.1)

end Ggnss
