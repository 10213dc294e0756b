import Verif.Spec.ObsFile
/-!
# Specification: what the code makes of observation fields, good or bad

`Spec/ObsFile` says what the fields of a data line mean (`Reads`, `combination`).  The code departs
from that in three ways, each of which is spelled out here: flag digits directly behind the decimals
are read as further decimals (`spill`), a field that is cut at the end of the line counts as missing
(`Got.short`), and a part that is present is added to the missing-value marker left by an earlier
missing part (`codeSum`).  `EpochGot` is what an epoch gives with these readings; it covers every
data line whose fields are well formed (C39_reading_total).
-/
namespace Ggnss

/-- How much the value columns and the flag columns run together: what the code adds to the absolute
value of the number. -/
def ObsField.spill (f : ObsField) : Rat :=
  if f.lli = ' ' then 0
  else (flagNum f.lli : Rat) / 10 ^ (f.num.fracDigits.length + 1) +
    (if f.ssi = ' ' then 0 else (flagNum f.ssi : Rat) / 10 ^ (f.num.fracDigits.length + 2))

/-- The value read from a field: the number, its absolute value increased by the spill. -/
def ObsField.readValue (f : ObsField) : Rat := f.num.value + signVal f.num.sign * f.spill

/-- The columns of observation `i` as far as the line has them. -/
def fieldCols (l : List Char) (i : Nat) : List Char := (l.drop (3 + 16 * i)).take 16

/-- What the code reads for observation `i` of a data line, and how much it lowers its status: nothing
when the line does not have all 16 columns, when the value columns are blank, or when the value is
the missing-value marker; else the value. -/
inductive Got (l : List Char) (i : Nat) : Option Rat → Int → Prop
  | short : l.length < 3 + 16 * i + 16 → Got l i none 0
  | blank : 3 + 16 * i + 16 ≤ l.length → (∀ c ∈ (fieldCols l i).take 14, c = ' ') → Got l i none 1
  | marker (f : ObsField) : f.WF → fieldCols l i = f.text → f.readValue = missingMark → Got l i none 1
  | value (f : ObsField) : f.WF → fieldCols l i = f.text → f.readValue ≠ missingMark → Got l i (some f.readValue) 0

/-- How the code combines the readings of the parts, from left to right, starting with `v`: a present
part is added with its coefficient, a missing one resets the sum to the missing-value marker. -/
def codeSum : List (Option Rat × Rat) → (v : Rat) → Rat
  | [], v => v
  | (none, _) :: ps, _ => codeSum ps missingMark
  | (some x, c) :: ps, v => codeSum ps (v + x * c)

/-- The readings of the parts (columns and coefficients) of an observable. -/
def GotAll (l : List Char) (prs : List (Nat × Rat)) (xs : List (Option Rat × Rat)) : Prop :=
  List.Forall₂ (fun (pr : Nat × Rat) (x : Option Rat × Rat) => (∃ d, 0 ≤ d ∧ Got l pr.1 x.1 d) ∧ x.2 = pr.2) prs xs

/-- What the data lines of an epoch give for a request, as `EpochGives`, but with what the code makes
of the fields. -/
inductive EpochGot (mmap : List (SatSys × List (List (Nat × Rat)))) : List (List Char) → List ((SatSys × Int) × List Rat) → Prop
  | nil : EpochGot mmap [] []
  | skip {l : List Char} {ls : List (List Char)} {out : List ((SatSys × Int) × List Rat)} (sys : SatSys) :
      l.head? = some (satsysToChar sys) → mmap.lookup sys = none → EpochGot mmap ls out → EpochGot mmap (l :: ls) out
  | sat {l : List Char} {ls : List (List Char)} {out : List ((SatSys × Int) × List Rat)} (sys : SatSys) (prn : Nat)
      (sysobs : List (List (Nat × Rat))) (xss : List (List (Option Rat × Rat))) :
      l.head? = some (satsysToChar sys) → mmap.lookup sys = some sysobs → NatAt ((l.drop 1).take 2) 0 prn → 1 ≤ prn → prn ≤ 99 →
      3 ≤ l.length → List.Forall₂ (GotAll l) sysobs xss →
      EpochGot mmap ls out → EpochGot mmap (l :: ls) (((sys, (prn : Int)), xss.map (codeSum · 0)) :: out)

end Ggnss
