import Verif.Spec.Columns
import Verif.Spec.NavFile
import Verif.Model.Obs
/-!
# Specification: observation requests, columns and combinations

From the model only the data types `SatSys`, `ObsCode`, `ObsPart`, `Observable` are used.
-/
namespace Ggnss

/-- Column `i` is the first one that shows the code. -/
def FirstCol (codes : List ObsCode) (code : ObsCode) (i : Nat) : Prop :=
  codes[i]? = some code ∧ ∀ j < i, codes[j]? ≠ some code

/-- A requested observable can be formed from the columns of system `sys`: all its parts belong to
`sys` and their codes are among the columns. -/
def Satisfiable (codes : List ObsCode) (sys : SatSys) (o : Observable) : Prop :=
  ∀ p ∈ o.vec, p.type.sys = sys ∧ p.type.code ∈ codes

instance (codes : List ObsCode) (sys : SatSys) (o : Observable) : Decidable (Satisfiable codes sys o) :=
  inferInstanceAs (Decidable (∀ p ∈ o.vec, _))

/-- `prs` are the columns and coefficients of the observable's parts, in order. -/
def ColumnsOf (codes : List ObsCode) (o : Observable) (prs : List (Nat × Rat)) : Prop :=
  List.Forall₂ (fun (p : ObsPart) (pr : Nat × Rat) => FirstCol codes p.type.code pr.1 ∧ pr.2 = p.coef) o.vec prs

/-- The value that stands for "no observation". -/
def missingMark : Rat := -99999 / 100

/-- A flag column (LLI or SSI): blank or a digit. -/
def IsFlag (c : Char) : Prop := c = ' ' ∨ c.isDigit = true

instance (c : Char) : Decidable (IsFlag c) := inferInstanceAs (Decidable (_ ∨ _))

/-- Its number; blank counts as 0. -/
def flagNum (c : Char) : Nat := if c = ' ' then 0 else c.toNat - 48

/-- A 16-char observation field (F14.3,I1,I1): a number in 14 columns and two flag columns. -/
structure ObsField where
  num : Numeral
  lli : Char
  ssi : Char

namespace ObsField

def text (f : ObsField) : List Char := f.num.text ++ [f.lli, f.ssi]

/-- Fixed-point number (with a decimal point, no exponent) filling its 14 columns. -/
structure WF (f : ObsField) : Prop where
  num : f.num.Shape
  noexp : f.num.exp = none
  point : f.num.frac.isSome = true
  width : f.num.text.length = 14
  lli : IsFlag f.lli
  ssi : IsFlag f.ssi

end ObsField

/-- The 16 columns of observation `i` (0-based) of a data line: they start after the 3-char satellite
name.  A line may end early: blanks at its end need not be written. -/
def fieldText (l : List Char) (i : Nat) : List Char :=
  let cols := (l.drop (3 + 16 * i)).take 16
  cols ++ List.replicate (16 - cols.length) ' ' 

/-- What a data line says about observation `i`: nothing when the value columns are blank (or behind
the end of the line), otherwise the number of the field. -/
inductive Reads (l : List Char) (i : Nat) : Option Rat → Prop
  | missing : (∀ c ∈ (fieldText l i).take 14, c = ' ') → Reads l i none
  | value (f : ObsField) : f.WF → fieldText l i = f.text → Reads l i (some f.num.value)

/-- The linear combination of readings (with their coefficients): missing as soon as one part is
missing. -/
def combination (parts : List (Option Rat × Rat)) : Rat :=
  if parts.any (fun p => p.1.isNone) then missingMark else (parts.map (fun p => p.1.getD 0 * p.2)).sum

/-- A reading the code gets right: nothing at all, or a complete field with a blank LLI column whose
value is not the missing-value marker itself. -/
def PlainReading (l : List Char) (i : Nat) (x : Option Rat) : Prop :=
  Reads l i x ∧ (x ≠ none → 3 + 16 * i + 16 ≤ l.length ∧ l[3 + 16 * i + 14]? = some ' ' ∧ x ≠ some missingMark)

/-- What the parts of an observable (columns and coefficients) read. -/
def PartsRead (l : List Char) (prs : List (Nat × Rat)) (xs : List (Option Rat × Rat)) : Prop :=
  List.Forall₂ (fun pr x => PlainReading l pr.1 x.1 ∧ x.2 = pr.2) prs xs

/-- The codes the header gives for a system (none when the system does not occur). -/
def codesOf (obst : List (SatSys × List ObsCode)) (sys : SatSys) : List ObsCode := (obst.lookup sys).getD []

/-! ## Epoch headers -/

/-- `txt` is the unsigned integer `v`, right-adjusted (or zero padded) in `w` columns. -/
def IntCols (w : Nat) (txt : List Char) (v : Nat) : Prop :=
  txt.length = w ∧ ∃ k ds, txt = List.replicate k ' ' ++ ds ∧ allDigits ds ∧ ds ≠ [] ∧ Nat.ofDigitChars 10 ds 0 = v

/-- The columns of an epoch header line: `>`, blank, year (4 columns), month, day, hour, minute (2
each, with a blank before each), seconds (11 columns, the first one blank), two blanks, flag,
number of satellites (3 columns), and what follows (6 reserved columns and the receiver clock
offset, if anything at all). -/
structure EpochText where
  year : List Char
  month : List Char
  day : List Char
  hour : List Char
  min : List Char
  sec : List Char
  flag : Char
  nsat : List Char
  tail : List Char

def EpochText.line (e : EpochText) : List Char :=
  '>' :: ' ' :: (e.year ++ ' ' :: (e.month ++ ' ' :: (e.day ++ ' ' :: (e.hour ++ ' ' :: (e.min ++ ' ' ::
    (e.sec ++ ' ' :: ' ' :: e.flag :: (e.nsat ++ e.tail)))))))

/-- The receiver clock offset, in the columns from 41 on (that is, 6 columns into the tail): absent,
blank (meaning 0), or a number. -/
inductive ClockIs (tail : List Char) : Option Rat → Prop
  | absent : tail.length ≤ 6 → ClockIs tail none
  | blank : 6 < tail.length → (∀ c ∈ tail.drop 6, c = ' ') → ClockIs tail (some 0)
  | number (n : Numeral) (rest : List Char) : n.WF → tail.drop 6 = n.text ++ rest → stopsNumber rest → 6 < tail.length →
      ClockIs tail (some n.value)

/-- What the line says. -/
structure EpochText.Says (e : EpochText) (y mo d h mi : Nat) (sec : Rat) (flag nsat : Nat) (clock : Option Rat) : Prop where
  year : IntCols 4 e.year y
  month : IntCols 2 e.month mo
  day : IntCols 2 e.day d
  hour : IntCols 2 e.hour h
  min : IntCols 2 e.min mi
  seconds : ∃ n : Numeral, n.WF ∧ n.text = e.sec ∧ n.text.length = 10 ∧ n.value = sec
  flagDigit : e.flag.isDigit = true
  flagIs : flagNum e.flag = flag
  nsatIs : IntCols 3 e.nsat nsat
  tailBlank : ∀ c, e.tail.head? = some c → c = ' '
  clockIs : ClockIs e.tail clock
  cstr : NUL ∉ e.tail

/-! ## Epochs -/

/-- What the data lines of an epoch give for a request (`mmap`: columns and coefficients per system):
lines of systems that are not requested give nothing, every other line gives its satellite and the
values of the requested observables, in the order of the lines.  Every line starts with the letter
of its system and a satellite number in two columns.  As in C39, the fields asked for have a blank
LLI column, and within an observable no present part follows a missing one. -/
inductive EpochGives (mmap : List (SatSys × List (List (Nat × Rat)))) : List (List Char) → List ((SatSys × Int) × List Rat) → Prop
  | nil : EpochGives mmap [] []
  | skip {l : List Char} {ls : List (List Char)} {out : List ((SatSys × Int) × List Rat)} (sys : SatSys) :
      l.head? = some (satsysToChar sys) → mmap.lookup sys = none → EpochGives mmap ls out → EpochGives mmap (l :: ls) out
  | sat {l : List Char} {ls : List (List Char)} {out : List ((SatSys × Int) × List Rat)} (sys : SatSys) (prn : Nat)
      (sysobs : List (List (Nat × Rat))) (xss : List (List (Option Rat × Rat))) :
      l.head? = some (satsysToChar sys) → mmap.lookup sys = some sysobs → NatAt ((l.drop 1).take 2) 0 prn → 1 ≤ prn → prn ≤ 99 →
      3 ≤ l.length → List.Forall₂ (PartsRead l) sysobs xss → (∀ xs ∈ xss, xs.Pairwise (fun a b => a.1 = none → b.1 = none)) →
      EpochGives mmap ls out → EpochGives mmap (l :: ls) (((sys, (prn : Int)), xss.map combination) :: out)

/-- The output vector `ov'` holds the results `out` in its first slots (values beyond the requested
ones being those of the old vector `ov`), and is the old one elsewhere. -/
structure Holds (ov ov' : List ((SatSys × Int) × List Rat)) (out : List ((SatSys × Int) × List Rat)) : Prop where
  length : ov'.length = ov.length
  slots : ∀ (j : Nat) (o : (SatSys × Int) × List Rat), out[j]? = some o → ∃ e, ov[j]? = some e ∧ ov'[j]? = some (o.1, o.2 ++ e.2.drop o.2.length)
  others : ∀ j : Nat, out.length ≤ j → ov'[j]? = ov[j]?

/-- An epoch of the file: header and data lines. -/
structure ObsEpochBlock where
  head : EpochText
  lines : List (List Char)

def ObsEpochBlock.text (b : ObsEpochBlock) : List Char := linesText (b.head.line :: b.lines)

end Ggnss
