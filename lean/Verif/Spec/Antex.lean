import Verif.Spec.Bern
import Verif.Model.SatSys
/-!
# Specification: ANTEX files as text, and what they say

From the model only `SatSys`, `satsysToChar`, `DateTime` and `Res` are used.  Columns count from 0;
the label of a line starts in column 60.
-/
namespace Ggnss

/-- The line carries the label `p`. -/
def HasLabel (l p : List Char) : Prop := p <+: l.drop 60

instance (l p : List Char) : Decidable (HasLabel l p) := inferInstanceAs (Decidable (_ <+: _))

/-- A labelled line of at most 84 chars. -/
def Labelled (l p : List Char) : Prop := LineFits 84 l ∧ HasLabel l p

/-- A line of the phase pattern: 60 to 511 chars. -/
def GridLine (l : List Char) : Prop := LineFits 511 l ∧ 60 ≤ l.length

instance (l p : List Char) : Decidable (Labelled l p) := inferInstanceAs (Decidable (_ ∧ _))
instance (l : List Char) : Decidable (GridLine l) := inferInstanceAs (Decidable (_ ∧ _))

/-- The block of one frequency. -/
structure AtxFreq where
  sys : SatSys
  band : Nat
  north : Numeral
  east : Numeral
  up : Numeral
  start : List Char                                   -- START OF FREQUENCY
  neu : List Char                                     -- NORTH / EAST / UP
  pattern : List (List Char)
  stop : List Char                                    -- END OF FREQUENCY
  rms : Option (List Char × List (List Char) × List Char)   -- START OF FREQ RMS, lines, END OF FREQ RMS

def AtxFreq.rmsLines (f : AtxFreq) : List (List Char) :=
  match f.rms with
  | none => []
  | some (a, ls, b) => a :: (ls ++ [b])

def AtxFreq.lines (f : AtxFreq) : List (List Char) := f.start :: f.neu :: (f.pattern ++ f.stop :: f.rmsLines)

structure AtxFreq.WF (f : AtxFreq) : Prop where
  start : Labelled f.start c!"START OF FREQUENCY"
  sys : f.start[3]? = some (satsysToChar f.sys)
  band : NatAt ((f.start.drop 4).take 2) 0 f.band
  neu : Labelled f.neu c!"NORTH / EAST / UP"
  north : NumAt (f.neu.take 10) 0 f.north
  east : NumAt ((f.neu.drop 10).take 10) 0 f.east
  up : NumAt ((f.neu.drop 20).take 10) 0 f.up
  pattern : ∀ l ∈ f.pattern, GridLine l ∧ ¬ HasLabel l c!"END OF FREQUENCY" ∧ ¬ HasLabel l c!"END OF ANTENNA"
  stop : Labelled f.stop c!"END OF FREQUENCY"
  rms : ∀ a ls b, f.rms = some (a, ls, b) → Labelled a c!"START OF FREQ RMS" ∧ Labelled b c!"END OF FREQ RMS" ∧
    ∀ l ∈ ls, GridLine l ∧ ¬ HasLabel l c!"END OF FREQ RMS" ∧ ¬ HasLabel l c!"END OF ANTENNA"

/-- What a frequency block says: system, band, north, east, up. -/
def AtxFreq.offset (f : AtxFreq) : SatSys × Int × Rat × Rat × Rat :=
  (f.sys, (f.band : Int), f.north.value, f.east.value, f.up.value)

/-- An optional line between `# OF FREQUENCIES` and the first frequency. -/
inductive AtxOpt where
  | validFrom (d : DateTime) (l : List Char)
  | validUntil (d : DateTime) (l : List Char)
  | other (l : List Char)

def AtxOpt.line : AtxOpt → List Char
  | .validFrom _ l => l
  | .validUntil _ l => l
  | .other l => l

def AtxOpt.from? : AtxOpt → Option DateTime
  | .validFrom d _ => some d
  | _ => none

def AtxOpt.until? : AtxOpt → Option DateTime
  | .validUntil d _ => some d
  | _ => none

def AtxOpt.WF (strptime : List Char → Res DateTime) : AtxOpt → Prop
  | .validFrom d l => Labelled l c!"VALID FROM" ∧ DateAt strptime l 0 d
  | .validUntil d l => Labelled l c!"VALID UNTIL" ∧ DateAt strptime l 0 d
  | .other l => LineFits 84 l ∧ 60 ≤ l.length ∧ ¬ HasLabel l c!"VALID FROM" ∧ ¬ HasLabel l c!"VALID UNTIL" ∧
      ¬ HasLabel l c!"START OF FREQUENCY" ∧ ¬ HasLabel l c!"END OF ANTENNA"

/-- What a `TYPE / SERIAL NO` line says about a satellite: system, number, SVN and COSPAR id (the
last two optional). -/
structure AtxSatId where
  sys : SatSys
  prn : Nat
  svn : Option Nat
  cospar : Option (List Char)

/-- One antenna. -/
structure AtxBlock where
  start : List Char
  type : List Char
  sat : Option AtxSatId
  meth : List Char
  dazi : List Char
  zen : List Char
  num : List Char
  opts : List AtxOpt
  freqs : List AtxFreq
  last : List Char

/-- Model and radome. -/
def AtxBlock.model (b : AtxBlock) : List Char := b.type.take 20
/-- Serial number. -/
def AtxBlock.serial (b : AtxBlock) : List Char := (b.type.drop 20).take 20
def AtxBlock.NoSerial (b : AtxBlock) : Prop := ∀ c ∈ b.serial, c = ' '
instance (b : AtxBlock) : Decidable b.NoSerial := inferInstanceAs (Decidable (∀ c ∈ b.serial, _))

/-- The offsets of the antenna, in file order. -/
def AtxBlock.offsets (b : AtxBlock) : List (SatSys × Int × Rat × Rat × Rat) := b.freqs.map (·.offset)

/-- Begin and end of validity. -/
def AtxBlock.validFrom (b : AtxBlock) : Option DateTime := b.opts.findSome? (·.from?)
def AtxBlock.validUntil (b : AtxBlock) : Option DateTime := b.opts.findSome? (·.until?)

/-- The antenna is valid at `t`: `VALID FROM ≤ t`, and `t ≤ VALID UNTIL` unless that is missing. -/
def AtxBlock.ValidAt (b : AtxBlock) (t : DateTime) : Prop :=
  (∃ d, b.validFrom = some d ∧ d.total ≤ t.total) ∧ ∀ e, b.validUntil = some e → t.total ≤ e.total

/-- The lines after `TYPE / SERIAL NO`. -/
def AtxBlock.body (b : AtxBlock) : List (List Char) :=
  [b.meth, b.dazi, b.zen, b.num] ++ b.opts.map (·.line) ++ (b.freqs.map (·.lines)).flatten ++ [b.last]

def AtxBlock.lines (b : AtxBlock) : List (List Char) := b.start :: b.type :: b.body

/-- A `TYPE / SERIAL NO` line and what it says about a satellite: nothing, if there is no system
letter in column 20. -/
def SatIdAt (l : List Char) : Option AtxSatId → Prop
  | none => ∀ sys, l[20]? ≠ some (satsysToChar sys)
  | some i => l[20]? = some (satsysToChar i.sys) ∧ NatAt ((l.drop 21).take 5) 0 i.prn ∧
      (match i.svn with
       | none => BlankCols l 40 50
       | some n => l[40]? = l[20]? ∧ NatAt ((l.drop 41).take 5) 0 n) ∧
      (match i.cospar with
       | none => BlankCols l 50 60
       | some c => ¬ BlankCols l 50 60 ∧ c = (l.drop 50).take 8)

structure AtxBlock.WF (strptime : List Char → Res DateTime) (b : AtxBlock) : Prop where
  start : Labelled b.start c!"START OF ANTENNA"
  type : Labelled b.type c!"TYPE / SERIAL NO"
  sat : SatIdAt b.type b.sat
  meth : Labelled b.meth c!"METH / BY / # / DATE"
  dazi : Labelled b.dazi c!"DAZI"
  zen : Labelled b.zen c!"ZEN1 / ZEN2 / DZEN"
  num : Labelled b.num c!"# OF FREQUENCIES"
  numVal : NatAt (b.num.take 6) 0 b.freqs.length
  some_ : b.freqs ≠ []
  opts : ∀ o ∈ b.opts, o.WF strptime
  oneFrom : (b.opts.filterMap (·.from?)).length ≤ 1
  oneUntil : (b.opts.filterMap (·.until?)).length ≤ 1
  freqs : ∀ f ∈ b.freqs, f.WF
  last : Labelled b.last c!"END OF ANTENNA"
  few : b.body.length < 5000

/-- The antennas of a file. -/
def atxBlocksText (bs : List AtxBlock) : List Char := linesText (bs.map (·.lines)).flatten

/-- The header: version and system, type of the phase values, other lines, end of header. -/
structure AtxHeader where
  version : Numeral
  sys : SatSys
  first : List Char
  second : List Char
  others : List (List Char)
  last : List Char

def AtxHeader.lines (h : AtxHeader) : List (List Char) := h.first :: h.second :: (h.others ++ [h.last])
def AtxHeader.text (h : AtxHeader) : List Char := linesText h.lines

structure AtxHeader.WF (h : AtxHeader) : Prop where
  first : LineFits 84 h.first ∧ 60 ≤ h.first.length ∧ ¬ HasLabel h.first c!"METH / BY / # / DATE"
  version : NumAt (h.first.take 15) 0 h.version
  v13or14 : h.version.value = 13 / 10 ∨ h.version.value = 14 / 10
  sys : h.first[20]? = some (satsysToChar h.sys)
  second : LineFits 84 h.second ∧ h.second.head? = some 'A'
  others : ∀ l ∈ h.others, LineFits 84 l ∧ 60 ≤ l.length ∧ ¬ HasLabel l c!"END OF HEADER"
  few : h.others.length < 1000
  last : Labelled h.last c!"END OF HEADER"

/-- A whole file. -/
def atxText (h : AtxHeader) (bs : List AtxBlock) : List Char := h.text ++ atxBlocksText bs

/-- Index `i` is the first one with `P`. -/
def FirstIdx (bs : List AtxBlock) (P : AtxBlock → Prop) (i : Nat) (b : AtxBlock) : Prop :=
  bs[i]? = some b ∧ P b ∧ ∀ j < i, ∀ q, bs[j]? = some q → ¬ P q

/-- Index `i` is the last one with `P`. -/
def LastIdx (bs : List AtxBlock) (P : AtxBlock → Prop) (i : Nat) (b : AtxBlock) : Prop :=
  bs[i]? = some b ∧ P b ∧ ∀ j > i, ∀ q, bs[j]? = some q → ¬ P q

end Ggnss
