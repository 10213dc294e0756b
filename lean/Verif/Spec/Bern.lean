import Verif.Spec.Columns
import Verif.Spec.NavFile
import Verif.Model.Time
/-!
# Specification: Bernese SATELLIT files as text, and the satellite record in force

From the model only `DateTime` and `Res` are used.
-/
namespace Ggnss

/-- A text line of at most `n` chars. -/
def LineFits (n : Nat) (l : List Char) : Prop := '\n' ∉ l ∧ NUL ∉ l ∧ l.length ≤ n

instance (n : Nat) (l : List Char) : Decidable (LineFits n l) := inferInstanceAs (Decidable (_ ∧ _))

/-- From column `off` on, line `l` shows the integer `v` (possibly after blanks, possibly with a
minus sign), and the next char is not a digit; `v` fits an `int`. -/
def IntAt (l : List Char) (off : Nat) (v : Int) : Prop :=
  off ≤ l.length ∧ ∃ (k : Nat) (neg : Bool) (ds rest : List Char),
    l.drop off = List.replicate k ' ' ++ ((if neg then ['-'] else []) ++ (ds ++ rest)) ∧
    allDigits ds ∧ ds ≠ [] ∧ (∀ c, rest.head? = some c → c.isDigit = false) ∧
    v = (if neg then -(Nat.ofDigitChars 10 ds 0 : Int) else (Nat.ofDigitChars 10 ds 0 : Int)) ∧
    -2147483648 ≤ v ∧ v < 2147483648

/-- Text and meaning of a record line of the block 'PART 2: ON-BOARD SENSORS'.  `mw = none` is a
sensor that is not a micro-wave antenna. -/
structure BernRec where
  line : List Char
  mw : Option (Nat × DateTime × Option DateTime × Nat × Int)   -- svn, start, stop, prn, channel

/-- The reader of dates says that line `l` shows the date `d` from column `off` on (the date reader
is an external function). -/
def DateAt (strptime : List Char → Res DateTime) (l : List Char) (off : Nat) (d : DateTime) : Prop :=
  ∀ tail, strptime ((l ++ NUL :: tail).drop off) = .ok d

/-- Columns `a ≤ i < b` are blank. -/
def BlankCols (l : List Char) (a b : Nat) : Prop := ∀ i, a ≤ i → i < b → l[i]? = some ' '

/-- The end of validity in columns 63-82 (1-based): blank for `none`. -/
def StopAt (strptime : List Char → Res DateTime) (l : List Char) : Option DateTime → Prop
  | none => BlankCols l 62 82
  | some d => (∃ i c, 62 ≤ i ∧ i < 82 ∧ l[i]? = some c ∧ c ≠ ' ') ∧ DateAt strptime l 62 d

/-- The record line is well formed and says what `mw` says. -/
structure BernRec.WF (strptime : List Char → Res DateTime) (r : BernRec) : Prop where
  fits : LineFits 255 r.line
  long : 10 ≤ r.line.length
  notPart3 : r.line.take 6 ≠ c!"PART 3"
  other : r.mw = none → ¬ (r.line[5]? = some 'M' ∧ r.line[6]? = some 'W')
  isMw : ∀ svn start stop prn chan, r.mw = some (svn, start, stop, prn, chan) →
    r.line[5]? = some 'M' ∧ r.line[6]? = some 'W' ∧ NatAt r.line 28 svn ∧
    DateAt strptime r.line 41 start ∧ StopAt strptime r.line stop ∧ 82 ≤ r.line.length ∧
    NatAt r.line 0 prn ∧ IntAt r.line 193 chan

/-- The record is a micro-wave record of satellite `svn` in force at `t`: `start ≤ t < stop`. -/
def BernRec.InForce (r : BernRec) (svn : Int) (t : DateTime) : Prop :=
  ∃ v start stop prn chan, r.mw = some (v, start, stop, prn, chan) ∧ (v : Int) = svn ∧
    start.total ≤ t.total ∧ ∀ e, stop = some e → t.total < e.total

/-- What follows the last record: a line of fewer than 10 chars (e.g. a blank one) or the heading
of part 3 and more text, or nothing. -/
inductive BernEnd where
  | short (l : List Char) (rest : List Char)
  | part3 (l : List Char) (rest : List Char)
  | eof

def BernEnd.text : BernEnd → List Char
  | .short l rest => l ++ '\n' :: rest
  | .part3 l rest => l ++ '\n' :: rest
  | .eof => []

def BernEnd.WF : BernEnd → Prop
  | .short l _ => LineFits 255 l ∧ l.length < 10
  | .part3 l _ => LineFits 255 l ∧ l.take 6 = c!"PART 3"
  | .eof => True

/-- The text of the records block. -/
def bernText (recs : List BernRec) (e : BernEnd) : List Char := linesText (recs.map (·.line)) ++ e.text

/-- The answer prescribed for a lookup among the first `lim` records: the first one in force, or
"not found" with the outputs untouched. -/
def BernAnswer (recs : List BernRec) (lim : Nat) (svn : Int) (eph : DateTime) (ifrqn prn : Int)
    (st fr pr : Int) : Prop :=
  (∃ i r v start stop p ch, i < lim ∧ recs[i]? = some r ∧ r.InForce svn eph ∧
      (∀ j < i, ∀ q, recs[j]? = some q → ¬ q.InForce svn eph) ∧
      r.mw = some (v, start, stop, p, ch) ∧ st = 0 ∧ fr = ch ∧ pr = p) ∨
  ((∀ i < lim, ∀ q, recs[i]? = some q → ¬ q.InForce svn eph) ∧ st = -1 ∧ fr = ifrqn ∧ pr = prn)


/-- The lines before the records: the title, any lines, the heading of part 2, a line of dashes, two
lines of column titles and one more line. -/
structure BernHeader where
  first : List Char
  pre : List (List Char)
  part2 : List Char
  dashes : List Char
  head1 : List Char
  head2 : List Char
  blank : List Char

def BernHeader.text (h : BernHeader) : List Char :=
  linesText ([h.first] ++ h.pre ++ [h.part2, h.dashes, h.head1, h.head2, h.blank])

structure BernHeader.WF (h : BernHeader) : Prop where
  first : LineFits 255 h.first ∧
    c!"SATELLITE-SPECIFIC INFO FOR GPS/GLONASS/GEO/LEO/SLR, BSW5.2" <+: h.first
  pre : ∀ l ∈ h.pre, LineFits 255 l ∧ ¬ c!"PART 2: ON-BOARD SENSORS" <+: l
  few : h.pre.length < 999
  part2 : LineFits 255 h.part2 ∧ c!"PART 2: ON-BOARD SENSORS" <+: h.part2
  dashes : LineFits 255 h.dashes
  head1 : LineFits 255 h.head1 ∧
    c!"                                              START TIME           END TIME                 SENSOR OFFSETS (M)       SENSOR BORESIGHT VECTOR (U) SENSOR AZIMUTH VECTOR (N)" <+: h.head1
  head2 : LineFits 255 h.head2 ∧
    c!"PRN  TYPE  SENSOR NAME______SVN  NUMBER  YYYY MM DD HH MM SS  YYYY MM DD HH MM SS         DX        DY        DZ         X       Y       Z          X       Y       Z      ANTEX SENSOR NAME___  IFRQ  SIGNAL LIST___________------>" <+: h.head2
  blank : LineFits 255 h.blank

end Ggnss
